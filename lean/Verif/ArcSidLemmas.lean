import Verif.ArcSidSpec
import Verif.ArcLemmas

/-! # Lemmas about sub-ids of written elements -/

namespace Verif.FArc

open Verif.FEff (Text text)

theorem hasSid_iff (sid n : Text) (as : List (Text × Text)) (t : Text) (ks : List Node) :
    HasSid sid (.elem n as t ks) ↔ (Node.elem n as t ks).raw (text "sid") = some sid ∨ ∃ k ∈ ks, HasSid sid k := by
  constructor
  · intro h
    cases h with
    | here h => exact .inl h
    | deeper h1 h2 => exact .inr ⟨_, h1, h2⟩
  · rintro (h | ⟨k, h1, h2⟩)
    · exact .here h
    · exact .deeper h1 h2

theorem prop_sid (sid n : Text) (as : List (Text × Text)) (t : Text) (ks : List Node) (hs : sid ≠ []) (hp : ∀ s, (Node.elem n as t ks).raw (text "sid") = some s → Plain s) :
    ∃ s, prop (some (.elem n as t ks)) (text "sid") = some s ∧ (s = sid ↔ (Node.elem n as t ks).raw (text "sid") = some sid) := by
  unfold prop
  rw [Option.bind_some]
  cases h : (Node.elem n as t ks).raw (text "sid") with
  | none => exact ⟨[], rfl, by simpa using Ne.symm hs⟩
  | some s => exact ⟨s, decode_plain (hp s h), by simp⟩

mutual
theorem findSid_iff (sid : Text) (hs : sid ≠ []) : ∀ n : Node, PlainSids n → ∃ b, findSid sid n = some b ∧ (b = true ↔ HasSid sid n)
  | .elem n as t ks, h => by
    obtain ⟨s, h1, h2⟩ := prop_sid sid n as t ks hs fun s hs => h s (.here hs)
    obtain ⟨b, h3, h4⟩ := findSids_iff sid hs ks fun k hk s hs => h s (.deeper hk hs)
    rw [findSid, h1, Option.bind_some]
    by_cases e : s = sid
    · exact ⟨true, by rw [if_pos e], by simpa [hasSid_iff] using .inl (h2.1 e)⟩
    · exact ⟨b, by rw [if_neg e, h3], by rw [h4, hasSid_iff, ← h2]; simp [e]⟩
theorem findSids_iff (sid : Text) (hs : sid ≠ []) : ∀ ks : List Node, (∀ k ∈ ks, PlainSids k) → ∃ b, findSids sid ks = some b ∧ (b = true ↔ ∃ k ∈ ks, HasSid sid k)
  | [], _ => ⟨false, rfl, by simp⟩
  | k :: ks, h => by
    obtain ⟨b, h1, h2⟩ := findSid_iff sid hs k (h k (by simp))
    obtain ⟨c, h3, h4⟩ := findSids_iff sid hs ks fun k hk => h k (by simp [hk])
    rw [findSids, h1, Option.bind_some]
    cases b with
    | true => exact ⟨true, rfl, by simpa using .inl (h2.1 rfl)⟩
    | false =>
      refine ⟨c, h3, ?_⟩
      rw [h4]
      have : ¬ HasSid sid k := fun hh => by simpa using h2.2 hh
      simp [this]
end

theorem trySids_spec (scope : Node) (hp : PlainSids scope) (wanted : Text) (hw : wanted ≠ []) : ∀ cs : List Nat,
    (∃ pre c post, cs = pre ++ c :: post ∧ (∀ d ∈ pre, HasSid (wanted ++ natText d) scope) ∧ ¬ HasSid (wanted ++ natText c) scope ∧
      trySids scope wanted cs = some (some (wanted ++ natText c), wanted ++ natText c)) ∨
    ((∀ d ∈ cs, HasSid (wanted ++ natText d) scope) ∧ trySids scope wanted cs = some (none, []))
  | [] => .inr ⟨by simp, rfl⟩
  | c :: cs => by
    obtain ⟨b, h1, h2⟩ := findSid_iff (wanted ++ natText c) (by simp [hw]) scope hp
    rw [trySids, h1, Option.bind_some]
    cases b with
    | false => exact .inl ⟨[], c, cs, rfl, by simp, fun hh => by simpa using h2.2 hh, rfl⟩
    | true =>
      rcases trySids_spec scope hp wanted hw cs with ⟨pre, d, post, rfl, h3, h4, h5⟩ | ⟨h3, h4⟩
      · exact .inl ⟨c :: pre, d, post, rfl, by simpa using ⟨h2.1 rfl, h3⟩, h4, h5⟩
      · exact .inr ⟨by simpa using ⟨h2.1 rfl, h3⟩, h4⟩

theorem natText_different {a b : Nat} (ha : a < 2 ^ 32) (hb : b < 2 ^ 32) (h : natText a = natText b) : a = b := by
  have := readNat_natText a ha
  rw [h, readNat_natText b hb] at this
  exact (Option.some.inj this).symm

theorem natText_nonempty (a : Nat) (ha : a < 2 ^ 32) : natText a ≠ [] := by
  intro h
  have h1 := readNat_natText a ha
  rw [h] at h1
  have : readNat [] = some 0 := by decide +kernel
  rw [this] at h1
  have h0 : a = 0 := (Option.some.inj h1).symm
  subst h0
  exact absurd h (by decide +kernel)

end Verif.FArc
