import Verif.ArcPtrLemmas

/-!
# C179: the address of an animated element names it

Wanted: the address that is calculated for an element names that element and no other, so that animations saved for it are linked to it after loading.
-/

namespace Verif.FArc

open Verif.FEff (Text text)

/-- **C179.** The address of an element with an id, or with a sub id below an element with a name, is made of the id and the sub ids. -/
theorem pointer_address (root : Node) (p : List Nat) (cs : List Text) (h : Named root p cs) : pointerAt root p = some (pathText cs) := by
  obtain ⟨n, h1, h2⟩ := named_has h
  rw [pointerAt_full h1 h2, full_named h]

/-- **C179.** An address that is not empty is made of the names of the element, if the element has one. -/
theorem pointer_named (root : Node) (p : List Nat) (t : Text) (h : pointerAt root p = some t) (h0 : t ≠ []) (hs : ¬ SidAt root p []) : ∃ cs, Named root p cs ∧ t = pathText cs := by
  have hx : ∃ n, nodeAt root p = some n ∧ (n.has (text "id") || n.has (text "sid")) = true := by
    unfold pointerAt at h
    obtain ⟨x, h1, h2⟩ := Option.bind_eq_some_iff.1 h
    refine ⟨x.1, by rw [node_parents _ _ [docNode], h1]; rfl, ?_⟩
    rw [target_full] at h2
    by_contra hc
    rw [if_neg hc] at h2
    exact h0 (Option.some.inj h2).symm
  obtain ⟨n, h1, h2⟩ := hx
  rw [pointerAt_full h1 h2] at h
  obtain ⟨p0, cs, w, rfl, hc, rfl, hw⟩ := full_back p t h h0
  by_cases e : w = []
  · subst e
    rw [List.append_nil]
    exact ⟨cs, hc, rfl⟩
  · exact absurd (hw w e List.prefix_rfl) hs

/-- **C179.** No address: an element without id and sub id, or one with no id above it. -/
theorem pointer_none (root : Node) (p : List Nat) (n : Node) (hn : nodeAt root p = some n) (h : (n.has (text "id") = false ∧ n.has (text "sid") = false) ∨ ∀ q, q <+: p → ∀ m, nodeAt root q = some m → m.has (text "id") = false) :
    pointerAt root p = some [] := by
  obtain ⟨up, hu⟩ := at_parents hn
  unfold pointerAt
  rw [hu, Option.bind_some, target_full]
  rcases h with ⟨h1, h2⟩ | h
  · rw [if_neg (by rw [h1, h2]; decide)]
  · have all : ∀ q, q <+: p → fullAt root q = some [] := by
      intro q
      induction q using List.reverseRecOn with
      | nil => intro _; exact fullAt_root (h [] List.nil_prefix root rfl)
      | append_singleton q i ih =>
        intro hq
        have hx : ∃ m, nodeAt root (q ++ [i]) = some m := by
          obtain ⟨w, rfl⟩ := hq
          have cut : ∀ (a : List Nat) (r : Node), nodeAt r (a ++ w) ≠ none → ∃ m, nodeAt r a = some m := by
            intro a
            induction a with
            | nil => intro r _; exact ⟨r, rfl⟩
            | cons j a ih =>
              intro r hr
              have e1 : nodeAt r (j :: a ++ w) = r.kids[j]?.bind fun k => nodeAt k (a ++ w) := rfl
              have e2 : nodeAt r (j :: a) = r.kids[j]?.bind fun k => nodeAt k a := rfl
              rw [e1] at hr
              rw [e2]
              cases hk : r.kids[j]? with
              | none => rw [hk] at hr; exact absurd rfl hr
              | some k => rw [hk] at hr; exact ih k hr
          exact cut _ root (by rw [hn]; simp)
        obtain ⟨m, hm⟩ := hx
        rw [fullAt_step hm (h _ hq m hm), ih ((List.prefix_append _ _).trans hq), Option.bind_some, if_pos rfl]
    have hp := all p List.prefix_rfl
    unfold fullAt at hp
    rw [hu, Option.bind_some] at hp
    rw [hp]
    split <;> rfl

/-- **C179, partial.** Two elements with the same address, not empty, are the same, in a file where no name is used twice or has a slash. Missing: elements with an empty sub id (`pointer_empty_violated`), sub ids used twice
below elements without names (`pointer_shared_violated`), names with slashes (`pointer_slash_violated`). -/
theorem pointer_unique_partial (root : Node) (hd : NamesDiffer root) (hs : NoSlash root) (p q : List Nat) (t : Text) (hp : pointerAt root p = some t) (hq : pointerAt root q = some t) (h0 : t ≠ [])
    (h1 : ¬ SidAt root p []) (h2 : ¬ SidAt root q []) : p = q := by
  obtain ⟨cs, a1, a2⟩ := pointer_named root p t hp h0 h1
  obtain ⟨ds, b1, b2⟩ := pointer_named root q t hq h0 h2
  obtain rfl := pathText_inj (named_ne a1) (named_ne b1) (named_noSlash hs a1) (named_noSlash hs b1) (by rw [← a2, ← b2])
  exact named_unique hd a1 b1

/-- A node with a transform, and below an element without a name a value with a sub id. -/
def pointerFile : Node := .elem (text "node") [(text "id", text "n")] []
  [.elem (text "matrix") [(text "sid", text "m")] [] [], .elem (text "technique") [] [] [.elem (text "float") [(text "sid", text "f")] [] []]]

theorem pointerFile_places {p : List Nat} {n : Node} (h : nodeAt pointerFile p = some n) :
    (p = [] ∧ n = pointerFile) ∨ (p = [0] ∧ n = .elem (text "matrix") [(text "sid", text "m")] [] []) ∨
      (p = [1] ∧ n = .elem (text "technique") [] [] [.elem (text "float") [(text "sid", text "f")] [] []]) ∨ (p = [1, 0] ∧ n = .elem (text "float") [(text "sid", text "f")] [] []) := by
  match p, h with
  | [], h => exact Or.inl ⟨rfl, (Option.some.inj h).symm⟩
  | [0], h => exact Or.inr (Or.inl ⟨rfl, (Option.some.inj h).symm⟩)
  | 0 :: _ :: _, h => cases h
  | [1], h => exact Or.inr (Or.inr (Or.inl ⟨rfl, (Option.some.inj h).symm⟩))
  | [1, 0], h => exact Or.inr (Or.inr (Or.inr ⟨rfl, (Option.some.inj h).symm⟩))
  | 1 :: 0 :: _ :: _, h => cases h
  | 1 :: (_ + 1) :: _, h => cases h
  | (_ + 2) :: _, h => cases h

theorem pointerFile_ids {p : List Nat} {i : Text} (h : IdAt pointerFile p i) : p = [] ∧ i = text "n" := by
  obtain ⟨n, h1, h2, h3, -⟩ := h
  rcases pointerFile_places h1 with ⟨rfl, rfl⟩ | ⟨rfl, rfl⟩ | ⟨rfl, rfl⟩ | ⟨rfl, rfl⟩
  · exact ⟨rfl, Option.some.inj (h3.symm.trans (by decide +kernel))⟩
  · exact absurd h2 (by decide +kernel)
  · exact absurd h2 (by decide +kernel)
  · exact absurd h2 (by decide +kernel)

theorem pointerFile_sids {p : List Nat} {s : Text} (h : SidAt pointerFile p s) : (p = [0] ∧ s = text "m") ∨ (p = [1] ∧ s = []) ∨ (p = [1, 0] ∧ s = text "f") := by
  obtain ⟨n, h1, h2, h3⟩ := h
  rcases pointerFile_places h1 with ⟨rfl, rfl⟩ | ⟨rfl, rfl⟩ | ⟨rfl, rfl⟩ | ⟨rfl, rfl⟩
  · exact absurd h2 (by decide +kernel)
  · exact Or.inl ⟨rfl, Option.some.inj (h3.symm.trans (by decide +kernel))⟩
  · exact Or.inr (Or.inl ⟨rfl, Option.some.inj (h3.symm.trans (by decide +kernel))⟩)
  · exact Or.inr (Or.inr ⟨rfl, Option.some.inj (h3.symm.trans (by decide +kernel))⟩)

example : NamesDiffer pointerFile ∧ NoSlash pointerFile ∧ pointerAt pointerFile [1, 0] = some (text "n/f") ∧ pointerAt pointerFile [0] = some (text "n/m") ∧ pointerAt pointerFile [1] = some [] ∧ ¬ SidAt pointerFile [1, 0] [] := by
  refine ⟨⟨fun p q i h1 h2 => (pointerFile_ids h1).1.trans (pointerFile_ids h2).1.symm, ?_⟩, ⟨?_, ?_⟩, by decide +kernel, by decide +kernel, by decide +kernel, ?_⟩
  · rintro p q r s ⟨_, -, -, h1, h0, -⟩ ⟨_, -, -, h2, -, -⟩
    rcases pointerFile_sids h1 with ⟨rfl, rfl⟩ | ⟨rfl, rfl⟩ | ⟨rfl, rfl⟩
    · rcases pointerFile_sids h2 with ⟨rfl, e⟩ | ⟨rfl, e⟩ | ⟨rfl, e⟩
      · rfl
      · exact absurd e (by decide +kernel)
      · exact absurd e (by decide +kernel)
    · exact absurd rfl h0
    · rcases pointerFile_sids h2 with ⟨rfl, e⟩ | ⟨rfl, e⟩ | ⟨rfl, e⟩
      · exact absurd e (by decide +kernel)
      · exact absurd e (by decide +kernel)
      · rfl
  · intro p i h
    rw [(pointerFile_ids h).2]
    decide +kernel
  · intro p s h
    rcases pointerFile_sids h with ⟨-, rfl⟩ | ⟨-, rfl⟩ | ⟨-, rfl⟩ <;> decide +kernel
  · intro h
    rcases pointerFile_sids h with ⟨e, -⟩ | ⟨e, -⟩ | ⟨-, e⟩
    · exact absurd e (by decide)
    · exact absurd e (by decide)
    · exact absurd e (by decide +kernel)

/-! ## What does not hold -/

/-- **C179, violated.** Two elements with the same sub id below different elements without names have the same address: an animation of one is linked to both. -/
theorem pointer_shared_violated : ∃ root p q t, p ≠ q ∧ t ≠ [] ∧ pointerAt root p = some t ∧ pointerAt root q = some t ∧ NoSlash root := by
  refine ⟨.elem (text "effect") [(text "id", text "e")] [] [.elem (text "a") [] [] [.elem (text "float") [(text "sid", text "v")] [] []], .elem (text "b") [] [] [.elem (text "float") [(text "sid", text "v")] [] []]],
    [0, 0], [1, 0], text "e/v", by decide, by decide, by decide +kernel, by decide +kernel, ?_, ?_⟩
  · rintro p i ⟨n, h1, h2, h3, -⟩
    match p, h1 with
    | [], h1 => cases h1; rw [← Option.some.inj ((show prop _ _ = some (text "e") by decide +kernel).symm.trans h3)]; decide +kernel
    | [0], h1 => cases h1; exact absurd h2 (by decide +kernel)
    | [0, 0], h1 => cases h1; exact absurd h2 (by decide +kernel)
    | 0 :: 0 :: _ :: _, h1 => cases h1
    | 0 :: (_ + 1) :: _, h1 => cases h1
    | [1], h1 => cases h1; exact absurd h2 (by decide +kernel)
    | [1, 0], h1 => cases h1; exact absurd h2 (by decide +kernel)
    | 1 :: 0 :: _ :: _, h1 => cases h1
    | 1 :: (_ + 1) :: _, h1 => cases h1
    | (_ + 2) :: _, h1 => cases h1
  · rintro p s ⟨n, h1, h2, h3⟩
    match p, h1 with
    | [], h1 => cases h1; exact absurd h2 (by decide +kernel)
    | [0], h1 => cases h1; rw [← Option.some.inj ((show prop _ _ = some [] by decide +kernel).symm.trans h3)]; decide +kernel
    | [0, 0], h1 => cases h1; rw [← Option.some.inj ((show prop _ _ = some (text "v") by decide +kernel).symm.trans h3)]; decide +kernel
    | 0 :: 0 :: _ :: _, h1 => cases h1
    | 0 :: (_ + 1) :: _, h1 => cases h1
    | [1], h1 => cases h1; rw [← Option.some.inj ((show prop _ _ = some [] by decide +kernel).symm.trans h3)]; decide +kernel
    | [1, 0], h1 => cases h1; rw [← Option.some.inj ((show prop _ _ = some (text "v") by decide +kernel).symm.trans h3)]; decide +kernel
    | 1 :: 0 :: _ :: _, h1 => cases h1
    | 1 :: (_ + 1) :: _, h1 => cases h1
    | (_ + 2) :: _, h1 => cases h1

/-- **C179, violated.** An element with an empty sub id has the address of the nearest element above it with a name, whatever the file. -/
theorem pointer_empty_violated (root n : Node) (p : List Nat) (i : Nat) (cs : List Text) (h : Named root p cs) (hn : nodeAt root (p ++ [i]) = some n) (h1 : n.has (text "id") = false) (h2 : n.has (text "sid") = true)
    (h3 : prop (some n) (text "sid") = some []) : pointerAt root (p ++ [i]) = pointerAt root p := by
  rw [pointer_address root p cs h, pointerAt_full hn (by rw [h2, Bool.or_true]), fullAt_sid ⟨n, hn, h1, h3⟩ (full_named h) (pathText_ne h), if_pos rfl]

example : pointerAt (.elem (text "node") [(text "id", text "n")] [] [.elem (text "matrix") [(text "sid", [])] [] []]) [0] = some (text "n") := by decide +kernel

/-- **C179, violated.** A sub id with a slash is taken for two: the addresses of two elements with different names are the same. -/
theorem pointer_slash_violated : ∃ root p q t, p ≠ q ∧ t ≠ [] ∧ pointerAt root p = some t ∧ pointerAt root q = some t ∧ (∃ s u, SidAt root p s ∧ SidAt root q u ∧ s ≠ u ∧ s ≠ [] ∧ u ≠ []) :=
  ⟨.elem (text "node") [(text "id", text "n")] [] [.elem (text "float") [(text "sid", text "a/b")] [] [], .elem (text "x") [(text "sid", text "a")] [] [.elem (text "float") [(text "sid", text "b")] [] []]],
    [0], [1, 0], text "n/a/b", by decide, by decide, by decide +kernel, by decide +kernel, text "a/b", text "b", ⟨_, rfl, by decide +kernel, by decide +kernel⟩, ⟨_, rfl, by decide +kernel, by decide +kernel⟩, by decide, by decide, by decide⟩

end Verif.FArc
