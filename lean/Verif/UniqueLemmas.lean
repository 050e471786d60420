import Verif.Unique
import Verif.UniqueSpec
import Verif.TreeIter
import Verif.ConvLemmas

/-! # Lemmas on the unique string map -/

namespace Verif.FUniq

open Verif.FStr (Ch)
open Verif.FConv (digit decVal IsDigit)
open Verif.FTree (Inv)

theorem stripLoop_eq (p : List Ch) : stripLoop p.length p = base p := by
  induction p using List.reverseRecOn with
  | nil => rfl
  | append_singleton p c ih =>
    rw [List.length_append, List.length_singleton]
    unfold stripLoop
    have : (p ++ [c])[p.length]? = some c := by simp
    rw [this, Option.map_some, Option.getD_some, List.take_left' rfl]
    unfold base
    by_cases h : digit c = true
    · rw [if_pos h, ih, List.rdropWhile_concat_pos _ _ _ (by simpa [FConv.digit_iff] using h)]; rfl
    · rw [if_neg h, List.rdropWhile_concat_neg _ _ _ (by simpa [FConv.digit_iff] using h)]

theorem base_append_digits (s : List Ch) : base s ++ digits s = s := List.rdropWhile_append_rtakeWhile ..

theorem digits_all (s : List Ch) : ∀ c ∈ digits s, digit c = true := by
  intro c hc
  have := List.mem_rtakeWhile_imp hc
  rwa [FConv.digit_iff]

theorem base_base (s : List Ch) : base (base s) = base s := List.rdropWhile_idempotent ..

theorem split_eq (s : List Ch) : split s = some (key s) := by
  unfold split
  simp only [stripLoop_eq]
  have hs := base_append_digits s
  have hl := congrArg List.length hs
  rw [List.length_append] at hl
  unfold key number
  by_cases hd : digits s = []
  · rw [hd, List.length_nil] at hl
    rw [if_pos (by omega), if_pos hd]
  · have : 0 < (digits s).length := List.length_pos_iff.2 hd
    rw [if_neg (by omega), if_neg hd]
    have e : s.drop (base s).length = digits s := by
      have := List.drop_left' (l₁ := base s) (l₂ := digits s) (i := (base s).length) rfl
      rwa [hs] at this
    have hb : (digits s).dropWhile FConv.blank = digits s := by
      apply FConv.dropWhile_of_neg
      intro x hx
      exact FConv.digit_not_blank (digits_all s x (List.mem_of_mem_head? hx))
    rw [e, FConv.toUInt32_eq _ _ (fun h => by have := digits_all s 0 h; revert this; decide), Option.map_some, hb,
      FConv.takeWhile_all (digits_all s)]

theorem append_digits (p ds : List Ch) (hp : base p = p) (hd : ∀ c ∈ ds, digit c = true) : base (p ++ ds) = p ∧ digits (p ++ ds) = ds := by
  induction ds using List.reverseRecOn with
  | nil =>
    have := base_append_digits p
    rw [hp] at this
    have h : digits p = [] := by
      have h2 := congrArg List.length this
      rw [List.length_append] at h2
      exact List.length_eq_zero_iff.1 (by omega)
    simp [hp, h]
  | append_singleton ds c ih =>
    have hc : decide (IsDigit c) = true := by rw [← FConv.digit_iff]; exact hd c (by simp)
    obtain ⟨h1, h2⟩ := ih fun d h => hd d (by simp [h])
    rw [← List.append_assoc]
    unfold base digits at *
    rw [List.rdropWhile_concat_pos (fun c => decide (IsDigit c)) _ _ hc, List.rtakeWhile_concat_pos (fun c => decide (IsDigit c)) _ _ hc, h1, h2]
    exact ⟨rfl, rfl⟩

theorem key_decimal (p : List Ch) (hp : base p = p) (n : Nat) (hn : n < 2 ^ 32) : key (p ++ FBld.decimal n) = (p, n) := by
  obtain ⟨h1, h2⟩ := append_digits p (FBld.decimal n) hp (FConv.decimal_digits n)
  unfold key number
  rw [h1, h2, if_neg (FConv.decimal_ne_nil n), FConv.decVal_decimal, Nat.mod_eq_of_lt hn]

theorem number_lt (s : List Ch) : number s < 2 ^ 32 := by
  unfold number; split
  · omega
  · exact Nat.mod_lt _ (by decide)

/-! ## the state -/

/-- The state keeps exactly the keys in `S`. -/
structure Keeps (m : Names) (S : List Ch × Nat → Prop) : Prop where
  inv : Inv m
  inner : ∀ p nm, (p, nm) ∈ m.t.toList → Inv nm ∧ ∀ n, (∃ v, (n, v) ∈ nm.t.toList) ↔ S (p, n)
  outer : ∀ p, (∀ nm, (p, nm) ∉ m.t.toList) → ∀ n, ¬ S (p, n)

theorem keeps_empty : Keeps FTree.Map.empty (fun _ => False) :=
  ⟨FTree.inv_empty, by simp [FTree.Map.empty, FTree.Tree.toList], fun _ _ _ h => h⟩

/-- Storing numbers under a prefix. -/
theorem keeps_store {m : Names} {S : List Ch × Nat → Prop} (h : Keeps m S) (p : List Ch) (nm : Numbers) (S' : Nat → Prop) (hi : Inv nm)
    (hn : ∀ n, (∃ v, (n, v) ∈ nm.t.toList) ↔ S' n) :
    ∃ m', m.insert p nm = some m' ∧ Keeps m' (fun k => if k.1 = p then S' k.2 else S k) := by
  obtain ⟨m', e, hi', hm⟩ := FTree.insert_spec m p nm h.inv
  refine ⟨m', e, hi', ?_, ?_⟩
  · intro q nq hq
    rcases (hm _).1 hq with hq | ⟨hne, hq⟩
    · simp only [Prod.mk.injEq] at hq
      obtain ⟨rfl, rfl⟩ := hq
      exact ⟨hi, by simpa using hn⟩
    · simp only at hne
      simpa [hne] using h.inner q nq hq
  · intro q hq n
    by_cases hqp : q = p
    · subst hqp
      exact absurd ((hm (q, nm)).2 (Or.inl rfl)) (hq nm)
    · simp only [hqp, if_false]
      exact h.outer q (fun nq hn => hq nq ((hm _).2 (Or.inr ⟨hqp, hn⟩))) n

theorem keeps_congr {m : Names} {S S' : List Ch × Nat → Prop} (h : Keeps m S) (e : ∀ k, S k ↔ S' k) : Keeps m S' := by
  have : S = S' := by funext k; exact propext (e k)
  rwa [← this]

theorem find_names {m : Names} {S : List Ch × Nat → Prop} (h : Keeps m S) (p : List Ch) :
    (FTree.find p m.t = none ∧ ∀ n, ¬ S (p, n)) ∨
    ∃ nm, FTree.find p m.t = some (p, nm) ∧ Inv nm ∧ ∀ n, (∃ v, (n, v) ∈ nm.t.toList) ↔ S (p, n) := by
  cases hf : FTree.find p m.t with
  | none =>
    refine Or.inl ⟨rfl, h.outer p fun nm hm => ?_⟩
    exact (FTree.find_none p m h.inv).1 hf _ hm rfl
  | some e =>
    obtain ⟨q, nm⟩ := e
    obtain ⟨h1, h2⟩ := (FTree.find_mem p m h.inv _).1 hf
    simp only at h2; subst h2
    exact Or.inr ⟨nm, rfl, h.inner _ _ h1⟩

theorem find_numbers (nm : Numbers) (hi : Inv nm) (n : Nat) : (FTree.find n nm.t).isSome = true ↔ ∃ v, (n, v) ∈ nm.t.toList := by
  constructor
  · intro h
    obtain ⟨⟨k, v⟩, hf⟩ := Option.isSome_iff_exists.1 h
    obtain ⟨h1, h2⟩ := (FTree.find_mem n nm hi _).1 hf
    simp only at h2; subst h2
    exact ⟨v, h1⟩
  · rintro ⟨v, hv⟩
    have := (FTree.find_mem n nm hi (n, v)).2 ⟨hv, rfl⟩
    rw [this]; rfl

theorem numbersOf_eq {m : Names} {S : List Ch × Nat → Prop} (h : Keeps m S) (p : List Ch) :
    ∃ m1 nm, numbersOf m p = some (m1, nm) ∧ Keeps m1 S ∧ Inv nm ∧ ∀ n, (∃ v, (n, v) ∈ nm.t.toList) ↔ S (p, n) := by
  unfold numbersOf
  rcases find_names h p with ⟨e, hn⟩ | ⟨nm, e, hi, hn⟩
  · rw [e]
    obtain ⟨m', e', hk⟩ := keeps_store h p FTree.Map.empty (fun _ => False) FTree.inv_empty (by simp [FTree.Map.empty, FTree.Tree.toList])
    refine ⟨m', _, by simp [e'], keeps_congr hk ?_, FTree.inv_empty, ?_⟩
    · rintro ⟨q, n⟩
      by_cases hq : q = p
      · subst hq; simp [hn n]
      · simp [hq]
    · intro n; simp [FTree.Map.empty, FTree.Tree.toList, hn n]
  · rw [e]
    exact ⟨m, nm, rfl, h, hi, hn⟩

/-- The suffix chosen on a conflict: one more than the greatest one in use, `~0` not counted. -/
theorem freshSuffix_eq (nm : Numbers) (hi : Inv nm) (hne : nm.t.toList ≠ []) :
    ∃ n', freshSuffix nm = some (n' % 2 ^ 32) ∧ (∀ n v, (n, v) ∈ nm.t.toList → n = 2 ^ 32 - 1 ∨ n < n') ∧
      (n' = 1 ∨ ∃ n v, (n, v) ∈ nm.t.toList ∧ n ≠ 2 ^ 32 - 1 ∧ n' = n + 1) := by
  have hlen := FTree.toList_length nm.t
  have hpos : 0 < nm.t.toList.length := List.length_pos_iff.2 hne
  have hkey : ∀ i (h : i < nm.t.toList.length), posKey (FTree.posAt nm.t i) = nm.t.toList[i].1 := by
    intro i h
    have := FTree.posAt_entry nm.t i
    rw [List.getElem?_eq_getElem h] at this
    cases hp : FTree.posAt nm.t i with
    | endPos => rw [hp] at this; simp [FTree.Pos.entry] at this
    | «at» l k v w r fs =>
      rw [hp] at this
      simp only [FTree.Pos.entry, Option.some.injEq] at this
      rw [← this]; rfl
  have hsorted : ∀ i j (hi : i < nm.t.toList.length) (hj : j < nm.t.toList.length), i < j →
      nm.t.toList[i].1 < nm.t.toList[j].1 := by
    intro i j h1 h2 hij
    have := List.pairwise_iff_getElem.1 hi.sorted i j (by simpa using h1) (by simpa using h2) hij
    simpa using this
  have hlast : FTree.last nm.t = some (FTree.posAt nm.t (nm.t.toList.length - 1)) := by rw [hlen]; exact FTree.last_posAt nm.t
  unfold freshSuffix
  rw [hlast, Option.bind_some, hkey _ (by omega)]
  split
  · rename_i h
    refine ⟨_, rfl, ?_, Or.inr ⟨_, _, List.getElem_mem (by omega), h, rfl⟩⟩
    intro n v hm
    obtain ⟨i, h1, e⟩ := List.getElem_of_mem hm
    rcases Nat.lt_or_ge i (nm.t.toList.length - 1) with h2 | h2
    · have := hsorted i _ h1 (by omega) h2
      rw [e] at this
      right; simp only at this; omega
    · obtain rfl : i = nm.t.toList.length - 1 := by omega
      right; rw [e]; simp
  · rename_i h
    have h : nm.t.toList[nm.t.toList.length - 1].1 = 2 ^ 32 - 1 := by omega
    rw [FTree.prev_posAt _ _ (by omega), Option.map_some]
    by_cases h1 : nm.t.toList.length = 1
    · rw [if_pos (by omega)]
      refine ⟨1, rfl, ?_, Or.inl rfl⟩
      intro n v hm
      obtain ⟨i, hi', e⟩ := List.getElem_of_mem hm
      obtain rfl : i = nm.t.toList.length - 1 := by omega
      rw [e] at h; exact Or.inl h
    · rw [if_neg (by omega), hkey _ (by omega)]
      refine ⟨_, rfl, ?_, Or.inr ⟨_, _, List.getElem_mem (by omega), ?_, rfl⟩⟩
      · intro n v hm
        obtain ⟨i, hi', e⟩ := List.getElem_of_mem hm
        rcases Nat.lt_or_ge i (nm.t.toList.length - 1 - 1) with h2 | h2
        · have := hsorted i _ hi' (by omega) h2
          rw [e] at this
          right; simp only at this; omega
        · rcases Nat.lt_or_ge i (nm.t.toList.length - 1) with h3 | h3
          · obtain rfl : i = nm.t.toList.length - 1 - 1 := by omega
            right; rw [e]; simp
          · obtain rfl : i = nm.t.toList.length - 1 := by omega
            rw [e] at h; exact Or.inl h
      · have := hsorted (nm.t.toList.length - 1 - 1) (nm.t.toList.length - 1) (by omega) (by omega) (by omega)
        rw [h] at this
        exact Nat.ne_of_lt this

/-! ## the operations -/

theorem insert_keeps {m : Names} {S : List Ch × Nat → Prop} (h : Keeps m S) (hb : ∀ k, S k → k.2 < 2 ^ 32) (s : List Ch) :
    ∃ m' s', insert m s = some (m', s') ∧ Keeps m' (fun k => k = key s' ∨ S k) ∧ base s' = base s ∧
      (¬ S (key s) → s' = s) ∧
      (S (key s) → ∃ n, n < 2 ^ 32 ∧ s' = base s ++ FBld.decimal n ∧ (∀ x, S (base s, x) → x = 2 ^ 32 - 1 ∨ x < n) ∧
        (n = 1 ∨ S (base s, n - 1))) := by
  have hk : ∀ (s' : List Ch) (m1 : Names) (nm : Numbers), Keeps m1 S → Inv nm → (∀ n, (∃ v, (n, v) ∈ nm.t.toList) ↔ S ((key s').1, n)) →
      ∃ nm' m', nm.insert (key s').2 (key s').2 = some nm' ∧ m1.insert (key s').1 nm' = some m' ∧ Keeps m' (fun k => k = key s' ∨ S k) := by
    intro s' m1 nm h1 hi hn
    obtain ⟨nm', e1, hi', hm⟩ := FTree.insert_spec nm (key s').2 (key s').2 hi
    obtain ⟨m', e2, hk⟩ := keeps_store h1 (key s').1 nm' (fun n => n = (key s').2 ∨ S ((key s').1, n)) hi' (by
      intro n
      constructor
      · rintro ⟨v, hv⟩
        rcases (hm _).1 hv with e | ⟨_, hv⟩
        · simp only [Prod.mk.injEq] at e; exact Or.inl e.1
        · exact Or.inr ((hn n).1 ⟨v, hv⟩)
      · rintro (rfl | hs)
        · exact ⟨_, (hm _).2 (Or.inl rfl)⟩
        · by_cases hx : n = (key s').2
          · subst hx; exact ⟨_, (hm _).2 (Or.inl rfl)⟩
          · obtain ⟨v, hv⟩ := (hn n).2 hs
            exact ⟨v, (hm _).2 (Or.inr ⟨hx, hv⟩)⟩)
    refine ⟨nm', m', e1, e2, keeps_congr hk ?_⟩
    rintro ⟨q, n⟩
    by_cases hq : q = (key s').1
    · subst hq
      simp [Prod.ext_iff]
    · simp [Prod.ext_iff, hq]
  obtain ⟨m1, nm, e1, h1, hi, hn⟩ := numbersOf_eq h (base s)
  unfold insert
  rw [split_eq, Option.bind_some]
  simp only [key]
  rw [e1, Option.bind_some]
  simp only
  have hf := find_numbers nm hi (number s)
  rw [hn] at hf
  cases hfind : FTree.find (number s) nm.t with
  | none =>
    rw [hfind] at hf
    have hnot : ¬ S (base s, number s) := fun hs => by simpa using hf.2 hs
    obtain ⟨nm', m', g1, g2, g3⟩ := hk s m1 nm h1 hi hn
    refine ⟨m', s, ?_, g3, rfl, fun _ => rfl, fun hs => absurd hs hnot⟩
    simp only [key] at g1 g2
    simp only
    rw [g1, Option.bind_some, g2, Option.map_some]
  | some e =>
    rw [hfind] at hf
    have hs : S (base s, number s) := hf.1 rfl
    obtain ⟨v0, hv0⟩ := (hn _).2 hs
    obtain ⟨n', f1, f2, f3⟩ := freshSuffix_eq nm hi (List.ne_nil_of_mem hv0)
    have hlt : n' < 2 ^ 32 := by
      rcases f3 with rfl | ⟨n, v, hm, hne, rfl⟩
      · decide
      · have := hb _ ((hn n).1 ⟨v, hm⟩)
        simp only at this; omega
    rw [Nat.mod_eq_of_lt hlt] at f1
    have hkey := key_decimal (base s) (base_base s) n' hlt
    obtain ⟨nm', m', g1, g2, g3⟩ := hk (base s ++ FBld.decimal n') m1 nm h1 hi (by rw [hkey]; exact hn)
    refine ⟨m', base s ++ FBld.decimal n', ?_, g3, ?_, fun h => absurd hs h, fun _ => ⟨n', hlt, rfl, ?_, ?_⟩⟩
    · rw [hkey] at g1 g2
      simp only at g1 g2 ⊢
      rw [f1, Option.bind_some, g1, Option.bind_some, g2, Option.map_some]
    · exact congrArg Prod.fst hkey
    · intro x hx
      obtain ⟨v, hv⟩ := (hn x).2 hx
      exact f2 x v hv
    · rcases f3 with rfl | ⟨n, v, hm, hne, rfl⟩
      · exact Or.inl rfl
      · exact Or.inr ((hn n).1 ⟨v, hm⟩)

theorem contains_keeps {m : Names} {S : List Ch × Nat → Prop} (h : Keeps m S) (s : List Ch) :
    ∃ b, contains m s = some b ∧ (b = true ↔ S (key s)) := by
  unfold contains
  rw [split_eq, Option.map_some]
  refine ⟨_, rfl, ?_⟩
  simp only [key]
  rcases find_names h (base s) with ⟨e, hn⟩ | ⟨nm, e, hi, hn⟩
  · rw [e]; simpa using hn _
  · rw [e]
    simp only
    rw [find_numbers nm hi, hn]

theorem erase_keeps {m : Names} {S : List Ch × Nat → Prop} (h : Keeps m S) (s : List Ch) :
    ∃ m', erase m s = some m' ∧ Keeps m' (fun k => k ≠ key s ∧ S k) := by
  unfold erase
  rw [split_eq, Option.bind_some]
  simp only [key]
  rcases find_names h (base s) with ⟨e, hn⟩ | ⟨nm, e, hi, hn⟩
  · rw [e]
    refine ⟨m, rfl, keeps_congr h ?_⟩
    rintro ⟨q, n⟩
    refine ⟨fun hs => ⟨?_, hs⟩, fun hs => hs.2⟩
    rintro e; simp only [Prod.mk.injEq] at e
    obtain ⟨rfl, rfl⟩ := e; exact hn _ hs
  · rw [e]
    obtain ⟨nm', e1, hi', hm⟩ := FTree.erase_spec nm (number s) hi
    obtain ⟨m', e2, hk⟩ := keeps_store h (base s) nm' (fun n => n ≠ number s ∧ S (base s, n)) hi' (by
      intro n
      constructor
      · rintro ⟨v, hv⟩
        obtain ⟨h1, h2⟩ := (hm _).1 hv
        exact ⟨h1, (hn n).1 ⟨v, h2⟩⟩
      · rintro ⟨h1, h2⟩
        obtain ⟨v, hv⟩ := (hn n).2 h2
        exact ⟨v, (hm _).2 ⟨h1, hv⟩⟩)
    refine ⟨m', by simp only; rw [e1, Option.bind_some, e2], keeps_congr hk ?_⟩
    rintro ⟨q, n⟩
    by_cases hq : q = base s
    · subst hq; simp
    · simp [hq]

end Verif.FUniq
