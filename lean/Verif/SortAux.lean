import Verif.Sort
import Mathlib.Data.List.Perm.Basic
import Mathlib.Order.Defs.LinearOrder
import Mathlib.Tactic.Use

/-! # Lemmas for the properties in SortProps -/

namespace Verif.FSort

variable {T : Type}

/-- What a rearrangement inside `[lo, hi)` leaves alone. -/
structure Within (lo hi : Nat) (d d' : List T) : Prop where
  perm : d'.Perm d
  out : ∀ k, k < lo ∨ hi ≤ k → d'[k]? = d[k]?
  pres : ∀ P : T → Prop, (∀ k x, lo ≤ k → k < hi → d[k]? = some x → P x) →
    ∀ k x, lo ≤ k → k < hi → d'[k]? = some x → P x

theorem Within.refl (lo hi : Nat) (d : List T) : Within lo hi d d := ⟨.refl _, fun _ _ => rfl, fun _ h => h⟩

theorem Within.len {lo hi : Nat} {d d' : List T} (h : Within lo hi d d') : d'.length = d.length := h.perm.length_eq

theorem Within.mono {lo hi lo' hi' : Nat} {d d' : List T} (h : Within lo hi d d') (h1 : lo' ≤ lo) (h2 : hi ≤ hi') :
    Within lo' hi' d d' := by
  refine ⟨h.perm, fun k hk => h.out k (by omega), fun P hP k x hk1 hk2 hx => ?_⟩
  by_cases hin : lo ≤ k ∧ k < hi
  · exact h.pres P (fun k x a b c => hP k x (by omega) (by omega) c) k x hin.1 hin.2 hx
  · rw [h.out k (by omega)] at hx
    exact hP k x hk1 hk2 hx

theorem Within.trans {lo hi : Nat} {a b c : List T} (h : Within lo hi a b) (h' : Within lo hi b c) : Within lo hi a c :=
  ⟨h'.perm.trans h.perm, fun k hk => (h'.out k hk).trans (h.out k hk), fun P hP => h'.pres P (h.pres P hP)⟩

theorem swap_within (d : List T) (i j lo hi : Nat) (hi1 : lo ≤ i) (hi2 : i < hi) (hj1 : lo ≤ j) (hj2 : j < hi) (hl : hi ≤ d.length) :
    ∃ d', swap d i j = some d' ∧ Within lo hi d d' ∧ d'[j]? = d[i]? ∧ d'[i]? = d[j]? := by
  have e1 : d[i]? = some (d[i]'(by omega)) := List.getElem?_eq_getElem _
  have e2 : d[j]? = some (d[j]'(by omega)) := List.getElem?_eq_getElem _
  have get : ∀ k, ((d.set i (d[j]'(by omega))).set j (d[i]'(by omega)))[k]? =
      if k = j then d[i]? else if k = i then d[j]? else d[k]? := by
    intro k
    simp only [List.getElem?_set, List.length_set]
    split
    · subst_vars; rw [if_pos (by omega), if_pos rfl, e1]
    · split
      · subst_vars; rw [if_pos (by omega), if_neg (by omega), if_pos rfl, e2]
      · rw [if_neg (by omega), if_neg (by omega)]
  refine ⟨(d.set i (d[j]'(by omega))).set j (d[i]'(by omega)), by simp only [swap, e1, e2, Option.bind_some], ⟨?_, ?_, ?_⟩, ?_, ?_⟩
  · have := Array.swap_perm (xs := d.toArray) (i := i) (j := j) (by simp; omega) (by simp; omega)
    rw [Array.perm_iff_toList_perm] at this
    simpa [Array.swap] using this
  · intro k hk
    rw [get, if_neg (by omega), if_neg (by omega)]
  · intro P hP k x h1 h2 hx
    rw [get] at hx
    split at hx
    · exact hP i x hi1 hi2 hx
    · split at hx
      · exact hP j x hj1 hj2 hx
      · exact hP k x h1 h2 hx
  · rw [get, if_pos rfl]
  · rw [get]; split
    · next h => rw [h]
    · rw [if_pos rfl]

theorem partition_ok (cmp : T → T → Bool) (d : List T) (beg l r : Nat) (p : T) (hb : beg < l) (hlr : l ≤ r) (hr : r ≤ d.length)
    (hp : d[beg]? = some p) :
    ∃ d' m, partition cmp d beg l r = some (d', m) ∧ l ≤ m ∧ m ≤ r ∧ Within l r d d' ∧
      (∀ k x, l ≤ k → k < m → d'[k]? = some x → cmp x p = true) ∧
      (∀ k x, m ≤ k → k < r → d'[k]? = some x → cmp x p = false) := by
  fun_induction partition cmp d beg l r with
  | case1 d l r hlt ih1 ih2 =>
    have e1 : d[l]? = some (d[l]'(by omega)) := List.getElem?_eq_getElem _
    simp only [e1, hp, Option.bind_some]
    split
    · next hc =>
      obtain ⟨d', m, e, h1, h2, hw, ha, hb'⟩ := ih1 (by omega) (by omega) hr hp
      refine ⟨d', m, e, by omega, h2, hw.mono (by omega) (by omega), fun k x h3 h4 hx => ?_, hb'⟩
      by_cases hk : k = l
      · subst hk
        rw [hw.out k (by omega), e1] at hx
        simp at hx; subst hx; exact hc
      · exact ha k x (by omega) h4 hx
    · next hc =>
      obtain ⟨d1, e', hw1, g1, g2⟩ := swap_within d l (r - 1) l r (by omega) (by omega) (by omega) (by omega) hr
      rw [e', Option.bind_some]
      have hl1 := hw1.len
      obtain ⟨d', m, e, h1, h2, hw, ha, hb'⟩ := ih2 d1 (by omega) (by omega) (by omega) (by rw [hw1.out beg (by omega), hp])
      refine ⟨d', m, e, h1, by omega, hw1.trans (hw.mono (by omega) (by omega)), ha, fun k x h3 h4 hx => ?_⟩
      by_cases hk : k = r - 1
      · subst hk
        rw [hw.out _ (by omega), g1, e1] at hx
        simp at hx; subst hx; simpa using hc
      · exact hb' k x h3 (by omega) hx
  | case2 d l r hlt => exact ⟨d, l, rfl, by omega, by omega, .refl _ _ _, fun _ _ _ _ => by omega, fun _ _ _ _ => by omega⟩

/-- No later element of the range compares below an earlier one. -/
def SortedRange (cmp : T → T → Bool) (lo hi : Nat) (d : List T) : Prop :=
  ∀ i j x y, lo ≤ i → i < j → j < hi → d[i]? = some x → d[j]? = some y → cmp y x = false

theorem quicksort_ok (cmp : T → T → Bool) (n : Nat) : ∀ (d : List T) (beg fin : Nat), fin - beg = n → fin ≤ d.length →
    ∃ d', quicksort cmp d beg fin = some d' ∧ Within beg fin d d' ∧
      ((∀ a b, cmp a b = true → cmp b a = false) → (∀ a b c, cmp a b = true → cmp b c = true → cmp a c = true) →
        SortedRange cmp beg fin d') := by
  induction n using Nat.strongRecOn with
  | _ n ih =>
    intro d beg fin hn hf
    unfold quicksort
    by_cases hlt : fin > beg + 1
    · rw [dif_pos hlt]
      have e0 : d[beg]? = some (d[beg]'(by omega)) := List.getElem?_eq_getElem _
      generalize hp : (d[beg]'(by omega)) = p at e0
      obtain ⟨d1, l, e1, h1, h2, hw1, ha, hb⟩ := partition_ok cmp d beg (beg + 1) fin p (by omega) (by omega) hf e0
      have l1 := hw1.len
      split
      · next h => rw [e1] at h; cases h
      · next d' m h =>
        rw [e1] at h; cases h
        obtain ⟨d2, e2, hw2, g1, g2⟩ := swap_within d1 (l - 1) beg beg l (by omega) (by omega) (by omega) (by omega) (by omega)
        have l2 := hw2.len
        obtain ⟨d3, e3, hw3, s3⟩ := ih (l - 1 - beg) (by omega) d2 beg (l - 1) rfl (by omega)
        have l3 := hw3.len
        obtain ⟨d4, e4, hw4, s4⟩ := ih (fin - l) (by omega) d3 l fin rfl (by omega)
        refine ⟨d4, by rw [e2, Option.bind_some, e3, Option.bind_some, e4], ?_, ?_⟩
        · exact (((hw1.mono (by omega) (by omega)).trans (hw2.mono (by omega) (by omega))).trans
            (hw3.mono (by omega) (by omega))).trans (hw4.mono (by omega) (by omega))
        · intro asym trans
          -- the pivot's final place
          have pv : d4[l - 1]? = some p := by
            rw [hw4.out _ (by omega), hw3.out _ (by omega), g2, hw1.out _ (by omega), e0]
          -- elements below the pivot
          have lo2 : ∀ k x, beg ≤ k → k < l - 1 → d2[k]? = some x → cmp x p = true := by
            intro k x h3 h4 hx
            by_cases hk : k = beg
            · subst hk
              rw [g1] at hx
              exact ha (l - 1) x (by omega) (by omega) hx
            · have : d2[k]? = d1[k]? := by
                have e := e2
                have a1 : d1[l - 1]? = some (d1[l - 1]'(by omega)) := List.getElem?_eq_getElem _
                have a2 : d1[beg]? = some (d1[beg]'(by omega)) := List.getElem?_eq_getElem _
                simp only [swap, a1, a2, Option.bind_some, Option.some.injEq] at e
                rw [← e]; simp only [List.getElem?_set]
                rw [if_neg (by omega), if_neg (by omega)]
              rw [this] at hx
              exact ha k x (by omega) (by omega) hx
          have lo4 : ∀ k x, beg ≤ k → k < l - 1 → d4[k]? = some x → cmp x p = true := by
            intro k x h3 h4 hx
            rw [hw4.out _ (by omega)] at hx
            exact hw3.pres (fun x => cmp x p = true) lo2 k x h3 h4 hx
          have hi4 : ∀ k x, l ≤ k → k < fin → d4[k]? = some x → cmp x p = false := by
            refine hw4.pres (fun x => cmp x p = false) ?_
            intro k x h3 h4 hx
            rw [hw3.out _ (by omega), hw2.out _ (by omega)] at hx
            exact hb k x h3 h4 hx
          intro i j x y hi hij hj hx hy
          by_cases c1 : j < l - 1
          · rw [hw4.out _ (by omega)] at hx hy
            exact s3 asym trans i j x y hi hij c1 hx hy
          · by_cases c2 : l ≤ i
            · exact s4 asym trans i j x y c2 hij hj hx hy
            · by_cases c3 : j = l - 1
              · subst c3
                rw [pv] at hy; simp at hy; subst hy
                exact asym _ _ (lo4 i x hi (by omega) hx)
              · by_cases c4 : i = l - 1
                · subst c4
                  rw [pv] at hx; simp at hx; subst hx
                  exact hi4 j y (by omega) hj hy
                · have hx' := lo4 i x hi (by omega) hx
                  have hy' := hi4 j y (by omega) hj hy
                  by_contra hc
                  simp only [Bool.not_eq_false] at hc
                  rw [trans _ _ _ hc hx'] at hy'
                  cases hy'
    · rw [dif_neg hlt]
      exact ⟨d, rfl, .refl _ _ _, fun _ _ i j x y _ _ _ => by omega⟩

end Verif.FSort
