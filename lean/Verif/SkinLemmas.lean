import Verif.Skin
import Mathlib.Algebra.Order.Ring.Defs
import Mathlib.Data.List.TakeWhile
import Mathlib.Algebra.BigOperators.Group.List.Basic
import Mathlib.Tactic.Ring
import Mathlib.Tactic.FieldSimp

/-! # Skin influences: lemmas -/

namespace Verif.Skin

variable {K : Type} [Field K] [LinearOrder K]

theorem total_eq (l : List (Pair K)) : total l = (l.map Pair.weight).sum := by
  have : ∀ (l : List (Pair K)) (t : K), l.foldl (fun t p => t + p.weight) t = t + (l.map Pair.weight).sum := by
    intro l
    induction l with
    | nil => intro t; simp
    | cons p l ih => intro t; simp [ih, add_assoc]
  rw [total, this, zero_add]

/-- What is known of the pairs that have been kept from `ps`. -/
structure Kept (max : Nat) (ps l : List (Pair K)) : Prop where
  sorted : l.Pairwise fun p q => q.weight ≤ p.weight
  perm : ∃ d, (l ++ d).Perm ps ∧ (∀ p ∈ l, ∀ q ∈ d, q.weight ≤ p.weight)
  len : l.length = min max ps.length

theorem insert_kept {max : Nat} {ps l : List (Pair K)} {p : Pair K} (h : Kept max ps l) :
    Kept max (ps ++ [p]) (insertPair max p l) := by
  obtain ⟨d, hd, hle⟩ := h.perm
  set b := l.takeWhile (fun q => decide (p.weight < q.weight)) with hb
  set a := l.dropWhile (fun q => decide (p.weight < q.weight)) with ha
  have hl : l = b ++ a := by rw [hb, ha, List.takeWhile_append_dropWhile]
  have hbgt : ∀ q ∈ b, p.weight < q.weight := by
    intro q hq
    have := List.mem_takeWhile_imp hq
    simpa using this
  have hage : ∀ q ∈ a, q.weight ≤ p.weight := by
    intro q hq
    rcases ea : a with _ | ⟨x, a'⟩
    · rw [ea] at hq; simp at hq
    · have hx : ¬ p.weight < x.weight := by
        have h0 : 0 < (l.dropWhile fun q => decide (p.weight < q.weight)).length := by rw [← ha, ea]; simp
        have := List.dropWhile_get_zero_not (p := fun q : Pair K => decide (p.weight < q.weight)) l h0
        have e : (l.dropWhile fun q => decide (p.weight < q.weight)).get ⟨0, h0⟩ = x := by simp [← ha, ea]
        rw [e] at this
        simpa using this
      have hs := h.sorted
      rw [hl, ea] at hs
      have hs' := (List.pairwise_append.mp hs).2.1
      rw [ea] at hq
      rcases List.mem_cons.mp hq with rfl | hq
      · exact not_lt.mp hx
      · exact le_trans ((List.pairwise_cons.mp hs').1 q hq) (not_lt.mp hx)
  have hlen : l.length ≤ max := by rw [h.len]; omega
  have hins : insertPair max p l = if (b ++ p :: a).length > max then (b ++ p :: a).dropLast else b ++ p :: a := by
    simp only [insertPair]
    rw [if_pos (Or.inr hlen)]
  rw [hins]
  have hsorted : (b ++ p :: a).Pairwise fun p q => q.weight ≤ p.weight := by
    have hs := h.sorted
    rw [hl] at hs
    obtain ⟨s1, s2, s3⟩ := List.pairwise_append.mp hs
    refine List.pairwise_append.mpr ⟨s1, List.pairwise_cons.mpr ⟨hage, s2⟩, ?_⟩
    intro x hx y hy
    rcases List.mem_cons.mp hy with rfl | hy
    · exact le_of_lt (hbgt x hx)
    · exact s3 x hx y hy
  have hil : (b ++ p :: a).length = l.length + 1 := by rw [hl]; simp; omega
  have hperm : (b ++ p :: a ++ d).Perm (ps ++ [p]) := by
    have h1 : (b ++ p :: a ++ d).Perm (p :: (l ++ d)) := by
      rw [hl]
      simp only [List.append_assoc, List.cons_append]
      exact List.perm_middle
    exact h1.trans ((List.Perm.cons p hd).trans (List.perm_append_singleton p ps).symm)
  by_cases hc : (b ++ p :: a).length > max
  · have hlm : l.length = max := by omega
    rw [if_pos hc]
    have hne : b ++ p :: a ≠ [] := by simp
    have hsplit := List.dropLast_append_getLast hne
    set z := (b ++ p :: a).getLast hne with hz
    refine ⟨?_, ?_, ?_⟩
    · rw [← hsplit] at hsorted
      exact (List.pairwise_append.mp hsorted).1
    · refine ⟨z :: d, ?_, ?_⟩
      · have : ((b ++ p :: a).dropLast ++ z :: d) = b ++ p :: a ++ d := by
          conv_rhs => rw [← hsplit]
          simp
        rw [this]; exact hperm
      · intro x hx q hq
        rcases List.mem_cons.mp hq with rfl | hq
        · rw [← hsplit] at hsorted
          exact (List.pairwise_append.mp hsorted).2.2 x hx _ (by simp)
        · have hqd := hq
          -- q was dropped before: it is at most all of l; if x = p it must be compared with the last of l
          have hxm : x ∈ b ++ p :: a := (List.dropLast_sublist _).subset hx
          rcases List.mem_append.mp hxm with hxb | hxa
          · exact hle x (by rw [hl]; simp [hxb]) q hq
          · rcases List.mem_cons.mp hxa with rfl | hxa
            · have hq : q ∈ d := hqd
              -- the new one is kept, so it is not the last: some pair of a is after it
              rcases ea : a with _ | ⟨y, a'⟩
              · -- then the dropped one is the new one, and x is in b as a member of the dropLast
                rw [ea] at hx
                simp at hx
                exact hle x (by rw [hl]; simp [hx]) q hq
              · have hy : y ∈ a := by rw [ea]; simp
                exact le_trans (hle y (by rw [hl]; simp [hy]) q hq) (hage y hy)
            · exact hle x (by rw [hl]; simp [hxa]) q hq
    · rw [List.length_dropLast, hil]
      have := h.len
      simp
      omega
  · rw [if_neg hc]
    have hd0 : d = [] := by
      have h1 := hd.length_eq
      simp at h1
      have h2 := h.len
      exact List.eq_nil_of_length_eq_zero (by omega)
    refine ⟨hsorted, ⟨d, hperm, ?_⟩, ?_⟩
    · rw [hd0]; simp
    · rw [hil]
      have := h.len
      simp
      omega

theorem reduceLoop_kept {max : Nat} {min : K} : ∀ (ps qs l : List (Pair K)), Kept max qs l → Kept max (qs ++ ps.filter fun p => decide (min ≤ p.weight)) (reduceLoop max min ps l) := by
  intro ps
  induction ps with
  | nil => intro qs l h; simpa [reduceLoop] using h
  | cons p ps ih =>
    intro qs l h
    rw [reduceLoop]
    by_cases hp : min ≤ p.weight
    · rw [if_pos hp]
      have := ih (qs ++ [p]) _ (insert_kept (p := p) h)
      simpa [hp] using this
    · rw [if_neg hp]
      have := ih qs _ h
      simpa [hp] using this

theorem reduceLoop_nil (max : Nat) (min : K) (ps : List (Pair K)) : Kept max (ps.filter fun p => decide (min ≤ p.weight)) (reduceLoop max min ps []) := by
  have := reduceLoop_kept (max := max) (min := min) ps [] [] ⟨List.Pairwise.nil, ⟨[], by simp, by simp⟩, by simp⟩
  simpa using this

theorem total_scale (l : List (Pair K)) (f : K) : total (l.map fun p => { p with weight := p.weight * f }) = total l * f := by
  rw [total_eq, total_eq]
  induction l with
  | nil => simp
  | cons p l ih => simp [add_mul]; simpa using ih

end Verif.Skin
