import Verif.EntSpec
import Mathlib.Data.Rat.Defs
import Mathlib.Algebra.Order.Field.Rat
import Mathlib.Tactic.FieldSimp
import Mathlib.Tactic.Linarith
import Verif.Ent

/-! # Lemmas for the properties in EntProps -/

namespace Verif.FEnt

open Verif.FEff (Text text)

variable {D E C L K : Type}

section assets

theorem contributors_same (l : List Contributor) : (l.map fun x => x.cloneInto {}) = l := by
  induction l with
  | nil => rfl
  | cons a l ih => rw [List.map_cons, ih]; rfl

end assets

section entities

end entities

section targets

theorem countP_update (l : List Nat) (hl : l.Nodup) (e : Nat) (he : e ∈ l) (p q : Nat → Bool) (h : ∀ x, x ≠ e → p x = q x) :
    l.countP p + (if q e then 1 else 0) = l.countP q + (if p e then 1 else 0) := by
  induction l with
  | nil => cases he
  | cons a l ih =>
    rw [List.nodup_cons] at hl
    rw [List.countP_cons, List.countP_cons]
    rcases List.mem_cons.mp he with rfl | he'
    · have : l.countP p = l.countP q := List.countP_congr fun x hx => by
        rw [h x (fun e' => hl.1 (e' ▸ hx))]
      omega
    · have hne : a ≠ e := fun e' => hl.1 (e' ▸ he')
      rw [h a hne]
      have := ih hl.2 he'
      omega

/-- What holds for the live entities `l`: targets live, and the counts are at least, or exactly, the numbers of entities. -/
structure TInv (exact : Prop) (s : Targets) (l : List Nat) : Prop where
  nodup : l.Nodup
  live : ∀ e, e ∈ l ↔ s.target e ≠ none
  nodes : ∀ e n, s.target e = some (some n) → s.count n ≠ none
  le : ∀ n c, s.count n = some c → aimed s l n ≤ c
  eq : exact → ∀ n c, s.count n = some c → c = aimed s l n

theorem setTargetNode_inv {exact : Prop} {s : Targets} {l l' : List Nat} {e : Nat} {old n : Option Nat} (h : TInv exact s l)
    (hl' : l'.Nodup) (hlive : ∀ x, x ∈ l' ↔ (x = e ∨ x ∈ l)) (hold : s.target e = some old ∨ (s.target e = none ∧ old = none)) (hn : ∀ m, n = some m → s.count m ≠ none)
    (hc : ∀ m, aimed s l' m = aimed s l m) : TInv exact (setTargetNode s e old n) l' := by
  have hcount : ∀ m, ((setTargetNode s e old n).count m = none ↔ s.count m = none) := by
    intro m
    simp only [setTargetNode, bump]
    split <;> split <;> simp
  have hupd : ∀ m, aimed (setTargetNode s e old n) l' m + (if some m = old then 1 else 0) = aimed s l m + (if some m = n then 1 else 0) := by
    intro m
    rw [← hc m]
    have := countP_update l' hl' e ((hlive e).mpr (Or.inl rfl)) (fun x => decide ((setTargetNode s e old n).target x = some (some m))) (fun x => decide (s.target x = some (some m))) (by
      intro x hx
      simp only [setTargetNode, if_neg hx])
    have e1 : (decide ((setTargetNode s e old n).target e = some (some m)) = true) ↔ some m = n := by
      simp only [setTargetNode, if_true, decide_eq_true_eq, Option.some.injEq]
      exact eq_comm
    have e2 : (decide (s.target e = some (some m)) = true) ↔ some m = old := by
      rcases hold with ho | ⟨ho, ho'⟩
      · rw [ho]; simp only [decide_eq_true_eq, Option.some.injEq]; exact eq_comm
      · rw [ho, ho']; simp
    rw [if_congr e1 rfl rfl, if_congr e2 rfl rfl] at this
    exact this
  have hbase : ∀ m c, (setTargetNode s e old n).count m = some c → ∃ c0, s.count m = some c0 ∧ c = (if some m = old then c0 - 1 else c0) + (if some m = n then 1 else 0) := by
    intro m c hm
    simp only [setTargetNode, bump] at hm
    cases hs : s.count m with
    | none => rw [hs] at hm; split at hm <;> split at hm <;> cases hm
    | some c0 =>
      refine ⟨c0, rfl, ?_⟩
      rw [hs] at hm
      by_cases h1 : some m = old
      · by_cases h2 : some m = n
        · rw [if_pos h2, if_pos h1, Option.map_some, Option.map_some, Option.some.injEq] at hm
          rw [if_pos h1, if_pos h2, ← hm]
        · rw [if_neg h2, if_pos h1, Option.map_some, Option.some.injEq] at hm
          rw [if_pos h1, if_neg h2, ← hm, Nat.add_zero]
      · by_cases h2 : some m = n
        · rw [if_pos h2, if_neg h1, Option.map_some, Option.some.injEq] at hm
          rw [if_neg h1, if_pos h2, ← hm]
        · rw [if_neg h2, if_neg h1, Option.some.injEq] at hm
          rw [if_neg h1, if_neg h2, ← hm, Nat.add_zero]
  have hpos : ∀ m c0, s.count m = some c0 → some m = old → 1 ≤ c0 := by
    intro m c0 hs ho
    have hle := h.le m c0 hs
    have he : s.target e = some (some m) := by
      rcases hold with hx | ⟨_, hx⟩
      · rw [hx, ho]
      · rw [hx] at ho; cases ho
    have : 1 ≤ aimed s l m := by
      have hmem : e ∈ l := (h.live e).mpr (by rw [he]; simp)
      exact List.countP_pos_iff.mpr ⟨e, hmem, by simp [he]⟩
    omega
  refine ⟨hl', ?_, ?_, ?_, ?_⟩
  · intro x
    rw [hlive]
    by_cases hx : x = e
    · simp [hx, setTargetNode]
    · simp only [hx, false_or, setTargetNode]
      exact h.live x
  · intro x m hx
    rw [ne_eq, hcount]
    by_cases hxe : x = e
    · simp only [setTargetNode, if_pos hxe, Option.some.injEq] at hx
      exact hn m hx
    · simp only [setTargetNode, if_neg hxe] at hx
      exact h.nodes x m hx
  · intro m c hm
    obtain ⟨c0, h0, e0⟩ := hbase m c hm
    have h1 := hupd m
    have h2 := h.le m c0 h0
    have h3 := hpos m c0 h0
    by_cases a : some m = old
    · have := h3 a
      rw [if_pos a] at h1 e0
      split at h1 <;> rename_i b <;> simp only [b, if_true, if_false] at e0 <;> omega
    · rw [if_neg a] at h1 e0
      split at h1 <;> rename_i b <;> simp only [b, if_true, if_false] at e0 <;> omega
  · intro hex m c hm
    obtain ⟨c0, h0, e0⟩ := hbase m c hm
    have h1 := hupd m
    have h2 := h.eq hex m c0 h0
    have h3 := hpos m c0 h0
    by_cases a : some m = old
    · have := h3 a
      rw [if_pos a] at h1 e0
      split at h1 <;> rename_i b <;> simp only [b, if_true, if_false] at e0 <;> omega
    · rw [if_neg a] at h1 e0
      split at h1 <;> rename_i b <;> simp only [b, if_true, if_false] at e0 <;> omega

theorem tstep_inv {exact : Prop} {s : Targets} {l : List Nat} (h : TInv exact s l) (o : TOp) (hl : Legal s o) (hk : exact → Keep o) :
    ∃ l', TInv exact (tstep s o) l' := by
  cases o with
  | newNode n =>
    refine ⟨l, h.nodup, h.live, ?_, ?_, ?_⟩
    · intro e m he
      have := h.nodes e m he
      change (if m = n then some 0 else s.count m) ≠ none
      split
      · simp
      · exact this
    · intro m c hm
      change (if m = n then some 0 else s.count m) = some c at hm
      split at hm
      · rename_i hmn
        have : aimed s l m = 0 := List.countP_eq_zero.mpr fun e _ he => h.nodes e m (of_decide_eq_true he) (hmn ▸ hl)
        change aimed s l m ≤ c
        omega
      · exact h.le m c hm
    · intro hex m c hm
      change (if m = n then some 0 else s.count m) = some c at hm
      split at hm
      · rename_i hmn
        have : aimed s l m = 0 := List.countP_eq_zero.mpr fun e _ he => h.nodes e m (of_decide_eq_true he) (hmn ▸ hl)
        change c = aimed s l m
        cases hm
        omega
      · exact h.eq hex m c hm
  | newEntity e =>
    have hne : e ∉ l := fun he => (h.live e).mp he hl
    have hag : ∀ m, aimed (tstep s (.newEntity e)) (e :: l) m = aimed s l m := by
      intro m
      rw [aimed, List.countP_cons, aimed]
      have e1 : (decide ((tstep s (.newEntity e)).target e = some (some m))) = false := by simp [tstep]
      rw [e1]
      simp only [Bool.false_eq_true, if_false, Nat.add_zero]
      apply List.countP_congr
      intro x hx
      have : x ≠ e := fun hh => hne (hh ▸ hx)
      simp [tstep, this]
    refine ⟨e :: l, List.nodup_cons.mpr ⟨hne, h.nodup⟩, ?_, ?_, ?_, ?_⟩
    · intro x
      rw [List.mem_cons]
      change _ ↔ (if x = e then some none else s.target x) ≠ none
      by_cases hx : x = e
      · simp [hx]
      · simp only [hx, false_or, if_false]
        exact h.live x
    · intro x m hx
      change (if x = e then some none else s.target x) = some (some m) at hx
      split at hx
      · cases hx
      · exact h.nodes x m hx
    · intro m c hm
      rw [hag]
      exact h.le m c hm
    · intro hex m c hm
      rw [hag]
      exact h.eq hex m c hm
  | setTarget e n =>
    obtain ⟨h1, h2⟩ := hl
    obtain ⟨old, ho⟩ := Option.ne_none_iff_exists'.mp h1
    refine ⟨l, ?_⟩
    have : tstep s (.setTarget e n) = setTargetNode s e old n := by simp only [tstep, ho]
    rw [this]
    refine setTargetNode_inv h h.nodup ?_ (Or.inl ho) h2 (fun _ => rfl)
    intro x
    constructor
    · exact Or.inr
    · rintro (rfl | hx)
      · exact (h.live _).mpr h1
      · exact hx
  | clone e e' =>
    obtain ⟨h1, h2⟩ := hl
    obtain ⟨t, ht⟩ := Option.ne_none_iff_exists'.mp h1
    have hne : e' ∉ l := fun he => (h.live e').mp he h2
    refine ⟨e' :: l, ?_⟩
    have : tstep s (.clone e e') = setTargetNode s e' none t := by simp only [tstep, ht]
    rw [this]
    refine setTargetNode_inv h (List.nodup_cons.mpr ⟨hne, h.nodup⟩) ?_ (Or.inr ⟨h2, rfl⟩) ?_ ?_
    · intro x
      exact List.mem_cons
    · intro m hm
      exact h.nodes e m (by rw [ht, hm])
    · intro m
      rw [aimed, List.countP_cons, h2]
      simp [aimed]
  | releaseNode n =>
    have hag : ∀ m, m ≠ n → aimed (tstep s (.releaseNode n)) l m = aimed s l m := by
      intro m hm
      apply List.countP_congr
      intro x hx
      have : (tstep s (.releaseNode n)).target x = (s.target x).map fun t => if t = some n then none else t := rfl
      rw [this]
      cases hs : s.target x with
      | none => simp
      | some t =>
        simp only [Option.map_some, decide_eq_true_eq, Option.some.injEq]
        split
        · rename_i ht
          rw [ht]
          simp only [reduceCtorEq, Option.some.injEq, false_iff]
          exact fun h' => hm h'.symm
        · rfl
    refine ⟨l, h.nodup, ?_, ?_, ?_, ?_⟩
    · intro x
      rw [h.live x]
      change _ ↔ (s.target x).map _ ≠ none
      simp
    · intro x m hx
      change (s.target x).map _ = some (some m) at hx
      change (if m = n then none else s.count m) ≠ none
      cases hs : s.target x with
      | none => rw [hs] at hx; cases hx
      | some t =>
        rw [hs, Option.map_some, Option.some.injEq] at hx
        split at hx
        · cases hx
        · rename_i ht
          have hmn : m ≠ n := fun hh => ht (by rw [hx, hh])
          rw [if_neg hmn]
          exact h.nodes x m (by rw [hs, hx])
    · intro m c hm
      change (if m = n then none else s.count m) = some c at hm
      split at hm
      · cases hm
      · rename_i hmn
        rw [hag m hmn]
        exact h.le m c hm
    · intro hex m c hm
      change (if m = n then none else s.count m) = some c at hm
      split at hm
      · cases hm
      · rename_i hmn
        rw [hag m hmn]
        exact h.eq hex m c hm
  | releaseEntity e =>
    refine ⟨l.erase e, h.nodup.erase e, ?_, ?_, ?_, fun hex => absurd (hk hex) id⟩
    · intro x
      rw [h.nodup.mem_erase_iff, h.live x]
      change _ ↔ (if x = e then none else s.target x) ≠ none
      by_cases hx : x = e <;> simp [hx]
    · intro x m hx
      change (if x = e then none else s.target x) = some (some m) at hx
      split at hx
      · cases hx
      · exact h.nodes x m hx
    · intro m c hm
      have h1 := h.le m c hm
      have h2 : aimed (tstep s (.releaseEntity e)) (l.erase e) m ≤ aimed s l m := by
        have : aimed (tstep s (.releaseEntity e)) (l.erase e) m = (l.erase e).countP fun x => decide (s.target x = some (some m)) := by
          apply List.countP_congr
          intro x hx
          have hxe := (h.nodup.mem_erase_iff.mp hx).1
          simp [tstep, hxe]
        rw [this]
        exact List.Sublist.countP_le (List.erase_sublist)
      omega

theorem reach_inv (exact : Prop) (P : TOp → Prop) (hP : exact → ∀ o, P o → Keep o) {s : Targets} (h : TReach P s) : ∃ l, TInv exact s l := by
  induction h with
  | init => exact ⟨[], List.nodup_nil, by simp, (fun _ _ h => nomatch h), (fun _ _ h => nomatch h), (fun _ _ _ h => nomatch h)⟩
  | step o _ hl ho ih =>
    obtain ⟨l, hi⟩ := ih
    exact tstep_inv hi o hl fun hex => hP hex o ho

end targets

section camera

variable [Field K] [LinearOrder K]

theorem ratio_some {eps : K} {other : Bool} {v w : View K} (h : ratio eps other v = some w) :
    w.x = v.x ∧ w.y = v.y ∧ w.hasX = v.hasX ∧ w.hasY = v.hasY ∧ (other = true → nearZero eps v.x = false → v.y ≠ 0 ∧ w.aspect = v.x / v.y) := by
  rw [ratio] at h
  split at h
  · split at h
    · cases h
    · rename_i hy
      cases h
      exact ⟨rfl, rfl, rfl, rfl, fun _ _ => ⟨hy, rfl⟩⟩
  · rename_i hn
    cases h
    refine ⟨rfl, rfl, rfl, rfl, fun ho hz => absurd ?_ hn⟩
    rw [ho, hz]
    rfl

end camera

end Verif.FEnt
