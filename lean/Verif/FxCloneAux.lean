import Verif.FxCloneLemmas

/-! # Lemmas for the properties in FxCloneProps -/

namespace Verif.FFx

open Verif.FEff (Text text Role)
open Verif.FPass (Pass Tech)

variable {K : Type}

section

variable [Zero K] [One K]

omit [Zero K] [One K] in
theorem extend_old (heap : Nat → Option (Param K)) (l : List (Obj K)) (i : Nat) (h : ∀ o ∈ l, o.id ≠ i) : extend heap l i = heap i := by
  rw [extend, List.find?_eq_none.2 (by simpa using h)]

omit [Zero K] [One K] in
theorem extend_new (heap : Nat → Option (Param K)) (l : List (Obj K)) (hd : (l.map Obj.id).Nodup) (o : Obj K) (ho : o ∈ l) : extend heap l o.id = some o.param := by
  rw [extend]
  cases h : l.find? fun x => decide (x.id = o.id) with
  | none => have := List.find?_eq_none.1 h o ho; simp at this
  | some x =>
    have h1 := List.find?_some h
    rw [decide_eq_true_eq] at h1
    have : x = o := List.inj_on_of_nodup_map hd (List.mem_of_find?_eq_some h) ho h1
    rw [this]

omit [Zero K] [One K] in
theorem extend_agrees (heap : Nat → Option (Param K)) (l m : List (Obj K)) (n : Nat) (hd : (l.map Obj.id).Nodup) (hn : ∀ o ∈ l, n ≤ o.id) (hm : ∀ o ∈ m, o ∈ l) : Agrees heap (extend heap l) n m :=
  ⟨fun i hi => extend_old heap l i fun o ho e => absurd (hn o ho) (by omega), fun o ho => extend_new heap l hd o (hm o ho)⟩

variable [OfNat K 20]

theorem cloneProfile_eq (heap : Nat → Option (Param K)) (n k : Nat) (hs : Sound heap n) (p : Profile K) (h : GoodProfile p) (late : Bool) :
    ∃ q ps m, p.cloneInto heap (newProfile late p.type) k = some (q, m) ∧ q.params = number k ps ∧ k + ps.length ≤ m ∧ ∀ heap', Agrees heap heap' n q.params → LikeProfile heap heap' p q := by
  cases p with
  | standard s =>
    obtain ⟨c, e, hp, _, _, hl, _⟩ := cloneStandard_eq heap n k hs s h late
    refine ⟨.standard c, _, _, ?_, hp, le_rfl, fun heap' ha => .standard (hl heap' ha)⟩
    rw [newProfile, if_pos (by rfl), Profile.cloneInto]
    simp only [e]
  | fx s =>
    obtain ⟨q, m, e, hl, _, hp, hm⟩ := cloneFX_eq s h.1 { type := s.type } ⟨rfl, rfl, rfl⟩ k
    refine ⟨.fx q, _, m, ?_, hp, by simpa using hm, fun heap' _ => .fx hl⟩
    rw [newProfile, if_neg (by exact h.2), Profile.cloneInto]
    change (s.cloneInto { type := s.type } k).map _ = _
    rw [e]
    rfl

theorem cloneProfiles_eq (heap : Nat → Option (Param K)) (n k : Nat) (hs : Sound heap n) (l : List (Profile K)) (h : ∀ p ∈ l, GoodProfile p) (late : Bool) (acc : List (Profile K)) :
    ∃ qs m, cloneProfiles heap late l (acc, k) = some (acc ++ qs, m) ∧ k ≤ m ∧ (∀ o ∈ qs.flatMap Profile.params, k ≤ o.id ∧ o.id < m) ∧ ((qs.flatMap Profile.params).map Obj.id).Nodup ∧
      ∀ heap', Agrees heap heap' n (qs.flatMap Profile.params) → List.Forall₂ (LikeProfile heap heap') l qs := by
  induction l generalizing acc k with
  | nil => exact ⟨[], k, by simp [cloneProfiles], le_rfl, by simp, by simp, fun _ _ => List.Forall₂.nil⟩
  | cons p l ih =>
    obtain ⟨q, ps, m, e, hq, hm, hl⟩ := cloneProfile_eq heap n k hs p (h p (List.mem_cons_self ..)) late
    obtain ⟨qs, m', e', hm', hb, hd, hls⟩ := ih m (fun x hx => h x (List.mem_cons_of_mem _ hx)) (acc ++ [q])
    refine ⟨q :: qs, m', ?_, by omega, ?_, ?_, ?_⟩
    · rw [cloneProfiles]
      simp only [e, Option.bind_some, e']
      simp
    · intro o ho
      rw [List.flatMap_cons, List.mem_append] at ho
      rcases ho with ho | ho
      · rw [hq] at ho
        have := number_bounds _ _ o ho; omega
      · have := hb o ho; omega
    · rw [List.flatMap_cons, List.map_append, List.nodup_append]
      refine ⟨by rw [hq]; exact number_nodup _ _, hd, ?_⟩
      intro a ha b hb' e
      obtain ⟨x, hx, rfl⟩ := List.mem_map.1 ha
      obtain ⟨y, hy, rfl⟩ := List.mem_map.1 hb'
      rw [hq] at hx
      have h1 := number_bounds _ _ x hx
      have h2 := hb y hy
      omega
    · intro heap' ha
      rw [List.flatMap_cons] at ha
      exact List.Forall₂.cons (hl heap' ⟨ha.old, fun o ho => ha.new o (List.mem_append_left _ ho)⟩) (hls heap' ⟨ha.old, fun o ho => ha.new o (List.mem_append_right _ ho)⟩)

theorem cloneEffect_eq (heap : Nat → Option (Param K)) (n k : Nat) (hk : n ≤ k) (hs : Sound heap n) (e : Effect K) (h : ∀ p ∈ e.profiles, GoodProfile p) (hm : ∀ o ∈ e.params, Made o.param.body) (late : Bool) :
    ∃ c m, e.clone heap late k = some (c, m) ∧ c.name = e.name ∧ c.note = e.note ∧ LikeParams e.params c.params ∧
      List.Forall₂ (LikeProfile heap (extend heap (c.profiles.flatMap Profile.params))) e.profiles c.profiles := by
  obtain ⟨qs, m, e', hkm, hb, hd, hl⟩ := cloneProfiles_eq heap n k hs e.profiles h late []
  refine ⟨⟨e.name, e.note, qs, (cloneParams e.params ([], m)).1⟩, (cloneParams e.params ([], m)).2, ?_, rfl, rfl, likeParams_clone _ _ hm, ?_⟩
  · rw [Effect.clone, e']
    rfl
  · exact hl _ (extend_agrees heap _ _ n hd (fun o ho => by have := hb o ho; omega) fun o ho => ho)

end

end Verif.FFx
