import Verif.OwnerLemmas
import Mathlib.Data.List.MinMax

/-! # Lemmas about the operations of the ownership model -/

namespace Verif.FOwn

/-- A well formed world. -/
def Good (w : World) : Prop := ∃ rk, ∀ m, Inv rk m w

theorem steps_unique {w w1 w2 : World} {op : Op} (h1 : Steps w op w1) (h2 : Steps w op w2) : w1 = w2 := by
  obtain ⟨N, h1⟩ := h1
  obtain ⟨M, h2⟩ := h2
  have := h1 (max N M) (by omega)
  rw [h2 (max N M) (by omega)] at this
  exact (Option.some.inj this).symm

theorem start_good : Good ⟨fun _ => none, fun _ => none, []⟩ :=
  ⟨fun _ => 0, fun m => ⟨by simp [Lists], by simp, by simp [Member], by simp [Member], by simp, by simp [Owns, Member], by simp, by simp⟩⟩

theorem desc_of_closed {w : World} {S : Nat → Prop} (hc : Closed w S) {x z : Nat} (hx : S x) (hd : Desc w x z) : S z := by
  induction hd with
  | refl => exact hx
  | tail _ h ih => exact hc _ _ ih h

theorem del_good {rk : Nat → Nat} {k : Nat} {w w' : World} {S K E : Nat → Prop} (hi : ∀ m, Inv rk m w) (h : Del rk k w S K E w')
    (hE : ∀ c y, E c → ¬ Member w y c) : Good w' :=
  ⟨rk, fun m => del_inv (hi m) h (fun c y h1 h2 => (hE c y h1 h2).elim)⟩

theorem release_top {w : World} {x : Nat} (hg : Good w) (hs : (w.objs x).isSome) :
    ∃ w', (∃ N, ∀ n ≥ N, release n w x = some w') ∧ Good w' ∧ Gone w (Desc w x) (Parts w (Desc w x)) w' := by
  obtain ⟨rk, hi⟩ := hg
  obtain ⟨S, K, w', hd, hS, hSd, hN⟩ := release_ok rk (rk x + 1) w x (by omega) (hi _) hs
  refine ⟨w', hN, del_good hi hd (by simp), ?_⟩
  have e : S = Desc w x := funext fun z => propext ⟨hSd z, desc_of_closed hd.closed hS⟩
  have e' : K = Parts w (Desc w x) := funext fun c => propext (by rw [hd.owners, e]; simp [Parts])
  rw [← e', ← e]
  exact hd.toGone

theorem erase_top {w : World} {c x : Nat} {v : Content} (hg : Good w) (hc : w.cons c = some v) (hx : x ∈ v.items) :
    ∃ w', (∃ N, ∀ n ≥ N, (dropOwner (putC w c (some (v.without (· = x)))) c x).bind (fun w => release n w x) = some w') ∧ Good w' ∧
      Gone w (Desc w x) (Parts w (Desc w x)) w' := by
  obtain ⟨rk, hi⟩ := hg
  obtain ⟨w1, h1, h2⟩ := unlink_of_put (hi 0) hc hx
  obtain ⟨o, _, ho⟩ := h2.self
  obtain ⟨S, K, w', hd, hS, hSd, N, hN⟩ := release_ok rk (rk x + 1) w1 x (by omega) (unlinked_inv (hi _) h2) (by simp [ho])
  have hd1 := unlinked_del h2 hd hS
  refine ⟨w', ⟨N, fun n hn => by rw [h1, Option.bind_some, hN n hn]⟩, del_good hi hd1 (by simp), ?_⟩
  have e : S = Desc w x := funext fun z => propext
    ⟨fun hz => desc_mono (fun y z h => ((unlinked_owns h2 y z).mp h).1) (hSd z hz), desc_of_closed hd1.closed hS⟩
  have e' : K = Parts w (Desc w x) := funext fun c => propext (by rw [hd1.owners, e]; simp [Parts])
  rw [← e', ← e]
  exact hd1.toGone

theorem exists_bound (rk : Nat → Nat) (l : List Nat) : ∃ k, ∀ x ∈ l, rk x < k := by
  induction l with
  | nil => exact ⟨0, by simp⟩
  | cons a l ih =>
    obtain ⟨k, hk⟩ := ih
    refine ⟨max k (rk a + 1), ?_⟩
    intro x hx
    rcases List.mem_cons.mp hx with rfl | hx
    · omega
    · have := hk x hx; omega

theorem clear_core {rk : Nat → Nat} {w : World} {c : Nat} {v : Content} (hi : ∀ m, Inv rk m w) (hc : w.cons c = some v) :
    ∃ k w', (∃ N, ∀ n ≥ N, clear n w c = some w') ∧ Del rk k w (Below w c) (Parts w (Below w c)) (fun _ => False) w' ∧
      (∀ y, Member w y c → k ≤ rk y) := by
  have : ∃ k, (∀ x ∈ v.items, rk x < k) ∧ (∀ y, Member w y c → k ≤ rk y) := by
    by_cases hm : ∃ y, Member w y c
    · obtain ⟨y, hy⟩ := hm
      refine ⟨rk y, fun x hx => (hi 0).rank y x ⟨c, hy, v, hc, hx⟩, ?_⟩
      intro z hz
      rw [(hi 0).uniq z y c hz hy]
    · obtain ⟨k, hk⟩ := exists_bound rk v.items
      exact ⟨k, hk, fun y hy => (hm ⟨y, hy⟩).elim⟩
  obtain ⟨k, h1, h2⟩ := this
  obtain ⟨S, K, w', hd, hS, hSd, hN⟩ := clear_ok (release_ok rk k) _ w c v rfl (hi k) hc h1 h2
  have hl : ∀ x, Lists w c x ↔ x ∈ v.items := by
    intro x
    simp [Lists, hc]
  have e : S = Below w c := funext fun z => propext ⟨fun hz => by
      obtain ⟨x, hx, hd⟩ := hSd z hz
      exact ⟨x, (hl x).mpr hx, hd⟩, fun ⟨x, hx, hz⟩ => desc_of_closed hd.closed (hS x ((hl x).mp hx)) hz⟩
  have e' : K = Parts w (Below w c) := funext fun c => propext (by rw [hd.owners, e]; simp [Parts])
  rw [e, e'] at hd
  exact ⟨k, w', hN, hd, h2⟩

theorem clear_top {w : World} {c : Nat} {v : Content} (hg : Good w) (hc : w.cons c = some v) :
    ∃ w', (∃ N, ∀ n ≥ N, clear n w c = some w') ∧ Good w' ∧ Gone w (Below w c) (Parts w (Below w c)) w' ∧ ¬ Parts w (Below w c) c := by
  obtain ⟨rk, hi⟩ := hg
  obtain ⟨k, w', hN, hd, hm⟩ := clear_core hi hc
  refine ⟨w', hN, del_good hi hd (by simp), hd.toGone, ?_⟩
  rintro ⟨y, hy, hyc⟩
  have := hm y hyc
  have := hd.low y hy
  omega

theorem delete_top {w : World} {c : Nat} {v : Content} (hg : Good w) (hc : w.cons c = some v) (hn : ∀ y, ¬ Member w y c) :
    ∃ w', (∃ N, ∀ n ≥ N, deleteOwner n w c = some w') ∧ Good w' ∧
      Gone w (Below w c) (fun d => Parts w (Below w c) d ∨ d = c) w' := by
  obtain ⟨rk, hi⟩ := hg
  obtain ⟨k, w', ⟨N, hN⟩, hd, hm⟩ := clear_core hi hc
  have hd' := drop_owner hc hd (fun x hx => ⟨x, ⟨v, hc, hx⟩, Relation.ReflTransGen.refl⟩) hm
  refine ⟨putC w' c none, ⟨N, fun n h => ?_⟩, del_good hi hd' (by rintro d y rfl; exact hn y), hd'.toGone⟩
  simp only [deleteOwner]
  rw [hN n h, Option.bind_some]

theorem unlinked_good {w w' : World} {x : Nat} (hg : Good w) (h : Unlinked w x w') : Good w' := by
  obtain ⟨rk, hi⟩ := hg
  exact ⟨rk, fun m => unlinked_inv (hi m) h⟩

theorem linked_good {w w' : World} {c x : Nat} (hg : Good w) (h : Linked w c x w') (hn : ∀ y, Desc w x y → ¬ Member w y c) : Good w' := by
  classical
  obtain ⟨rk, hi⟩ := hg
  obtain ⟨o, ho, how, ho'⟩ := h.self
  obtain ⟨v, v', hv, hv', hp⟩ := h.at_c
  have hM : ∀ y d, Member w' y d ↔ Member w y d := by
    intro y d
    by_cases e : y = x
    · subst e; simp [Member, ho, ho']
    · simp [Member, h.objs y e]
  have hL : ∀ d z, Lists w' d z ↔ Lists w d z ∨ (d = c ∧ z = x) := by
    intro d z
    by_cases e : d = c
    · subst e
      simp only [Lists, hv, hv', Option.some.injEq, exists_eq_left', hp.mem_iff, List.mem_cons]
      tauto
    · simp [Lists, h.cons d e, e]
  have hO : ∀ y z, Owns w' y z ↔ Owns w y z ∨ (Member w y c ∧ z = x) := by
    intro y z
    constructor
    · rintro ⟨d, h1, h2⟩
      rw [hM] at h1
      rw [hL] at h2
      rcases h2 with h2 | ⟨rfl, rfl⟩
      · exact Or.inl ⟨d, h1, h2⟩
      · exact Or.inr ⟨h1, rfl⟩
    · rintro (⟨d, h1, h2⟩ | ⟨h1, rfl⟩)
      · exact ⟨d, (hM y d).mpr h1, (hL d z).mpr (Or.inl h2)⟩
      · exact ⟨c, (hM y c).mpr h1, (hL c z).mpr (Or.inr ⟨rfl, rfl⟩)⟩
  -- no owner lists `x` yet
  have hnx : ∀ d, ¬ Lists w d x := by
    intro d hl
    obtain ⟨o', h1, h2⟩ := ((hi 0).own d x).mp hl
    rw [ho] at h1
    obtain rfl := Option.some.inj h1
    rw [how] at h2
    exact absurd h2 (by simp)
  refine ⟨fun z => rk z + (if ∃ y, Desc w z y ∧ Member w y c then rk x + 1 else 0), fun m => ⟨?_, ?_, ?_, ?_, ?_, ?_, ?_, ?_⟩⟩
  · intro d z
    rw [hL, (hi 0).own]
    by_cases e : z = x
    · subst e
      simp [ho, ho', how]
      exact eq_comm
    · simp [h.objs z e, e]
  · intro d u hu
    by_cases e : d = c
    · subst e
      rw [hv'] at hu
      obtain rfl := Option.some.inj hu
      rw [hp.nodup_iff, List.nodup_cons]
      exact ⟨fun hx => hnx d ⟨v, hv, hx⟩, (hi 0).nodup d v hv⟩
    · rw [h.cons d e] at hu; exact (hi 0).nodup d u hu
  · intro y d _ hm
    rw [hM] at hm
    have := (hi (rk y + 1)).home y d (by omega) hm
    by_cases e : d = c
    · subst e; simp [hv']
    · rwa [h.cons d e]
  · intro y z d h1 h2
    rw [hM] at h1 h2
    exact (hi 0).uniq y z d h1 h2
  · intro y o1 h1
    by_cases e : y = x
    · subst e
      rw [ho'] at h1
      obtain rfl := Option.some.inj h1
      exact (hi 0).mnodup y o ho
    · rw [h.objs y e] at h1; exact (hi 0).mnodup y o1 h1
  · intro y z hyz
    rw [hO] at hyz
    rcases hyz with hyz | ⟨hy, rfl⟩
    · have h1 := (hi 0).rank y z hyz
      by_cases hz : ∃ t, Desc w z t ∧ Member w t c
      · have hy : ∃ t, Desc w y t ∧ Member w t c := by
          obtain ⟨t, ht, htc⟩ := hz
          exact ⟨t, Relation.ReflTransGen.head hyz ht, htc⟩
        simp only [if_pos hz, if_pos hy]
        omega
      · simp only [if_neg hz]
        omega
    · have h1 : ∃ t, Desc w y t ∧ Member w t c := ⟨y, Relation.ReflTransGen.refl, hy⟩
      have h2 : ¬ ∃ t, Desc w z t ∧ Member w t c := fun ⟨t, ht, htc⟩ => hn t ht htc
      simp only [if_pos h1, if_neg h2]
      omega
  · rw [h.freed]; exact (hi 0).fnodup
  · intro z hz
    rw [h.freed] at hz
    have := (hi 0).gone z hz
    by_cases e : z = x
    · subst e; rw [ho] at this; exact absurd this (by simp)
    · rw [h.objs z e]; exact this

/-- `w'` is `w` with the new and empty owners `cs` and, perhaps, the new object `x` of which they are the members. -/
structure Fresh (w : World) (cs : List Nat) (x : Option Nat) (w' : World) : Prop where
  new : ∀ c ∈ cs, w.cons c = none ∧ ∃ v, w'.cons c = some v ∧ v.items = []
  old : ∀ c, c ∉ cs → w'.cons c = w.cons c
  obj : ∀ y, x = some y → w.objs y = none ∧ y ∉ w.freed ∧ w'.objs y = some ⟨none, cs⟩
  objs : ∀ y, x ≠ some y → w'.objs y = w.objs y
  freed : w'.freed = w.freed

theorem fresh_good {w w' : World} {cs : List Nat} {x : Option Nat} (hg : Good w) (hn : cs.Nodup) (h : Fresh w cs x w') : Good w' := by
  obtain ⟨rk, hi⟩ := hg
  have hM : ∀ y d, Member w' y d ↔ Member w y d ∨ (x = some y ∧ d ∈ cs) := by
    intro y d
    by_cases e : x = some y
    · obtain ⟨h1, _, h3⟩ := h.obj y e
      simp [Member, h1, h3, e]
    · simp [Member, h.objs y e, e]
  have hL : ∀ d z, Lists w' d z ↔ Lists w d z := by
    intro d z
    by_cases e : d ∈ cs
    · obtain ⟨h1, v, h2, h3⟩ := h.new d e
      simp [Lists, h1, h2, h3]
    · simp [Lists, h.old d e]
  have hMn : ∀ y d, d ∈ cs → ¬ Member w y d := by
    intro y d hd hm
    have := (hi (rk y + 1)).home y d (by omega) hm
    rw [(h.new d hd).1] at this
    simp at this
  have hLn : ∀ d z, d ∈ cs → ¬ Lists w d z := by
    intro d z hd hl
    obtain ⟨v, h1, _⟩ := hl
    rw [(h.new d hd).1] at h1
    simp at h1
  refine ⟨rk, fun m => ⟨?_, ?_, ?_, ?_, ?_, ?_, ?_, ?_⟩⟩
  · intro d z
    rw [hL, (hi 0).own]
    by_cases e : x = some z
    · obtain ⟨h1, _, h3⟩ := h.obj z e
      simp [h1, h3]
    · rw [h.objs z e]
  · intro d u hu
    by_cases e : d ∈ cs
    · obtain ⟨h1, v, h2, h3⟩ := h.new d e
      rw [h2] at hu
      obtain rfl := Option.some.inj hu
      simp [h3]
    · rw [h.old d e] at hu; exact (hi 0).nodup d u hu
  · intro y d hr hm
    rw [hM] at hm
    by_cases e : d ∈ cs
    · obtain ⟨h1, v, h2, h3⟩ := h.new d e
      simp [h2]
    · rw [h.old d e]
      rcases hm with hm | ⟨_, hm⟩
      · exact (hi m).home y d hr hm
      · exact absurd hm e
  · intro y z d h1 h2
    rw [hM] at h1 h2
    rcases h1 with h1 | h1 <;> rcases h2 with h2 | h2
    · exact (hi 0).uniq y z d h1 h2
    · exact absurd h1 (hMn y d h2.2)
    · exact absurd h2 (hMn z d h1.2)
    · exact Option.some.inj (h1.1.symm.trans h2.1)
  · intro y o ho
    by_cases e : x = some y
    · rw [(h.obj y e).2.2] at ho
      obtain rfl := Option.some.inj ho
      exact hn
    · rw [h.objs y e] at ho; exact (hi 0).mnodup y o ho
  · rintro y z ⟨d, h1, h2⟩
    rw [hM] at h1
    rw [hL] at h2
    rcases h1 with h1 | h1
    · exact (hi 0).rank y z ⟨d, h1, h2⟩
    · exact absurd h2 (hLn d z h1.2)
  · rw [h.freed]; exact (hi 0).fnodup
  · intro z hz
    rw [h.freed] at hz
    by_cases e : x = some z
    · exact absurd hz (h.obj z e).2.1
    · rw [h.objs z e]; exact (hi 0).gone z hz

end Verif.FOwn
