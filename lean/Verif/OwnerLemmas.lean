import Verif.OwnerSpec
import Mathlib.Logic.Relation
import Mathlib.Tactic.Common

/-! # Lemmas about the ownership model -/

namespace Verif.FOwn

structure Inv (rk : Nat → Nat) (m : Nat) (w : World) : Prop where
  own : ∀ c x, Lists w c x ↔ ∃ o, w.objs x = some o ∧ o.owner = some c
  nodup : ∀ c v, w.cons c = some v → v.items.Nodup
  home : ∀ y c, rk y < m → Member w y c → (w.cons c).isSome
  uniq : ∀ y z c, Member w y c → Member w z c → y = z
  mnodup : ∀ y o, w.objs y = some o → o.members.Nodup
  rank : ∀ y x, Owns w y x → rk x < rk y
  fnodup : w.freed.Nodup
  gone : ∀ z ∈ w.freed, w.objs z = none

theorem mem_without (S : Nat → Prop) [DecidablePred S] (v : Content) (x : Nat) : x ∈ (v.without S).items ↔ x ∈ v.items ∧ ¬ S x := by
  cases v with
  | list l => simp [Content.without, Content.items]
  | ref p => cases p <;> simp [Content.without, Content.items, Option.filter]; grind

theorem without_without (S T : Nat → Prop) [DecidablePred S] [DecidablePred T] [DecidablePred fun z => S z ∨ T z] (v : Content) :
    (v.without S).without T = v.without (fun z => S z ∨ T z) := by
  cases v with
  | list l => simp only [Content.without, List.filter_filter, Content.list.injEq]; congr 1; funext x; by_cases h : S x <;> by_cases h' : T x <;> simp [h, h']
  | ref p =>
    cases p with
    | none => rfl
    | some x => by_cases h : S x <;> by_cases h' : T x <;> simp [Content.without, Option.filter, h, h']

theorem without_id (S : Nat → Prop) [DecidablePred S] (v : Content) (h : ∀ x ∈ v.items, ¬ S x) : v.without S = v := by
  cases v with
  | list l => simp only [Content.without, Content.list.injEq]; exact List.filter_eq_self.mpr (by intro a ha; simp [h a ha])
  | ref p =>
    cases p with
    | none => rfl
    | some x => have := h x (by simp [Content.items]); simp [Content.without, Option.filter, this]

theorem without_nodup (S : Nat → Prop) [DecidablePred S] (v : Content) (h : v.items.Nodup) : (v.without S).items.Nodup := by
  cases v with
  | list l => exact h.filter _
  | ref p => cases p <;> simp [Content.without, Content.items, Option.filter]; split <;> simp

open Classical in
theorem gone_refl (w : World) : Gone w (fun _ => False) (fun _ => False) w where
  alive := by simp
  objs := by simp
  gone := by simp
  kept := by
    intro c _ hd
    cases h : w.cons c with
    | none => rfl
    | some v => exact congrArg some (@without_id _ hd v (fun _ _ h => h)).symm
  freed := ⟨[], by simp⟩

open Classical in
theorem gone_trans {w w1 w2 : World} {S K S' K' : Nat → Prop} (h : Gone w S K w1) (h' : Gone w1 S' K' w2) :
    Gone w (fun z => S z ∨ S' z) (fun c => K c ∨ K' c) w2 where
  alive := by
    intro z hz
    rcases hz with hz | hz
    · exact h.alive z hz
    · have := h'.alive z hz
      by_cases hs : S z
      · exact h.alive z hs
      · rwa [(h.objs z).2 hs] at this
  objs := by
    intro z
    constructor
    · intro hz
      by_cases hs' : S' z
      · exact (h'.objs z).1 hs'
      · rw [(h'.objs z).2 hs']; exact (h.objs z).1 (by tauto)
    · intro hz
      push Not at hz
      rw [(h'.objs z).2 hz.2, (h.objs z).2 hz.1]
  gone := by
    intro c hc
    by_cases hk' : K' c
    · exact h'.gone c hk'
    · have := h'.kept c hk'
      rw [this, h.gone c (by tauto)]; rfl
  kept := by
    intro c hc hd
    push Not at hc
    rw [h'.kept c hc.2, h.kept c hc.1, Option.map_map]
    congr 1
    funext v
    exact without_without S S' v
  freed := by
    obtain ⟨l, h1, h2, h3⟩ := h.freed
    obtain ⟨l', h1', h2', h3'⟩ := h'.freed
    refine ⟨l ++ l', by rw [h1', h1, List.append_assoc], ?_, by intro z; rw [List.mem_append, h3, h3']⟩
    rw [List.nodup_append]
    refine ⟨h2, h2', ?_⟩
    intro a ha b hb e
    subst e
    have := h'.alive a ((h3' a).mp hb)
    rw [(h.objs a).1 ((h3 a).mp ha)] at this
    simp at this

/-- A set of objects closed under ownership. -/
def Closed (w : World) (S : Nat → Prop) : Prop := ∀ y x, S y → Owns w y x → S x

/-- What is asked of a deletion: it deletes a closed set of objects, all of rank less than `k`, the owners that are their members, and some
more owners `E`, that belong to objects of rank `k` or more or to no object. -/
structure Del (rk : Nat → Nat) (k : Nat) (w : World) (S K E : Nat → Prop) (w' : World) : Prop extends Gone w S K w' where
  low : ∀ z, S z → rk z < k
  closed : Closed w S
  owners : ∀ c, K c ↔ (∃ y, S y ∧ Member w y c) ∨ E c
  emptied : ∀ c x, E c → Lists w c x → S x
  high : ∀ c y, E c → Member w y c → k ≤ rk y

theorem gone_member {w w' : World} {S K : Nat → Prop} (h : Gone w S K w') (y c : Nat) : Member w' y c ↔ Member w y c ∧ ¬ S y := by
  by_cases hs : S y
  · simp [Member, (h.objs y).1 hs, hs]
  · simp [Member, (h.objs y).2 hs, hs]

open Classical in
theorem gone_lists {w w' : World} {S K : Nat → Prop} (h : Gone w S K w') (c x : Nat) : Lists w' c x ↔ Lists w c x ∧ ¬ S x ∧ ¬ K c := by
  by_cases hk : K c
  · simp [Lists, h.gone c hk, hk]
  · simp only [Lists, h.kept c hk, hk, not_false_eq_true, and_true]
    cases hc : w.cons c with
    | none => simp
    | some v => simp [mem_without]

theorem gone_owns {w w' : World} {S K : Nat → Prop} (h : Gone w S K w') (y x : Nat) (ho : Owns w' y x) : Owns w y x ∧ ¬ S y ∧ ¬ S x := by
  obtain ⟨c, hm, hl⟩ := ho
  rw [gone_member h] at hm
  rw [gone_lists h] at hl
  exact ⟨⟨c, hm.1, hl.1⟩, hm.2, hl.2.1⟩

open Classical in
theorem del_inv {rk : Nat → Nat} {m k : Nat} {w w' : World} {S K E : Nat → Prop} (hi : Inv rk m w) (h : Del rk k w S K E w')
    (hE : ∀ c y, E c → Member w y c → m ≤ rk y) : Inv rk m w' where
  own := by
    intro c x
    rw [gone_lists h.toGone]
    constructor
    · rintro ⟨h1, h2, h3⟩
      rw [(h.objs x).2 h2]
      exact (hi.own c x).mp h1
    · rintro ⟨o, h1, h2⟩
      have hs : ¬ S x := by intro hs; rw [(h.objs x).1 hs] at h1; exact absurd h1 (by simp)
      rw [(h.objs x).2 hs] at h1
      have hl := (hi.own c x).mpr ⟨o, h1, h2⟩
      refine ⟨hl, hs, ?_⟩
      intro hk
      rcases (h.owners c).mp hk with ⟨y, hy, hm⟩ | he
      · exact hs (h.closed y x hy ⟨c, hm, hl⟩)
      · exact hs (h.emptied c x he hl)
  nodup := by
    intro c v hv
    by_cases hk : K c
    · rw [h.gone c hk] at hv; exact absurd hv (by simp)
    · rw [h.kept c hk] at hv
      obtain ⟨u, hu, rfl⟩ := Option.map_eq_some_iff.mp hv
      exact without_nodup _ _ (hi.nodup c u hu)
  home := by
    intro y c hr hm
    rw [gone_member h.toGone] at hm
    have hk : ¬ K c := by
      intro hk
      rcases (h.owners c).mp hk with ⟨z, hz, hm'⟩ | he
      · exact hm.2 (hi.uniq y z c hm.1 hm' ▸ hz)
      · have := hE c y he hm.1; omega
    rw [h.kept c hk]
    simpa using hi.home y c hr hm.1
  uniq := by
    intro y z c h1 h2
    rw [gone_member h.toGone] at h1 h2
    exact hi.uniq y z c h1.1 h2.1
  mnodup := by
    intro y o ho
    by_cases hs : S y
    · rw [(h.objs y).1 hs] at ho; exact absurd ho (by simp)
    · rw [(h.objs y).2 hs] at ho; exact hi.mnodup y o ho
  rank := by
    intro y x ho
    exact hi.rank y x (gone_owns h.toGone y x ho).1
  fnodup := by
    obtain ⟨l, h1, h2, h3⟩ := h.freed
    rw [h1, List.nodup_append]
    refine ⟨hi.fnodup, h2, ?_⟩
    intro a ha b hb e
    subst e
    have := h.alive a ((h3 a).mp hb)
    rw [hi.gone a ha] at this
    simp at this
  gone := by
    intro z hz
    obtain ⟨l, h1, h2, h3⟩ := h.freed
    rw [h1, List.mem_append] at hz
    by_cases hs : S z
    · exact (h.objs z).1 hs
    · rw [(h.objs z).2 hs]
      rcases hz with hz | hz
      · exact hi.gone z hz
      · exact absurd ((h3 z).mp hz) hs

theorem del_trans {rk : Nat → Nat} {m k : Nat} {w w1 w2 : World} {S K E S' K' E' : Nat → Prop} (hi : Inv rk m w)
    (h : Del rk k w S K E w1) (h' : Del rk k w1 S' K' E' w2) (hE' : ∀ c y, E' c → Member w y c → k ≤ rk y) :
    Del rk k w (fun z => S z ∨ S' z) (fun c => K c ∨ K' c) (fun c => E c ∨ E' c) w2 where
  toGone := gone_trans h.toGone h'.toGone
  low := by
    rintro z (hz | hz)
    · exact h.low z hz
    · exact h'.low z hz
  closed := by
    intro y x hy ho
    by_cases hs : S y
    · exact Or.inl (h.closed y x hs ho)
    · by_cases hx : S x
      · exact Or.inl hx
      · right
        have hy' : S' y := by tauto
        refine h'.closed y x hy' ?_
        obtain ⟨c, hm, hl⟩ := ho
        refine ⟨c, (gone_member h.toGone y c).mpr ⟨hm, hs⟩, (gone_lists h.toGone c x).mpr ⟨hl, hx, ?_⟩⟩
        intro hk
        rcases (h.owners c).mp hk with ⟨z, hz, hm'⟩ | he
        · exact hs (hi.uniq y z c hm hm' ▸ hz)
        · have := h.high c y he hm
          have := h'.low y hy'
          omega
  owners := by
    intro c
    rw [h.owners, h'.owners]
    constructor
    · rintro ((⟨y, hy, hm⟩ | he) | (⟨y, hy, hm⟩ | he))
      · exact Or.inl ⟨y, Or.inl hy, hm⟩
      · exact Or.inr (Or.inl he)
      · exact Or.inl ⟨y, Or.inr hy, ((gone_member h.toGone y c).mp hm).1⟩
      · exact Or.inr (Or.inr he)
    · rintro (⟨y, hy, hm⟩ | he)
      · by_cases hs : S y
        · exact Or.inl (Or.inl ⟨y, hs, hm⟩)
        · exact Or.inr (Or.inl ⟨y, by tauto, (gone_member h.toGone y c).mpr ⟨hm, hs⟩⟩)
      · tauto
  emptied := by
    rintro c x (he | he) hl
    · exact Or.inl (h.emptied c x he hl)
    · by_cases hx : S x
      · exact Or.inl hx
      · right
        refine h'.emptied c x he ((gone_lists h.toGone c x).mpr ⟨hl, hx, ?_⟩)
        intro hk
        rcases (h.owners c).mp hk with ⟨z, hz, hm'⟩ | he
        · exact hx (h.closed z x hz ⟨c, hm', hl⟩)
        · exact hx (h.emptied c x he hl)
  high := by
    rintro c y (he | he) hm
    · exact h.high c y he hm
    · exact hE' c y he hm

theorem inv_mono {rk : Nat → Nat} {m k : Nat} {w : World} (hi : Inv rk m w) (h : k ≤ m) : Inv rk k w :=
  { hi with home := fun y c hr hm => hi.home y c (by omega) hm }

theorem del_mono {rk : Nat → Nat} {j k : Nat} {w w' : World} {S K : Nat → Prop} (h : Del rk j w S K (fun _ => False) w') (hk : j ≤ k) :
    Del rk k w S K (fun _ => False) w' :=
  { h with low := fun z hz => Nat.lt_of_lt_of_le (h.low z hz) hk, high := fun _ _ he => he.elim }

/-- `w'` is `w` with the object `x` taken out of its owner. -/
structure Unlinked (w : World) (x : Nat) (w' : World) : Prop where
  self : ∃ o, w.objs x = some o ∧ w'.objs x = some { o with owner := none }
  objs : ∀ z, z ≠ x → w'.objs z = w.objs z
  cons : ∀ c, w'.cons c = (w.cons c).map (Content.without (· = x))
  freed : w'.freed = w.freed

theorem unlinked_member {w w' : World} {x : Nat} (h : Unlinked w x w') (y c : Nat) : Member w' y c ↔ Member w y c := by
  by_cases e : y = x
  · obtain ⟨o, h1, h2⟩ := h.self
    subst e
    simp [Member, h1, h2]
  · simp [Member, h.objs y e]

theorem unlinked_lists {w w' : World} {x : Nat} (h : Unlinked w x w') (c z : Nat) : Lists w' c z ↔ Lists w c z ∧ z ≠ x := by
  simp only [Lists, h.cons]
  cases hc : w.cons c with
  | none => simp
  | some v => simp [mem_without]

theorem unlinked_owns {w w' : World} {x : Nat} (h : Unlinked w x w') (y z : Nat) : Owns w' y z ↔ Owns w y z ∧ z ≠ x := by
  simp only [Owns, unlinked_member h, unlinked_lists h]
  grind

theorem unlinked_inv {rk : Nat → Nat} {m : Nat} {w w' : World} {x : Nat} (hi : Inv rk m w) (h : Unlinked w x w') : Inv rk m w' where
  own := by
    intro c z
    rw [unlinked_lists h, hi.own]
    by_cases e : z = x
    · obtain ⟨o, h1, h2⟩ := h.self
      subst e
      simp [h2]
    · simp [h.objs z e, e]
  nodup := by
    intro c v hv
    rw [h.cons] at hv
    obtain ⟨u, hu, rfl⟩ := Option.map_eq_some_iff.mp hv
    exact without_nodup _ _ (hi.nodup c u hu)
  home := by
    intro y c hr hm
    rw [unlinked_member h] at hm
    rw [h.cons]
    simpa using hi.home y c hr hm
  uniq := by
    intro y z c h1 h2
    rw [unlinked_member h] at h1 h2
    exact hi.uniq y z c h1 h2
  mnodup := by
    intro y o ho
    by_cases e : y = x
    · obtain ⟨o', h1, h2⟩ := h.self
      subst e
      rw [h2] at ho
      obtain rfl := Option.some.inj ho
      exact hi.mnodup y o' h1
    · rw [h.objs y e] at ho; exact hi.mnodup y o ho
  rank := by
    intro y z ho
    exact hi.rank y z ((unlinked_owns h y z).mp ho).1
  fnodup := by rw [h.freed]; exact hi.fnodup
  gone := by
    intro z hz
    rw [h.freed] at hz
    have := hi.gone z hz
    by_cases e : z = x
    · obtain ⟨o', h1, h2⟩ := h.self
      subst e
      rw [h1] at this
      exact absurd this (by simp)
    · rw [h.objs z e]; exact this

open Classical in
theorem unlinked_del {rk : Nat → Nat} {k : Nat} {w w1 w2 : World} {x : Nat} {S K E : Nat → Prop} (h : Unlinked w x w1)
    (h' : Del rk k w1 S K E w2) (hx : S x) : Del rk k w S K E w2 where
  alive := by
    intro z hz
    have := h'.alive z hz
    by_cases e : z = x
    · obtain ⟨o, h1, h2⟩ := h.self
      subst e
      simp [h1]
    · rwa [h.objs z e] at this
  objs := by
    intro z
    refine ⟨(h'.objs z).1, ?_⟩
    intro hz
    have e : z ≠ x := by rintro rfl; exact hz hx
    rw [(h'.objs z).2 hz, h.objs z e]
  gone := h'.gone
  kept := by
    intro c hc hd
    rw [h'.kept c hc, h.cons, Option.map_map]
    congr 1
    funext v
    show (v.without _).without _ = _
    rw [without_without]
    congr 1
    funext z
    simp only [eq_iff_iff, or_iff_right_iff_imp]
    rintro rfl
    exact hx
  freed := by
    have := h'.freed
    rwa [h.freed] at this
  low := h'.low
  closed := by
    intro y z hy ho
    by_cases e : z = x
    · exact e ▸ hx
    · exact h'.closed y z hy ((unlinked_owns h y z).mpr ⟨ho, e⟩)
  owners := by
    intro c
    rw [h'.owners]
    simp only [unlinked_member h]
  emptied := by
    intro c z he hl
    by_cases e : z = x
    · exact e ▸ hx
    · exact h'.emptied c z he ((unlinked_lists h c z).mpr ⟨hl, e⟩)
  high := by
    intro c y he hm
    exact h'.high c y he ((unlinked_member h y c).mpr hm)

theorem desc_mono {w w1 : World} (h : ∀ y z, Owns w1 y z → Owns w y z) {x z : Nat} (hd : Desc w1 x z) : Desc w x z :=
  Relation.ReflTransGen.mono h _ _ hd

theorem desc_rank {rk : Nat → Nat} {m : Nat} {w : World} (hi : Inv rk m w) {x z : Nat} (hd : Desc w x z) : rk z ≤ rk x := by
  induction hd with
  | refl => exact Nat.le_refl _
  | tail _ h ih => have := hi.rank _ _ h; omega

theorem without_erase {l : List Nat} (h : l.Nodup) (x : Nat) : Content.list (l.erase x) = (Content.list l).without (· = x) := by
  simp only [Content.without, h.erase_eq_filter]
  congr 2
  funext z
  by_cases e : z = x <;> simp [e]

/-- Taking an object out of a container in which it is listed, with the loss of the owner. -/
theorem unlink_of_put {rk : Nat → Nat} {m : Nat} {w : World} {c x : Nat} {v : Content} (hi : Inv rk m w) (hc : w.cons c = some v) (hx : x ∈ v.items) :
    ∃ w1, dropOwner (putC w c (some (v.without (· = x)))) c x = some w1 ∧ Unlinked w x w1 := by
  obtain ⟨o, ho, how⟩ := (hi.own c x).mp ⟨v, hc, hx⟩
  refine ⟨putO (putC w c (some (v.without (· = x)))) x (some { o with owner := none }), ?_, ?_⟩
  · have ho' : (putC w c (some (v.without (· = x)))).objs x = some o := ho
    simp only [dropOwner]
    rw [ho', Option.bind_some, if_pos how]
  · refine ⟨⟨o, ho, by simp [putO]⟩, ?_, ?_, rfl⟩
    · intro z hz
      simp [putO, putC, hz]
    · intro c'
      show (Function.update w.cons c (some (v.without (· = x)))) c' = _
      by_cases e : c' = c
      · subst e; rw [Function.update_self, hc]; rfl
      · rw [Function.update_of_ne e]
        cases h : w.cons c' with
        | none => rfl
        | some u =>
          rw [Option.map_some, without_id]
          rintro z hz rfl
          obtain ⟨o', ho', how'⟩ := (hi.own c' z).mp ⟨u, h, hz⟩
          rw [ho] at ho'
          obtain rfl := Option.some.inj ho'
          rw [how] at how'
          exact e (Option.some.inj how').symm

theorem detach_unlinked {rk : Nat → Nat} {m : Nat} {w : World} {x : Nat} {o : Obj} (hi : Inv rk m w) (ho : w.objs x = some o) :
    ∃ w1, detach w x o = some w1 ∧ Unlinked w x w1 := by
  cases how : o.owner with
  | none =>
    refine ⟨w, by simp [detach, how], ⟨⟨o, ho, ?_⟩, fun _ _ => rfl, ?_, rfl⟩⟩
    · rw [ho]; cases o; cases how; rfl
    · intro c
      cases h : w.cons c with
      | none => rfl
      | some u =>
        rw [Option.map_some, without_id]
        rintro z hz rfl
        obtain ⟨o', ho', how'⟩ := (hi.own c z).mp ⟨u, h, hz⟩
        rw [ho] at ho'
        obtain rfl := Option.some.inj ho'
        rw [how] at how'
        exact absurd how' (by simp)
  | some c =>
    obtain ⟨v, hc, hx⟩ := (hi.own c x).mpr ⟨o, ho, how⟩
    obtain ⟨w1, h1, h2⟩ := unlink_of_put hi hc hx
    have ho' : (putC w c (some (v.without (· = x)))).objs x = some o := ho
    simp only [dropOwner] at h1
    rw [ho', Option.bind_some, if_pos how] at h1
    refine ⟨w1, ?_, h2⟩
    simp only [detach, how]
    have h3 : onReleased w c x = some (putC w c (some (v.without (· = x)))) := by
      simp only [onReleased]
      rw [hc, Option.bind_some]
      cases v with
      | ref p =>
        cases p with
        | none => simp [Content.items] at hx
        | some q =>
          have : q = x := by have := hx; simp [Content.items] at this; exact this.symm
          subst this
          simp [Content.without, Option.filter]
      | list l =>
        show (if x ∈ l then _ else _) = _
        rw [if_pos (show x ∈ l from hx), without_erase (show l.Nodup from hi.nodup c _ hc)]
    rw [h3, Option.bind_some, ← h1]

/-- The outcome of the release of an object. -/
def RelOK (rk : Nat → Nat) (k : Nat) : Prop :=
  ∀ (w : World) (x : Nat), rk x < k → Inv rk k w → (w.objs x).isSome →
    ∃ S K w', Del rk (rk x + 1) w S K (fun _ => False) w' ∧ S x ∧ (∀ z, S z → Desc w x z) ∧ ∃ N, ∀ n ≥ N, release n w x = some w'

theorem clear_ok {rk : Nat → Nat} {k : Nat} (ih : RelOK rk k) : ∀ (s : Nat) (w : World) (c : Nat) (v : Content), v.items.length = s → Inv rk k w →
    w.cons c = some v → (∀ x ∈ v.items, rk x < k) → (∀ y, Member w y c → k ≤ rk y) →
    ∃ S K w', Del rk k w S K (fun _ => False) w' ∧ (∀ x ∈ v.items, S x) ∧ (∀ z, S z → ∃ x ∈ v.items, Desc w x z) ∧
      ∃ N, ∀ n ≥ N, clear n w c = some w' := by
  intro s
  induction s using Nat.strongRecOn with
  | ind s ihs =>
  intro w c v hs hi hc hr hm
  by_cases hv : v.items = []
  · refine ⟨fun _ => False, fun _ => False, w, ⟨gone_refl w, by simp, by simp [Closed], by simp, by simp, by simp⟩, by simp [hv], by simp, 1, ?_⟩
    intro n hn
    obtain ⟨n, rfl⟩ : ∃ i, n = i + 1 := ⟨n - 1, by omega⟩
    cases v with
    | ref p =>
      cases p with
      | none => simp [clear, hc]
      | some x => simp [Content.items] at hv
    | list l =>
      have : l = [] := hv
      subst this
      simp [clear, hc]
  · -- the last object
    obtain ⟨x, hx⟩ : ∃ x, v.items.getLast? = some x := ⟨v.items.getLast hv, List.getLast?_eq_getLast_of_ne_nil hv⟩
    have hxm : x ∈ v.items := List.mem_of_getLast? hx
    obtain ⟨w1, h1, h2⟩ := unlink_of_put hi hc hxm
    have hi1 := unlinked_inv hi h2
    obtain ⟨o, ho, ho'⟩ := h2.self
    obtain ⟨S, K, w2, hd, hS, hSd, N, hN⟩ := ih w1 x (hr x hxm) hi1 (by simp [ho'])
    have hd1 : Del rk k w S K (fun _ => False) w2 := del_mono (unlinked_del h2 hd hS) (hr x hxm)
    have hi2 : Inv rk k w2 := del_inv hi hd1 (by simp)
    have hSw : ∀ z, S z → Desc w x z := fun z hz => desc_mono (fun y z h => ((unlinked_owns h2 y z).mp h).1) (hSd z hz)
    have hkc : ¬ K c := by
      intro hk
      rcases (hd1.owners c).mp hk with ⟨y, hy, hmy⟩ | h
      · have := hm y hmy
        have := hd1.low y hy
        omega
      · exact h
    cases v with
    | ref p =>
      cases p with
      | none => simp [Content.items] at hv
      | some q =>
        have : q = x := by have := hxm; simp [Content.items] at this; exact this.symm
        subst this
        refine ⟨S, K, w2, hd1, by simpa [Content.items] using hS, fun z hz => ⟨q, by simp [Content.items], hSw z hz⟩, N + 1, ?_⟩
        intro n hn
        obtain ⟨n, rfl⟩ : ∃ i, n = i + 1 := ⟨n - 1, by omega⟩
        have e : (Content.ref (some q)).without (· = q) = .ref none := by simp [Content.without, Option.filter]
        rw [e] at h1
        simp only [clear, hc]
        rw [h1, Option.bind_some, hN n (by omega)]
    | list l =>
      classical
      have hc2 : w2.cons c = some ((Content.list l).without S) := by rw [hd1.kept c hkc, hc]; rfl
      have hlen : ((Content.list l).without S).items.length < s := by
        rw [← hs]
        show (l.filter _).length < l.length
        exact List.length_filter_lt_length_iff_exists.mpr ⟨x, hxm, by simp [hS]⟩
      obtain ⟨S', K', w3, hd', hS', hSd', N', hN'⟩ := ihs _ hlen w2 c _ rfl hi2 hc2
        (by intro z hz; exact hr z ((mem_without S _ z).mp hz).1)
        (by intro y hy; exact hm y ((gone_member hd1.toGone y c).mp hy).1)
      have hdd := del_trans hi hd1 hd' (by simp)
      refine ⟨_, _, w3, ⟨hdd.toGone, hdd.low, hdd.closed, by simpa using hdd.owners, by simp, by simp⟩, ?_, ?_, max N N' + 1, ?_⟩
      · intro z hz
        by_cases hs : S z
        · exact Or.inl hs
        · exact Or.inr (hS' z ((mem_without S _ z).mpr ⟨hz, hs⟩))
      · rintro z (hz | hz)
        · exact ⟨x, hxm, hSw z hz⟩
        · obtain ⟨y, hy, hyz⟩ := hSd' z hz
          exact ⟨y, ((mem_without S _ y).mp hy).1, desc_mono (fun a b h => (gone_owns hd1.toGone a b h).1) hyz⟩
      · intro n hn
        obtain ⟨n, rfl⟩ : ∃ i, n = i + 1 := ⟨n - 1, by omega⟩
        have e : (Content.list l).without (· = x) = .list l.dropLast := by
          have hnd : l.Nodup := hi.nodup c _ hc
          have hl : l = l.dropLast ++ [x] := by
            have hx' : l.getLast? = some x := hx
            have hne : l ≠ [] := hv
            have := List.dropLast_append_getLast hne
            rw [List.getLast?_eq_getLast_of_ne_nil hne] at hx'
            rw [Option.some.inj hx'] at this
            exact this.symm
          rw [hl] at hnd
          have hnx : x ∉ l.dropLast := by
            intro h
            exact (List.nodup_append.mp hnd).2.2 x h x (by simp) rfl
          simp only [Content.without, Content.list.injEq]
          conv_lhs => rw [hl]
          rw [List.filter_append, List.filter_eq_self.mpr]
          · simp
          · intro a ha
            have : a ≠ x := by rintro rfl; exact hnx ha
            simp [this]
        rw [e] at h1
        have hx' : l.getLast? = some x := hx
        simp only [clear, hc, hx']
        rw [h1, Option.bind_some, hN n (by omega), Option.bind_some, hN' n (by omega)]

/-- Deleting an owner that lists nothing. -/
theorem drop_owner {rk : Nat → Nat} {k : Nat} {w w1 : World} {S K : Nat → Prop} {c : Nat} {v : Content} (hc : w.cons c = some v)
    (hd : Del rk k w S K (fun _ => False) w1) (hS : ∀ x ∈ v.items, S x) (hm : ∀ y, Member w y c → k ≤ rk y) :
    Del rk k w S (fun d => K d ∨ d = c) (· = c) (putC w1 c none) where
  alive := hd.alive
  objs := hd.objs
  gone := by
    intro d hk
    show Function.update w1.cons c none d = none
    by_cases e : d = c
    · subst e; rw [Function.update_self]
    · rw [Function.update_of_ne e]; exact hd.gone d (by tauto)
  kept := by
    intro d hk _
    push Not at hk
    show Function.update w1.cons c none d = _
    rw [Function.update_of_ne hk.2]
    exact hd.kept d hk.1
  freed := hd.freed
  low := hd.low
  closed := hd.closed
  owners := by
    intro d
    rw [hd.owners]
    simp
  emptied := by
    rintro d x rfl ⟨u, hu, hx⟩
    rw [hc] at hu
    obtain rfl := Option.some.inj hu
    exact hS x hx
  high := by
    rintro d y rfl hy
    exact hm y hy

theorem destroyAll_ok {rk : Nat → Nat} {k : Nat} (ih : RelOK rk k) (x : Nat) (hx : rk x = k) : ∀ (cs : List Nat) (w : World), Inv rk k w → cs.Nodup →
    (∀ c ∈ cs, Member w x c ∧ (w.cons c).isSome) →
    ∃ S K w', Del rk k w S K (· ∈ cs) w' ∧ (∀ z, S z → ∃ c ∈ cs, ∃ y, Lists w c y ∧ Desc w y z) ∧
      ∃ N, ∀ n ≥ N, destroyAll n w cs = some w' := by
  intro cs
  induction cs with
  | nil =>
    intro w hi _ _
    refine ⟨fun _ => False, fun _ => False, w, ⟨gone_refl w, by simp, by simp [Closed], by simp, by simp, by simp⟩, by simp, 1, ?_⟩
    intro n hn
    obtain ⟨n, rfl⟩ : ∃ i, n = i + 1 := ⟨n - 1, by omega⟩
    rfl
  | cons c cs ihc =>
    intro w hi hnd hcs
    obtain ⟨hm, hs⟩ := hcs c (by simp)
    obtain ⟨v, hv⟩ := Option.isSome_iff_exists.mp hs
    have hr : ∀ z ∈ v.items, rk z < k := by
      intro z hz
      have := hi.rank x z ⟨c, hm, v, hv, hz⟩
      omega
    have hmm : ∀ y, Member w y c → k ≤ rk y := by
      intro y hy
      have := hi.uniq y x c hy hm
      subst this
      omega
    obtain ⟨S, K, w1, hd, hS, hSd, N, hN⟩ := clear_ok ih _ w c v rfl hi hv hr hmm
    have hd1 := drop_owner hv hd hS hmm
    have hi1 : Inv rk k (putC w1 c none) := del_inv hi hd1 hd1.high
    have hnS : ¬ S x := by intro h; have := hd.low x h; omega
    obtain ⟨S', K', w2, hd2, hSd2, N', hN'⟩ := ihc (putC w1 c none) hi1 (List.nodup_cons.mp hnd).2 (by
      intro d hdm
      obtain ⟨hm', hs'⟩ := hcs d (by simp [hdm])
      have hne : d ≠ c := by rintro rfl; exact (List.nodup_cons.mp hnd).1 hdm
      refine ⟨(gone_member hd1.toGone x d).mpr ⟨hm', hnS⟩, ?_⟩
      classical
      have hk : ¬ (K d ∨ d = c) := by
        rintro (h | h)
        · rcases (hd.owners d).mp h with ⟨y, hy, hyd⟩ | h
          · exact hnS (hi.uniq y x d hyd hm' ▸ hy)
          · exact h
        · exact hne h
      rw [hd1.kept d hk]
      simpa using hs')
    have hdd := del_trans hi hd1 hd2 (by
      intro d y hdm hy
      have := hi.uniq y x d hy (hcs d (by simp [hdm])).1
      subst this
      omega)
    refine ⟨_, _, w2, ⟨hdd.toGone, hdd.low, hdd.closed, ?_, ?_, ?_⟩, ?_, max N N' + 1, ?_⟩
    · intro d; rw [hdd.owners, List.mem_cons]
    · intro d z hdm hl; exact hdd.emptied d z (List.mem_cons.mp hdm) hl
    · intro d y hdm hl; exact hdd.high d y (List.mem_cons.mp hdm) hl
    · rintro z (hz | hz)
      · obtain ⟨y, hy, hyz⟩ := hSd z hz
        exact ⟨c, by simp, y, ⟨v, hv, hy⟩, hyz⟩
      · obtain ⟨d, hdm, y, hy, hyz⟩ := hSd2 z hz
        exact ⟨d, by simp [hdm], y, ((gone_lists hd1.toGone d y).mp hy).1, desc_mono (fun a b h => (gone_owns hd1.toGone a b h).1) hyz⟩
    · intro n hn
      obtain ⟨n, rfl⟩ : ∃ i, n = i + 1 := ⟨n - 1, by omega⟩
      simp only [destroyAll]
      rw [hN n (by omega), Option.bind_some, hN' n (by omega)]

theorem release_ok (rk : Nat → Nat) : ∀ k, RelOK rk k := by
  intro k
  induction k with
  | zero => intro w x h; omega
  | succ k ihk =>
    intro w x hxk hi hs
    by_cases hlt : rk x < k
    · exact ihk w x hlt (inv_mono hi (by omega)) hs
    have hx : rk x = k := by omega
    obtain ⟨o, ho⟩ := Option.isSome_iff_exists.mp hs
    obtain ⟨w1, h1, h2⟩ := detach_unlinked hi ho
    have hi1 := unlinked_inv hi h2
    obtain ⟨o', ho', ho1⟩ := h2.self
    rw [ho] at ho'
    obtain rfl := Option.some.inj ho'
    have hM : ∀ c, Member w1 x c ↔ c ∈ o.members := by intro c; simp [Member, ho1]
    obtain ⟨S, K, w2, hd, hSd, N, hN⟩ := destroyAll_ok ihk x hx o.members.reverse w1 (inv_mono hi1 (by omega))
      (List.pairwise_reverse.mpr ((hi.mnodup x o ho).imp Ne.symm)) (by
        intro c hc
        rw [List.mem_reverse] at hc
        exact ⟨(hM c).mpr hc, hi1.home x c (by omega) ((hM c).mpr hc)⟩)
    have hnS : ¬ S x := by intro h; have := hd.low x h; omega
    have hnl : ∀ c, ¬ Lists w1 c x := by
      intro c hl
      exact ((unlinked_lists h2 c x).mp hl).2 rfl
    classical
    have hdx : Del rk (k + 1) w1 (fun z => S z ∨ z = x) K (fun _ => False) (free w2 x) := {
      alive := by
        rintro z (hz | rfl)
        · exact hd.alive z hz
        · simp [ho1]
      objs := by
        intro z
        simp only [free]
        by_cases e : z = x
        · subst e; simp
        · rw [Function.update_of_ne e]
          simpa [e] using hd.objs z
      gone := hd.gone
      kept := by
        intro c hk _
        show w2.cons c = _
        rw [hd.kept c hk]
        cases hc : w1.cons c with
        | none => rfl
        | some v =>
          rw [Option.map_some, Option.map_some, ← without_without S (· = x), without_id (· = x)]
          rintro z hz rfl
          exact hnl c ⟨v, hc, ((mem_without S v z).mp hz).1⟩
      freed := by
        obtain ⟨l, e1, e2, e3⟩ := hd.freed
        refine ⟨l ++ [x], by rw [← List.append_assoc, ← e1]; rfl, ?_, by intro z; rw [List.mem_append, e3]; simp⟩
        rw [List.nodup_append]
        refine ⟨e2, by simp, ?_⟩
        intro a ha b hb e
        simp only [List.mem_singleton] at hb
        subst e; subst hb
        exact hnS ((e3 a).mp ha)
      low := by
        rintro z (hz | rfl)
        · have := hd.low z hz; omega
        · omega
      closed := by
        rintro y z (hy | rfl) hz
        · exact Or.inl (hd.closed y z hy hz)
        · obtain ⟨c, hm, hl⟩ := hz
          exact Or.inl (hd.emptied c z (List.mem_reverse.mpr ((hM c).mp hm)) hl)
      owners := by
        intro c
        rw [hd.owners, List.mem_reverse, ← hM]
        constructor
        · rintro (⟨y, hy, hm⟩ | hm)
          · exact Or.inl ⟨y, Or.inl hy, hm⟩
          · exact Or.inl ⟨x, Or.inr rfl, hm⟩
        · rintro (⟨y, hy | rfl, hm⟩ | hm)
          · exact Or.inl ⟨y, hy, hm⟩
          · exact Or.inr hm
          · exact hm.elim
      emptied := by simp
      high := by simp }
    rw [← hx] at hdx
    refine ⟨_, K, free w2 x, unlinked_del h2 hdx (Or.inr rfl), Or.inr rfl, ?_, N + 1, ?_⟩
    · rintro z (hz | rfl)
      · obtain ⟨c, hc, y, hy, hyz⟩ := hSd z hz
        have hsub : ∀ a b, Owns w1 a b → Owns w a b := fun a b h => ((unlinked_owns h2 a b).mp h).1
        refine Relation.ReflTransGen.head (hsub x y ⟨c, (hM c).mpr (List.mem_reverse.mp hc), hy⟩) (desc_mono hsub hyz)
      · exact Relation.ReflTransGen.refl
    · intro n hn
      obtain ⟨n, rfl⟩ : ∃ i, n = i + 1 := ⟨n - 1, by omega⟩
      simp only [release]
      rw [ho, Option.bind_some, h1, Option.bind_some, hN n (by omega), Option.bind_some]

end Verif.FOwn
