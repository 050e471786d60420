import Verif.SceneSpec
import Mathlib.Tactic.Common

/-! # Lemmas about the scene graph model -/

namespace Verif.FScene

/-- The invariant; `D` are the nodes that are being destroyed. -/
structure Inv (rk : Nat → Nat) (D : Nat → Prop) (w : World) : Prop where
  mirror : ∀ x y, ¬ D x → (Child w x y ↔ Parent w x y)
  dying : ∀ x y, D x → ¬ Parent w x y ∧ ¬ Child w y x
  nodup : ∀ x a, w.nodes x = some a → a.parents.Nodup ∧ a.children.Nodup
  rank : ∀ x y, Child w x y → rk y < rk x
  alive : ∀ x y, Child w x y → (w.nodes y).isSome
  fnodup : w.freed.Nodup
  gone : ∀ z ∈ w.freed, w.nodes z = none

theorem gone_refl (w : World) : Gone w (fun _ => False) w where
  alive := by simp
  dead := by simp
  kept := by
    intro z _ _
    cases h : w.nodes z with
    | none => rfl
    | some v => simp
  freed := ⟨[], by simp⟩

open Classical in
theorem gone_trans {w w1 w2 : World} {S S' : Nat → Prop} (h : Gone w S w1) (h' : Gone w1 S' w2) : Gone w (fun z => S z ∨ S' z) w2 where
  alive := by
    rintro z (hz | hz)
    · exact h.alive z hz
    · by_cases hs : S z
      · exact h.alive z hs
      · have := h'.alive z hz
        rw [h.kept z hs] at this
        simpa using this
  dead := by
    intro z hz
    by_cases hs' : S' z
    · exact h'.dead z hs'
    · rw [h'.kept z hs', h.dead z (by tauto)]; rfl
  kept := by
    intro z hz hd
    push Not at hz
    rw [h'.kept z hz.2, h.kept z hz.1, Option.map_map]
    congr 1
    funext v
    have : ∀ l : List Nat, (l.filter (fun y => ¬ S y)).filter (fun y => ¬ S' y) = l.filter (fun y => ¬ (S y ∨ S' y)) := by
      intro l
      rw [List.filter_filter]
      congr 1
      funext y
      by_cases h1 : S y <;> by_cases h2 : S' y <;> simp [h1, h2]
    show Node.mk ((v.parents.filter _).filter _) ((v.children.filter _).filter _) = _
    rw [this, this]
  freed := by
    obtain ⟨l, h1, h2, h3⟩ := h.freed
    obtain ⟨l', h1', h2', h3'⟩ := h'.freed
    refine ⟨l ++ l', by rw [h1', h1, List.append_assoc], ?_, by intro z; rw [List.mem_append, h3, h3']⟩
    rw [List.nodup_append]
    refine ⟨h2, h2', ?_⟩
    intro a ha b hb e
    subst e
    have := h'.alive a ((h3' a).mp hb)
    rw [h.dead a ((h3 a).mp ha)] at this
    simp at this

open Classical in
theorem gone_child {w w' : World} {S : Nat → Prop} (h : Gone w S w') (x y : Nat) : Child w' x y ↔ Child w x y ∧ ¬ S x ∧ ¬ S y := by
  by_cases hs : S x
  · simp [Child, h.dead x hs, hs]
  · simp only [Child, h.kept x hs, hs]
    cases hx : w.nodes x with
    | none => simp
    | some v => simp

open Classical in
theorem gone_parent {w w' : World} {S : Nat → Prop} (h : Gone w S w') (x y : Nat) : Parent w' x y ↔ Parent w x y ∧ ¬ S x ∧ ¬ S y := by
  by_cases hs : S y
  · simp [Parent, h.dead y hs, hs]
  · simp only [Parent, h.kept y hs, hs]
    cases hx : w.nodes y with
    | none => simp
    | some v => simp

open Classical in
theorem gone_inv {rk : Nat → Nat} {D : Nat → Prop} {w w' : World} {S : Nat → Prop} (hi : Inv rk D w) (h : Gone w S w') : Inv rk D w' where
  mirror := by
    intro x y hx
    rw [gone_child h, gone_parent h, hi.mirror x y hx]
  dying := by
    intro x y hx
    rw [gone_child h, gone_parent h]
    have := hi.dying x y hx
    tauto
  nodup := by
    intro x a ha
    by_cases hs : S x
    · rw [h.dead x hs] at ha; exact absurd ha (by simp)
    · rw [h.kept x hs] at ha
      obtain ⟨v, hv, rfl⟩ := Option.map_eq_some_iff.mp ha
      have := hi.nodup x v hv
      exact ⟨this.1.filter _, this.2.filter _⟩
  rank := by
    intro x y hc
    exact hi.rank x y ((gone_child h x y).mp hc).1
  alive := by
    intro x y hc
    rw [gone_child h] at hc
    rw [h.kept y hc.2.2]
    simpa using hi.alive x y hc.1
  fnodup := by
    obtain ⟨l, h1, h2, h3⟩ := h.freed
    rw [h1, List.nodup_append]
    refine ⟨hi.fnodup, h2, ?_⟩
    intro a ha b hb e
    subst e
    have := h.alive a ((h3 a).mp hb)
    rw [hi.gone a ha] at this
    simp at this
  gone := by
    intro z hz
    obtain ⟨l, h1, h2, h3⟩ := h.freed
    rw [h1, List.mem_append] at hz
    by_cases hs : S z
    · exact h.dead z hs
    · rw [h.kept z hs]
      rcases hz with hz | hz
      · rw [hi.gone z hz]; rfl
      · exact absurd ((h3 z).mp hz) hs

/-- A set of nodes closed under children. -/
def Closed (w : World) (S : Nat → Prop) : Prop := ∀ x y, S x → Child w x y → S y

theorem closed_trans {w w1 w2 : World} {S S' : Nat → Prop} (h : Gone w S w1) (_h' : Gone w1 S' w2) (hc : Closed w S) (hc' : Closed w1 S') :
    Closed w (fun z => S z ∨ S' z) := by
  intro x y hx hxy
  by_cases hs : S x
  · exact Or.inl (hc x y hs hxy)
  · by_cases hy : S y
    · exact Or.inl hy
    · exact Or.inr (hc' x y (by tauto) ((gone_child h x y).mpr ⟨hxy, hs, hy⟩))

theorem desc_mono {w w1 : World} (h : ∀ y z, Child w1 y z → Child w y z) {x z : Nat} (hd : Desc w1 x z) : Desc w x z :=
  Relation.ReflTransGen.mono h _ _ hd

theorem desc_rank {rk : Nat → Nat} {D : Nat → Prop} {w : World} (hi : Inv rk D w) {x z : Nat} (hd : Desc w x z) : rk z ≤ rk x := by
  induction hd with
  | refl => exact Nat.le_refl _
  | tail _ h ih => have := hi.rank _ _ h; omega

/-- The world after the notification and after line 61. -/
def marked (w : World) (x : Nat) (a : Node) : World := put (notify w x) x { a with parents := [] }

theorem marked_child {w : World} {x : Nat} {a : Node} (ha : (notify w x).nodes x = some a) (y z : Nat) :
    Child (marked w x a) y z ↔ Child w y z ∧ z ≠ x := by
  by_cases e : y = x
  · subst e
    obtain ⟨v, hv, rfl⟩ := Option.map_eq_some_iff.mp ha
    simp [Child, marked, put, hv]
  · simp only [Child, marked, put]
    rw [Function.update_of_ne e]
    simp only [notify]
    cases hy : w.nodes y with
    | none => simp
    | some v => simp

theorem marked_parent {w : World} {x : Nat} {a : Node} (y z : Nat) :
    Parent (marked w x a) y z ↔ Parent w y z ∧ y ≠ x ∧ z ≠ x := by
  by_cases e : z = x
  · subst e
    simp [Parent, marked, put]
  · simp only [Parent, marked, put]
    rw [Function.update_of_ne e]
    simp only [notify]
    cases hy : w.nodes z with
    | none => simp
    | some v => simp [e]

theorem marked_alive {w : World} {x : Nat} {a : Node} (ha : (notify w x).nodes x = some a) (y : Nat) :
    ((marked w x a).nodes y).isSome = (w.nodes y).isSome := by
  by_cases e : y = x
  · subst e
    obtain ⟨v, hv, rfl⟩ := Option.map_eq_some_iff.mp ha
    simp [marked, put, hv]
  · simp only [marked, put]
    rw [Function.update_of_ne e]
    simp [notify]

theorem marked_inv {rk : Nat → Nat} {D : Nat → Prop} {w : World} {x : Nat} {a : Node} (hi : Inv rk D w) (ha : (notify w x).nodes x = some a) :
    Inv rk (fun z => D z ∨ z = x) (marked w x a) where
  mirror := by
    intro y z hy
    push Not at hy
    rw [marked_child ha, marked_parent, hi.mirror y z hy.1]
    tauto
  dying := by
    intro y z hy
    rw [marked_child ha, marked_parent]
    rcases hy with hy | rfl
    · have := hi.dying y z hy; tauto
    · tauto
  nodup := by
    intro y b hb
    by_cases e : y = x
    · subst e
      obtain ⟨v, hv, rfl⟩ := Option.map_eq_some_iff.mp ha
      simp only [marked, put, Function.update_self, Option.some.injEq] at hb
      subst hb
      exact ⟨by simp, (hi.nodup y v hv).2.filter _⟩
    · simp only [marked, put] at hb
      rw [Function.update_of_ne e] at hb
      obtain ⟨v, hv, rfl⟩ := Option.map_eq_some_iff.mp hb
      have := hi.nodup y v hv
      exact ⟨this.1.filter _, this.2.filter _⟩
  rank := by
    intro y z hc
    exact hi.rank y z ((marked_child ha y z).mp hc).1
  alive := by
    intro y z hc
    rw [marked_alive ha]
    exact hi.alive y z ((marked_child ha y z).mp hc).1
  fnodup := hi.fnodup
  gone := by
    intro z hz
    have h1 := hi.gone z hz
    have h2 := marked_alive ha z
    rw [h1] at h2
    simpa using h2

/-- The outcome of the release of a node. -/
def RelOK (rk : Nat → Nat) (k : Nat) : Prop :=
  ∀ (D : Nat → Prop) (w : World) (x : Nat), rk x < k → ¬ D x → Inv rk D w → (w.nodes x).isSome →
    ∃ S w', Gone w S w' ∧ Closed w S ∧ S x ∧ (∀ z, S z → Desc w x z) ∧ ∃ N, ∀ n ≥ N, release n w x = some w'

theorem releaseChildren_ok {rk : Nat → Nat} {k : Nat} (ih : RelOK rk k) (D : Nat → Prop) (x : Nat) (hk : rk x = k) (hD : D x) :
    ∀ (s : Nat) (w : World) (a : Node), a.children.length = s → w.nodes x = some a → Inv rk D w →
    ∃ S w', Gone w S w' ∧ Closed w S ∧ (∀ y ∈ a.children, S y) ∧ (∀ z, S z → ∃ y ∈ a.children, Desc w y z) ∧
      ∃ N, ∀ n ≥ N, releaseChildren n w x = some w' := by
  intro s
  induction s using Nat.strongRecOn with
  | ind s ihs =>
  intro w a hs ha hi
  cases hc : a.children with
  | nil =>
    refine ⟨fun _ => False, w, gone_refl w, by simp [Closed], by simp, by simp, 1, ?_⟩
    intro n hn
    obtain ⟨n, rfl⟩ : ∃ i, n = i + 1 := ⟨n - 1, by omega⟩
    simp [releaseChildren, ha, hc]
  | cons y ys =>
    have hxy : Child w x y := ⟨a, ha, by simp [hc]⟩
    obtain ⟨b, hb⟩ := Option.isSome_iff_exists.mp (hi.alive x y hxy)
    have hnp : x ∉ b.parents := fun h => (hi.dying x y hD).1 ⟨b, hb, h⟩
    have hw : put w y { b with parents := b.parents.erase x } = w := by
      rw [List.erase_of_not_mem hnp]
      simp only [put]
      rw [← hb, Function.update_eq_self]
    have hry := hi.rank x y hxy
    obtain ⟨S, w1, h1, h2, h3, h4, N, hN⟩ := ih D w y (by omega) (fun h => (hi.dying y x h).2 hxy) hi (by simp [hb])
    have hnx : ¬ S x := by
      intro h
      have := desc_rank hi (h4 x h)
      omega
    classical
    have ha1 := h1.kept x hnx
    rw [ha, Option.map_some] at ha1
    obtain ⟨S', w2, g1, g2, g3, g4, N', hN'⟩ := ihs (a.children.filter (fun y => ¬ S y)).length (by
      rw [← hs]
      exact List.length_filter_lt_length_iff_exists.mpr ⟨y, by simp [hc], by simp [h3]⟩) w1 _ rfl ha1 (gone_inv hi h1)
    refine ⟨_, w2, gone_trans h1 g1, closed_trans h1 g1 h2 g2, ?_, ?_, max N N' + 1, ?_⟩
    · intro z hz
      by_cases hs : S z
      · exact Or.inl hs
      · refine Or.inr (g3 z ?_)
        rw [hc]
        simp only [List.mem_filter]
        exact ⟨hz, by simp [hs]⟩
    · rintro z (hz | hz)
      · exact ⟨y, by simp, h4 z hz⟩
      · obtain ⟨t, ht, htz⟩ := g4 z hz
        refine ⟨t, ?_, desc_mono (fun p q h => ((gone_child h1 p q).mp h).1) htz⟩
        rw [← hc]
        exact (List.mem_filter.mp ht).1
    · intro n hn
      obtain ⟨n, rfl⟩ : ∃ i, n = i + 1 := ⟨n - 1, by omega⟩
      simp only [releaseChildren]
      rw [ha, Option.bind_some, hc]
      show (w.nodes y).bind _ = _
      rw [hb, Option.bind_some, hw, hN n (by omega), Option.bind_some, hN' n (by omega)]

theorem release_ok (rk : Nat → Nat) : ∀ k, RelOK rk k := by
  intro k
  induction k with
  | zero => intro D w x h; omega
  | succ k ihk =>
    intro D w x hxk hD hi hs
    by_cases hlt : rk x < k
    · exact ihk D w x hlt hD hi hs
    have hx : rk x = k := by omega
    obtain ⟨v, hv⟩ := Option.isSome_iff_exists.mp hs
    obtain ⟨a, ha⟩ : ∃ a, (notify w x).nodes x = some a := ⟨_, by simp [notify, hv]; rfl⟩
    have hi1 := marked_inv hi ha
    have hx1 : (marked w x a).nodes x = some { a with parents := [] } := by simp [marked, put]
    obtain ⟨S, w2, h1, h2, h3, h4, N, hN⟩ := releaseChildren_ok ihk (fun z => D z ∨ z = x) x hx (Or.inr rfl) _ (marked w x a) _ rfl hx1 hi1
    have hsub : ∀ p q, Child (marked w x a) p q → Child w p q := fun p q h => ((marked_child ha p q).mp h).1
    have hself : ¬ Child w x x := fun h => by have := hi.rank x x h; omega
    have hd4 : ∀ z, S z → ∃ y, Child w x y ∧ Desc w y z := by
      intro z hz
      obtain ⟨y, hy, hyz⟩ := h4 z hz
      exact ⟨y, hsub x y ⟨_, hx1, hy⟩, desc_mono hsub hyz⟩
    have hnx : ¬ S x := by
      intro h
      obtain ⟨y, hy, hyx⟩ := hd4 x h
      have := hi.rank x y hy
      have := desc_rank hi hyx
      omega
    classical
    refine ⟨fun z => S z ∨ z = x, { nodes := Function.update w2.nodes x none, freed := w2.freed ++ [x] }, ⟨?_, ?_, ?_, ?_⟩, ?_, Or.inr rfl, ?_, N + 1, ?_⟩
    · rintro z (hz | rfl)
      · rw [← marked_alive ha z]; exact h1.alive z hz
      · exact hs
    · rintro z (hz | rfl)
      · have : z ≠ x := by rintro rfl; exact hnx hz
        show Function.update w2.nodes x none z = none
        rw [Function.update_of_ne this]
        exact h1.dead z hz
      · simp
    · intro z hz _
      push Not at hz
      show Function.update w2.nodes x none z = _
      rw [Function.update_of_ne hz.2, h1.kept z hz.1]
      have : (marked w x a).nodes z = (w.nodes z).map fun v => ⟨v.parents.filter (· ≠ x), v.children.filter (· ≠ x)⟩ := by
        simp only [marked, put]
        rw [Function.update_of_ne hz.2]
        rfl
      rw [this, Option.map_map]
      congr 1
      funext u
      have : ∀ l : List Nat, (l.filter (· ≠ x)).filter (fun y => ¬ S y) = l.filter (fun y => ¬ (S y ∨ y = x)) := by
        intro l
        rw [List.filter_filter]
        congr 1
        funext y
        by_cases h1 : S y <;> by_cases h2 : y = x <;> simp [h1, h2]
      show Node.mk ((u.parents.filter _).filter _) ((u.children.filter _).filter _) = _
      rw [this, this]
    · obtain ⟨l, e1, e2, e3⟩ := h1.freed
      refine ⟨l ++ [x], ?_, ?_, by intro z; rw [List.mem_append, e3]; simp⟩
      · show w2.freed ++ [x] = _
        rw [e1, List.append_assoc]
        rfl
      · rw [List.nodup_append]
        refine ⟨e2, by simp, ?_⟩
        intro p hp q hq e
        simp only [List.mem_singleton] at hq
        subst e; subst hq
        exact hnx ((e3 p).mp hp)
    · rintro y z (hy | rfl) hyz
      · by_cases e : z = x
        · exact Or.inr e
        · exact Or.inl (h2 y z hy ((marked_child ha y z).mpr ⟨hyz, e⟩))
      · have e : z ≠ y := by rintro rfl; exact hself hyz
        obtain ⟨u, hu, hz⟩ := (marked_child ha y z).mpr ⟨hyz, e⟩
        rw [hx1] at hu
        obtain rfl := Option.some.inj hu
        exact Or.inl (h3 z hz)
    · rintro z (hz | rfl)
      · obtain ⟨y, hy, hyz⟩ := hd4 z hz
        exact Relation.ReflTransGen.head hy hyz
      · exact Relation.ReflTransGen.refl
    · intro n hn
      obtain ⟨n, rfl⟩ : ∃ i, n = i + 1 := ⟨n - 1, by omega⟩
      simp only [release]
      rw [ha, Option.bind_some]
      have := hN n (by omega)
      simp only [marked] at this
      rw [this, Option.bind_some]

end Verif.FScene
