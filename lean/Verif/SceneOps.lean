import Verif.SceneLemmas
import Mathlib.Data.List.Induction

/-! # Lemmas about the operations of the scene graph model -/

namespace Verif.FScene

/-- A well formed scene graph. -/
def Good (w : World) : Prop := ∃ rk, Inv rk (fun _ => False) w ∧ ∃ L : List Nat, ∀ p, (w.nodes p).isSome → p ∈ L

theorem steps_unique {w w1 w2 : World} {op : Op} (h1 : Steps w op w1) (h2 : Steps w op w2) : w1 = w2 := by
  obtain ⟨N, h1⟩ := h1
  obtain ⟨M, h2⟩ := h2
  have := h1 (max N M) (by omega)
  rw [h2 (max N M) (by omega)] at this
  exact (Option.some.inj this).symm

theorem start_good : Good ⟨fun _ => none, []⟩ :=
  ⟨fun _ => 0, ⟨by simp [Child, Parent], by simp, by simp, by simp [Child], by simp [Child], by simp, by simp⟩, [], by simp⟩

theorem good_mirror {w : World} (hg : Good w) (x y : Nat) : Child w x y ↔ Parent w x y := by
  obtain ⟨rk, hi, _⟩ := hg
  exact hi.mirror x y (by simp)

/-- The search ends, and finds exactly the nodes of the queue and their ancestors. -/
theorem search_list {w : World} (y : Nat) (P : Nat → Prop)
    (hP : ∀ p, P p → (w.nodes p).isSome ∧ ∃ c, ∀ n q, search w y (c + n) (q ++ [p]) =
      (open Classical in if Desc w y p then some true else search w y n q)) :
    ∀ l : List Nat, (∀ p ∈ l, P p) → ∃ c, ∀ n q, search w y (c + n) (q ++ l) =
      (open Classical in if ∃ p ∈ l, Desc w y p then some true else search w y n q) := by
  intro l
  induction l using List.reverseRecOn with
  | nil => intro _; exact ⟨0, by simp⟩
  | append_singleton l p ih =>
    intro h
    obtain ⟨c, hc⟩ := ih (fun z hz => h z (by simp [hz]))
    obtain ⟨_, c', hc'⟩ := hP p (h p (by simp))
    refine ⟨c' + c, ?_⟩
    intro n q
    rw [← List.append_assoc, Nat.add_assoc, hc', hc]
    by_cases h1 : Desc w y p
    · rw [if_pos h1, if_pos ⟨p, by simp, h1⟩]
    · rw [if_neg h1]
      by_cases h2 : ∃ z ∈ l, Desc w y z
      · obtain ⟨z, hz, hd⟩ := h2
        rw [if_pos ⟨z, hz, hd⟩, if_pos ⟨z, by simp [hz], hd⟩]
      · rw [if_neg h2, if_neg]
        rintro ⟨z, hz, hd⟩
        rcases List.mem_append.mp hz with hz | hz
        · exact h2 ⟨z, hz, hd⟩
        · simp only [List.mem_singleton] at hz
          exact h1 (hz ▸ hd)

/-- The nodes have a bounded height. -/
theorem height_bound {w : World} {rk : Nat → Nat} (hi : Inv rk (fun _ => False) w) (y : Nat) (B : Nat)
    (hB : ∀ p, (w.nodes p).isSome → rk p ≤ B) : ∀ (k : Nat) (p : Nat), (w.nodes p).isSome → B - rk p ≤ k →
    ∃ c, ∀ n q, search w y (c + n) (q ++ [p]) = (open Classical in if Desc w y p then some true else search w y n q) := by
  classical
  intro k
  induction k with
  | zero =>
    intro p hp hk
    -- no parents
    obtain ⟨a, ha⟩ := Option.isSome_iff_exists.mp hp
    have hnp : a.parents = [] := by
      by_contra hne
      obtain ⟨z, hz⟩ := List.exists_mem_of_ne_nil _ hne
      have hc := (hi.mirror z p (by simp)).mpr ⟨a, ha, hz⟩
      have := hi.rank z p hc
      obtain ⟨b, hb, _⟩ := hc
      have := hB z (by simp [hb])
      omega
    refine ⟨1, ?_⟩
    intro n q
    rw [Nat.add_comm 1 n]
    simp only [search, List.getLast?_append, List.getLast?_singleton, Option.some_or]
    by_cases e : p = y
    · rw [if_pos e, if_pos (e ▸ Relation.ReflTransGen.refl)]
    · rw [if_neg e, ha, Option.bind_some, hnp, if_neg]
      · simp
      · intro hd
        rcases Relation.ReflTransGen.cases_tail hd with h | ⟨z, _, hz⟩
        · exact e h
        · obtain ⟨b, hb, hm⟩ := (hi.mirror z p (by simp)).mp hz
          rw [ha] at hb
          obtain rfl := Option.some.inj hb
          rw [hnp] at hm
          simp at hm
  | succ k ih =>
    intro p hp hk
    obtain ⟨a, ha⟩ := Option.isSome_iff_exists.mp hp
    have hm : ∀ z ∈ a.parents, Child w z p := fun z hz => (hi.mirror z p (by simp)).mpr ⟨a, ha, hz⟩
    obtain ⟨c, hc⟩ := search_list y (fun z => Child w z p) (by
      intro z hz
      have h1 := hi.rank z p hz
      have h2 : (w.nodes z).isSome := by obtain ⟨b, hb, _⟩ := hz; simp [hb]
      have h3 := hB z h2
      exact ⟨h2, ih z h2 (by omega)⟩) a.parents hm
    refine ⟨c + 1, ?_⟩
    intro n q
    rw [show c + 1 + n = (c + n) + 1 by omega]
    simp only [search, List.getLast?_append, List.getLast?_singleton, Option.some_or]
    by_cases e : p = y
    · rw [if_pos e, if_pos (e ▸ Relation.ReflTransGen.refl)]
    · rw [if_neg e, ha, Option.bind_some, List.dropLast_concat, hc]
      have hiff : (∃ z ∈ a.parents, Desc w y z) ↔ Desc w y p := by
        constructor
        · rintro ⟨z, hz, hd⟩
          exact hd.tail (hm z hz)
        · intro hd
          rcases Relation.ReflTransGen.cases_tail hd with h | ⟨z, hd', hz⟩
          · exact absurd h e
          · obtain ⟨b, hb, hm⟩ := (hi.mirror z p (by simp)).mp hz
            rw [ha] at hb
            obtain rfl := Option.some.inj hb
            exact ⟨z, hm, hd'⟩
      simp only [hiff]

theorem exists_bound (rk : Nat → Nat) (l : List Nat) : ∃ k, ∀ x ∈ l, rk x ≤ k := by
  induction l with
  | nil => exact ⟨0, by simp⟩
  | cons a l ih =>
    obtain ⟨k, hk⟩ := ih
    refine ⟨max k (rk a), ?_⟩
    intro x hx
    rcases List.mem_cons.mp hx with rfl | hx
    · omega
    · have := hk x hx; omega

theorem ancestor_iff {w : World} {rk : Nat → Nat} (hi : Inv rk (fun _ => False) w) {x : Nat} {a : Node} (ha : w.nodes x = some a) (y : Nat) :
    (∃ p ∈ a.parents, Desc w y p) ↔ Ancestor w y x := by
  constructor
  · rintro ⟨p, hp, hd⟩
    exact Relation.TransGen.tail' hd ((hi.mirror p x (by simp)).mpr ⟨a, ha, hp⟩)
  · intro h
    obtain ⟨p, hd, hp⟩ := Relation.TransGen.tail'_iff.mp h
    obtain ⟨b, hb, hm⟩ := (hi.mirror p x (by simp)).mp hp
    rw [ha] at hb
    obtain rfl := Option.some.inj hb
    exact ⟨p, hm, hd⟩

theorem search_ok {w : World} (hg : Good w) {x : Nat} {a : Node} (ha : w.nodes x = some a) (y : Nat) :
    ∃ N, ∀ n ≥ N, search w y n a.parents = some (open Classical in decide (Ancestor w y x)) := by
  classical
  obtain ⟨rk, hi, L, hL⟩ := hg
  obtain ⟨B, hB⟩ := exists_bound rk L
  obtain ⟨c, hc⟩ := search_list y (fun z => (w.nodes z).isSome)
    (fun p hp => ⟨hp, height_bound hi y B (fun p hp => hB p (hL p hp)) (B - rk p) p hp (Nat.le_refl _)⟩) a.parents (by
      intro p hp
      obtain ⟨b, hb, _⟩ := (hi.mirror p x (by simp)).mpr ⟨a, ha, hp⟩
      simp [hb])
  refine ⟨c + 1, ?_⟩
  intro n hn
  obtain ⟨m, rfl⟩ : ∃ m, n = c + (m + 1) := ⟨n - c - 1, by omega⟩
  have := hc (m + 1) []
  rw [List.nil_append] at this
  rw [this]
  simp only [ancestor_iff hi ha]
  by_cases h : Ancestor w y x
  · simp [h]
  · simp [h, search]

/-- `w'` is `w` with `y` as the new last child of `x`, and `x` as the new last parent of `y`. -/
structure Linked (w : World) (x y : Nat) (w' : World) : Prop where
  at_x : ∃ a, w.nodes x = some a ∧ w'.nodes x = some { a with children := a.children ++ [y] }
  at_y : ∃ b, w.nodes y = some b ∧ w'.nodes y = some { b with parents := b.parents ++ [x] }
  others : ∀ z, z ≠ x → z ≠ y → w'.nodes z = w.nodes z
  freed : w'.freed = w.freed

theorem link_ok {w : World} {x y : Nat} {a b : Node} (hxy : x ≠ y) (ha : w.nodes x = some a) (hb : w.nodes y = some b) :
    ∃ w', link w x y = some w' ∧ Linked w x y w' := by
  have hb' : (put w x { a with children := a.children ++ [y] }).nodes y = some b := by
    simp only [put]
    rw [Function.update_of_ne hxy.symm, hb]
  refine ⟨put (put w x { a with children := a.children ++ [y] }) y { b with parents := b.parents ++ [x] },
    by simp only [link]; rw [ha, Option.bind_some, hb', Option.bind_some], ⟨a, ha, ?_⟩, ⟨b, hb, ?_⟩, ?_, rfl⟩
  · simp [put, hxy]
  · simp [put]
  · intro z h1 h2
    simp [put, h1, h2]

theorem linked_good {w w' : World} {x y : Nat} (hg : Good w) (h : Linked w x y w') (hxy : x ≠ y) (hn : ¬ Child w x y) (hd : ¬ Desc w y x) : Good w' := by
  classical
  obtain ⟨rk, hi, L, hL⟩ := hg
  obtain ⟨a, ha, ha'⟩ := h.at_x
  obtain ⟨b, hb, hb'⟩ := h.at_y
  have hC : ∀ p q, Child w' p q ↔ Child w p q ∨ (p = x ∧ q = y) := by
    intro p q
    by_cases e1 : p = x
    · subst e1; simp [Child, ha, ha']
    · by_cases e2 : p = y
      · subst e2; simp [Child, hb, hb', e1]
      · simp [Child, h.others p e1 e2, e1]
  have hP : ∀ p q, Parent w' p q ↔ Parent w p q ∨ (p = x ∧ q = y) := by
    intro p q
    by_cases e1 : q = y
    · subst e1; simp [Parent, hb, hb']
    · by_cases e2 : q = x
      · subst e2; simp [Parent, ha, ha', e1]
      · simp [Parent, h.others q e2 e1, e1]
  have hA : ∀ z, (w'.nodes z).isSome = (w.nodes z).isSome := by
    intro z
    by_cases e1 : z = x
    · subst e1; simp [ha, ha']
    · by_cases e2 : z = y
      · subst e2; simp [hb, hb']
      · rw [h.others z e1 e2]
  have hnp : x ∉ b.parents := fun hm => hn ((hi.mirror x y (by simp)).mpr ⟨b, hb, hm⟩)
  have hnc : y ∉ a.children := fun hm => hn ⟨a, ha, hm⟩
  refine ⟨fun z => rk z + (if Desc w z x then rk y + 1 else 0), ⟨?_, by simp, ?_, ?_, ?_, ?_, ?_⟩, L, ?_⟩
  · intro p q _
    rw [hC, hP, hi.mirror p q (by simp)]
  · intro z c hc
    by_cases e1 : z = x
    · subst e1
      rw [ha'] at hc
      obtain rfl := Option.some.inj hc
      obtain ⟨h1, h2⟩ := hi.nodup z a ha
      refine ⟨h1, ?_⟩
      show (a.children ++ [y]).Nodup
      rw [List.nodup_append]
      refine ⟨h2, by simp, ?_⟩
      intro p hp q hq e
      simp only [List.mem_singleton] at hq
      subst hq; subst e
      exact hnc hp
    · by_cases e2 : z = y
      · subst e2
        rw [hb'] at hc
        obtain rfl := Option.some.inj hc
        obtain ⟨h1, h2⟩ := hi.nodup z b hb
        refine ⟨?_, h2⟩
        show (b.parents ++ [x]).Nodup
        rw [List.nodup_append]
        refine ⟨h1, by simp, ?_⟩
        intro p hp q hq e
        simp only [List.mem_singleton] at hq
        subst hq; subst e
        exact hnp hp
      · rw [h.others z e1 e2] at hc
        exact hi.nodup z c hc
  · intro p q hpq
    rw [hC] at hpq
    rcases hpq with hpq | ⟨rfl, rfl⟩
    · have h1 := hi.rank p q hpq
      by_cases hq : Desc w q x
      · have hp : Desc w p x := Relation.ReflTransGen.head hpq hq
        simp only [if_pos hq, if_pos hp]
        omega
      · simp only [if_neg hq]
        omega
    · have hp : Desc w p p := Relation.ReflTransGen.refl
      simp only [if_pos hp, if_neg hd]
      omega
  · intro p q hpq
    rw [hA]
    rw [hC] at hpq
    rcases hpq with hpq | ⟨rfl, rfl⟩
    · exact hi.alive p q hpq
    · simp [hb]
  · rw [h.freed]; exact hi.fnodup
  · intro z hz
    rw [h.freed] at hz
    have h1 := hi.gone z hz
    have h2 := hA z
    rw [h1] at h2
    simpa using h2
  · intro p hp
    rw [hA] at hp
    exact hL p hp

/-- `w'` is `w` without the link from `x` to `y`. -/
structure Unlinked (w : World) (x y : Nat) (w' : World) : Prop where
  nodes : ∀ z, w'.nodes z = (w.nodes z).map fun v =>
    ⟨if z = y then v.parents.erase x else v.parents, if z = x then v.children.erase y else v.children⟩
  freed : w'.freed = w.freed

theorem remove_ok {w : World} {x y : Nat} (hx : (w.nodes x).isSome) (hy : (w.nodes y).isSome) :
    ∃ w', removeChild w x y = some w' ∧ Unlinked w x y w' := by
  obtain ⟨a, ha⟩ := Option.isSome_iff_exists.mp hx
  obtain ⟨b, hb⟩ := Option.isSome_iff_exists.mp hy
  by_cases e : x = y
  · subst e
    rw [ha] at hb
    obtain rfl := Option.some.inj hb
    have h1 : (put w x { a with parents := a.parents.erase x }).nodes x = some { a with parents := a.parents.erase x } := by simp [put]
    refine ⟨put (put w x { a with parents := a.parents.erase x }) x ⟨a.parents.erase x, a.children.erase x⟩,
      by simp only [removeChild]; rw [ha, Option.bind_some, h1, Option.bind_some], ⟨?_, rfl⟩⟩
    intro z
    by_cases e : z = x
    · subst e; simp [put, ha]
    · simp [put, e]
  · have h1 : (put w y { b with parents := b.parents.erase x }).nodes x = some a := by
      simp only [put]
      rw [Function.update_of_ne e, ha]
    refine ⟨put (put w y { b with parents := b.parents.erase x }) x { a with children := a.children.erase y },
      by simp only [removeChild]; rw [hb, Option.bind_some, h1, Option.bind_some], ⟨?_, rfl⟩⟩
    intro z
    by_cases e1 : z = x
    · subst e1; simp [put, ha, e]
    · by_cases e2 : z = y
      · subst e2; simp [put, hb, e1]
      · simp [put, e1, e2]

theorem unlinked_child {w w' : World} {x y : Nat} (hg : Good w) (h : Unlinked w x y w') (p q : Nat) :
    Child w' p q ↔ Child w p q ∧ ¬ (p = x ∧ q = y) := by
  obtain ⟨rk, hi, _⟩ := hg
  simp only [Child, h.nodes]
  cases hp : w.nodes p with
  | none => simp
  | some v =>
    by_cases e : p = x
    · subst e
      have := (hi.nodup p v hp).2
      simp [this.mem_erase_iff]
      tauto
    · simp [e]

theorem unlinked_parent {w w' : World} {x y : Nat} (hg : Good w) (h : Unlinked w x y w') (p q : Nat) :
    Parent w' p q ↔ Parent w p q ∧ ¬ (p = x ∧ q = y) := by
  obtain ⟨rk, hi, _⟩ := hg
  simp only [Parent, h.nodes]
  cases hp : w.nodes q with
  | none => simp
  | some v =>
    by_cases e : q = y
    · subst e
      have := (hi.nodup q v hp).1
      simp [this.mem_erase_iff]
      tauto
    · simp [e]

theorem unlinked_good {w w' : World} {x y : Nat} (hg : Good w) (h : Unlinked w x y w') : Good w' := by
  obtain ⟨rk, hi, L, hL⟩ := id hg
  have hA : ∀ z, (w'.nodes z).isSome = (w.nodes z).isSome := by intro z; rw [h.nodes]; simp
  refine ⟨rk, ⟨?_, by simp, ?_, ?_, ?_, ?_, ?_⟩, L, ?_⟩
  · intro p q _
    rw [unlinked_child hg h, unlinked_parent hg h, hi.mirror p q (by simp)]
  · intro z c hc
    rw [h.nodes] at hc
    obtain ⟨v, hv, rfl⟩ := Option.map_eq_some_iff.mp hc
    obtain ⟨h1, h2⟩ := hi.nodup z v hv
    constructor
    · dsimp only
      split
      · exact h1.erase x
      · exact h1
    · dsimp only
      split
      · exact h2.erase y
      · exact h2
  · intro p q hpq
    exact hi.rank p q ((unlinked_child hg h p q).mp hpq).1
  · intro p q hpq
    rw [hA]
    exact hi.alive p q ((unlinked_child hg h p q).mp hpq).1
  · rw [h.freed]; exact hi.fnodup
  · intro z hz
    rw [h.freed] at hz
    rw [h.nodes, hi.gone z hz]; rfl
  · intro p hp
    rw [hA] at hp
    exact hL p hp

theorem create_good {w : World} {x : Nat} (hg : Good w) (h1 : w.nodes x = none) (h2 : x ∉ w.freed) : Good (put w x ⟨[], []⟩) := by
  obtain ⟨rk, hi, L, hL⟩ := hg
  have hC : ∀ p q, Child (put w x ⟨[], []⟩) p q ↔ Child w p q := by
    intro p q
    by_cases e : p = x
    · subst e; simp [Child, put, h1]
    · simp [Child, put, e]
  have hP : ∀ p q, Parent (put w x ⟨[], []⟩) p q ↔ Parent w p q := by
    intro p q
    by_cases e : q = x
    · subst e; simp [Parent, put, h1]
    · simp [Parent, put, e]
  refine ⟨rk, ⟨?_, by simp, ?_, ?_, ?_, hi.fnodup, ?_⟩, x :: L, ?_⟩
  · intro p q _
    rw [hC, hP, hi.mirror p q (by simp)]
  · intro z c hc
    by_cases e : z = x
    · subst e
      simp only [put, Function.update_self, Option.some.injEq] at hc
      subst hc
      simp
    · simp only [put] at hc
      rw [Function.update_of_ne e] at hc
      exact hi.nodup z c hc
  · intro p q hpq
    exact hi.rank p q ((hC p q).mp hpq)
  · intro p q hpq
    have := hi.alive p q ((hC p q).mp hpq)
    by_cases e : q = x
    · subst e; simp [put]
    · simp only [put]
      rwa [Function.update_of_ne e]
  · intro z hz
    have : z ≠ x := by rintro rfl; exact h2 hz
    simp only [put]
    rw [Function.update_of_ne this]
    exact hi.gone z hz
  · intro p hp
    by_cases e : p = x
    · simp [e]
    · simp only [put] at hp
      rw [Function.update_of_ne e] at hp
      exact List.mem_cons_of_mem _ (hL p hp)

open Classical in
theorem gone_good {w w' : World} {S : Nat → Prop} (hg : Good w) (h : Gone w S w') : Good w' := by
  obtain ⟨rk, hi, L, hL⟩ := hg
  refine ⟨rk, gone_inv hi h, L, ?_⟩
  intro p hp
  by_cases hs : S p
  · rw [h.dead p hs] at hp; simp at hp
  · rw [h.kept p hs] at hp
    exact hL p (by simpa using hp)

theorem release_top {w : World} {x : Nat} (hg : Good w) (hs : (w.nodes x).isSome) :
    ∃ w', (∃ N, ∀ n ≥ N, release n w x = some w') ∧ Gone w (Desc w x) w' := by
  obtain ⟨rk, hi, _⟩ := hg
  obtain ⟨S, w', h1, h2, h3, h4, hN⟩ := release_ok rk (rk x + 1) (fun _ => False) w x (by omega) (by simp) hi hs
  have e : S = Desc w x := funext fun z => propext ⟨h4 z, fun hd => by
    induction hd with
    | refl => exact h3
    | tail _ h ih => exact h2 _ _ ih h⟩
  rw [e] at h1
  exact ⟨w', hN, h1⟩

/-- What `AddChildNode` refuses. -/
def Refuses (w : World) (x : Nat) (y : Option Nat) : Prop := y = none ∨ ∃ z, y = some z ∧ (z = x ∨ Child w x z ∨ Ancestor w z x)

theorem add_ok {w : World} {x : Nat} {y : Option Nat} (hg : Good w) (hx : (w.nodes x).isSome) (hy : ∀ z, y = some z → (w.nodes z).isSome) :
    ∃ b w', (∃ N, ∀ n ≥ N, addChild n w x y = some (b, w')) ∧ Good w' ∧ (b = false ↔ Refuses w x y) ∧ (b = false → w' = w) ∧
      (b = true → ∃ z, y = some z ∧ Linked w x z w') := by
  classical
  obtain ⟨a, ha⟩ := Option.isSome_iff_exists.mp hx
  cases y with
  | none => exact ⟨false, w, ⟨0, fun n _ => by simp [addChild, ha]⟩, hg, by simp [Refuses], by simp, by simp⟩
  | some y =>
    by_cases e : x = y
    · subst e
      exact ⟨false, w, ⟨0, fun n _ => by simp [addChild, ha]⟩, hg, by simp [Refuses], by simp, by simp⟩
    · by_cases hc : y ∈ a.children
      · exact ⟨false, w, ⟨0, fun n _ => by simp [addChild, ha, hc, e]⟩, hg, by simp [Refuses, Child, ha, hc], by simp, by simp⟩
      · obtain ⟨N, hN⟩ := search_ok hg ha y
        by_cases hA : Ancestor w y x
        · refine ⟨false, w, ⟨N, fun n hn => ?_⟩, hg, by simp [Refuses, hA], by simp, by simp⟩
          simp only [addChild]
          rw [ha, Option.bind_some, if_neg e, if_neg hc, hN n hn, Option.bind_some]
          simp [hA]
        · obtain ⟨b, hb⟩ := Option.isSome_iff_exists.mp (hy y rfl)
          obtain ⟨w', h1, h2⟩ := link_ok e ha hb
          have hnc : ¬ Child w x y := by
            rintro ⟨a', ha', hm⟩
            rw [ha] at ha'
            obtain rfl := Option.some.inj ha'
            exact hc hm
          have hnd : ¬ Desc w y x := by
            intro hd
            rcases Relation.reflTransGen_iff_eq_or_transGen.mp hd with h | h
            · exact e h
            · exact hA h
          refine ⟨true, w', ⟨N, fun n hn => ?_⟩, linked_good hg h2 e hnc hnd, ?_, by simp, fun _ => ⟨y, rfl, h2⟩⟩
          · simp only [addChild]
            rw [ha, Option.bind_some, if_neg e, if_neg hc, hN n hn, Option.bind_some]
            simp [hA, h1]
          · simp only [Bool.true_eq_false, Refuses, Option.some.injEq, false_iff, not_or, not_exists, not_and]
            refine ⟨by simp, ?_⟩
            rintro z rfl
            exact ⟨fun h => e h.symm, hnc, hA⟩

theorem step_ok {w : World} {op : Op} (hg : Good w) (hl : Legal w op) : ∃ w', Steps w op w' ∧ Good w' := by
  cases op with
  | create x =>
    exact ⟨_, ⟨0, fun n _ => by simp only [run, create]; rw [if_pos ⟨hl.1, hl.2⟩]⟩, create_good hg hl.1 hl.2⟩
  | add x y =>
    obtain ⟨b, w', ⟨N, hN⟩, h2, _⟩ := add_ok hg hl.1 hl.2
    exact ⟨w', ⟨N, fun n hn => by simp only [run]; rw [hN n hn]; rfl⟩, h2⟩
  | remove x y =>
    obtain ⟨w', h1, h2⟩ := remove_ok hl.1 hl.2
    exact ⟨w', ⟨0, fun n _ => h1⟩, unlinked_good hg h2⟩
  | release x =>
    obtain ⟨w', h1, h2⟩ := release_top hg hl
    exact ⟨w', h1, gone_good hg h2⟩

theorem reach_good {w : World} (h : Reach w) : Good w := by
  induction h with
  | start => exact start_good
  | step _ hl hs ih =>
    obtain ⟨w', h1, h2⟩ := step_ok ih hl
    rwa [steps_unique hs h1]

end Verif.FScene
