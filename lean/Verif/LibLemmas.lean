import Verif.LibSpec
import Verif.OwnerProps

/-!
# Libraries: lemmas
-/

namespace Verif.FLib

open Verif.FStr (Ch)
open Verif.FIds (Doc Holds getDaeId)

/-! ## The entity list -/

section
open FOwn

/-- The container `c` keeps the objects that are still alive. -/
def Kept (c : Nat) (w w' : World) : Prop := ∀ l, w.cons c = some (.list l) → (w'.cons c).isSome → w'.cons c = some (.list (l.filter fun x => (w'.objs x).isSome))

theorem filter_alive {w : World} (hr : Reach w) {c : Nat} {l : List Nat} (hl : w.cons c = some (.list l)) : ∀ x ∈ l, (w.objs x).isSome := by
  intro x hx
  obtain ⟨_, ⟨o, ho, _⟩, _⟩ := (owned_once_partial w hr).2.2.1 c x ⟨_, hl, hx⟩
  simp [ho]

theorem kept_gone {w w' : World} (hr : Reach w) {c : Nat} {S K : Nat → Prop} (h : Gone w S K w') : Kept c w w' := by
  classical
  intro l hl hs
  have hk : ¬ K c := by
    intro hk
    rw [h.gone c hk] at hs
    simp at hs
  rw [h.kept c hk, hl]
  simp only [Option.map_some, Content.without]
  congr 2
  refine List.filter_congr fun x hx => ?_
  have := filter_alive hr hl x hx
  by_cases hS : S x
  · simp [(h.objs x).1 hS, hS]
  · simp [(h.objs x).2 hS, hS, this]

theorem kept_same {w w' : World} (hr : Reach w) {c : Nat} (h1 : w'.cons c = w.cons c) (h2 : ∀ x, (w.objs x).isSome → (w'.objs x).isSome) : Kept c w w' := by
  intro l hl _
  rw [h1, hl]
  congr 2
  exact (List.filter_eq_self.2 fun x hx => h2 x (filter_alive hr hl x hx)).symm

theorem kept_fresh {w w' : World} (hr : Reach w) {c : Nat} {cs : List Nat} {x : Option Nat} (h : Fresh w cs x w') : Kept c w w' := by
  intro l hl hs
  refine kept_same hr ?_ ?_ l hl hs
  · refine h.old c fun hc => ?_
    have := (h.new c hc).1
    rw [hl] at this
    simp at this
  · intro z hz
    by_cases e : x = some z
    · have := (h.obj z e).1
      rw [this] at hz
      simp at hz
    · rw [h.objs z e]
      exact hz

theorem linked_alive {w w' : World} {d x : Nat} (h : Linked w d x w') (z : Nat) : (w'.objs z).isSome ↔ (w.objs z).isSome := by
  by_cases e : z = x
  · subst e
    obtain ⟨o, h1, _, h2⟩ := h.self
    simp [h1, h2]
  · rw [h.objs z e]

theorem kept_linked {w w' : World} (hr : Reach w) {c d x : Nat} (hd : c ≠ d) (h : Linked w d x w') : Kept c w w' :=
  kept_same hr (h.cons c hd) fun z hz => (linked_alive h z).2 hz

theorem kept_unlinked {w w' : World} (hr : Reach w) {c d x : Nat} (hd : d ≠ c) (hx : Lists w d x) (h : Unlinked w x w') : Kept c w w' := by
  refine kept_same hr ?_ ?_
  · rw [h.cons c]
    cases hc : w.cons c with
    | none => rfl
    | some v =>
      have hn : x ∉ v.items := fun hm => hd (((owned_once_partial w hr).2.2.1 c x ⟨v, hc, hm⟩).2.2 d hx)
      cases v with
      | ref p =>
        cases p with
        | none => rfl
        | some y =>
          have : y ≠ x := by rintro rfl; exact hn (by simp [Content.items])
          simp [Content.without, Option.filter, this]
      | list l =>
        simp only [Option.map_some, Content.without]
        congr 2
        refine List.filter_eq_self.2 fun y hy => ?_
        have : y ≠ x := by rintro rfl; exact hn hy
        simpa using this
  · intro z hz
    by_cases e : z = x
    · subst e
      obtain ⟨o, _, h2⟩ := h.self
      simp [h2]
    · rw [h.objs z e]
      exact hz

/-- What one operation does to a container it does not touch. -/
theorem kept_step {w w' : World} (hr : Reach w) {c : Nat} {op : Op} (hl : Legal w op) (ht : ¬ Touches c op) (hp : ∀ x, op ≠ .pushBack c x) (hs : Steps w op w') : Kept c w w' := by
  have hg := reach_good hr
  have hself : Kept c w w := kept_same hr rfl (fun _ h => h)
  cases op with
  | create x kinds => obtain ⟨w1, h1, _, h3⟩ := create_ok hg hl; rw [steps_unique hs h1]; exact kept_fresh hr h3
  | newOwner d b => obtain ⟨w1, h1, _, h3⟩ := newOwner_ok hg hl; rw [steps_unique hs h1]; exact kept_fresh hr h3
  | deleteOwner d =>
    obtain ⟨v, hv⟩ := Option.isSome_iff_exists.mp hl.1
    obtain ⟨w1, h1, _, h3⟩ := delete_top hg hv hl.2
    rw [steps_unique hs h1]
    exact kept_gone hr h3
  | pushBack d x =>
    obtain ⟨⟨l, hc⟩, hm⟩ := hl
    obtain ⟨w1, h1, _, h3, _⟩ := pushBack_ok hg hc hm
    rw [steps_unique hs h1]
    exact kept_linked hr (by rintro rfl; exact hp x rfl) h3
  | insert d k x =>
    obtain ⟨⟨l, hc, hk⟩, hm⟩ := hl
    obtain ⟨w1, h1, _, h3, _⟩ := insert_ok hg hc hk hm
    rw [steps_unique hs h1]
    exact kept_linked hr (by rintro rfl; exact ht rfl) h3
  | eraseAt d k =>
    obtain ⟨l, hc, hk⟩ := hl
    obtain ⟨w1, h1, _, h3⟩ := eraseAt_core hg hc (List.getElem?_eq_getElem hk)
    rw [steps_unique hs h1]
    exact kept_gone hr h3
  | popBack d =>
    obtain ⟨l, hc⟩ := hl
    cases hx : l.getLast? with
    | none =>
      have : l = [] := List.getLast?_eq_none_iff.mp hx
      rw [steps_unique hs (show Steps w _ w from ⟨0, fun n _ => by simp [run, popBack, getList, hc, this]⟩)]
      exact hself
    | some x =>
      obtain ⟨w1, h1, _, h3⟩ := popBack_ok hg hc hx
      rw [steps_unique hs h1]
      exact kept_gone hr h3
  | popFront d =>
    obtain ⟨l, hc⟩ := hl
    cases hx : l.head? with
    | none =>
      have : l = [] := List.head?_eq_none_iff.mp hx
      rw [steps_unique hs (show Steps w _ w from ⟨0, fun n _ => by simp [run, popFront, getList, hc, this]⟩)]
      exact hself
    | some x =>
      obtain ⟨w1, h1, _, h3⟩ := popFront_ok hg hc hx
      rw [steps_unique hs h1]
      exact kept_gone hr h3
  | erase d x =>
    obtain ⟨l, hc⟩ := hl
    by_cases hx : x ∈ l
    · obtain ⟨w1, h1, _, h3⟩ := erase_ok hg hc hx
      rw [steps_unique hs h1]
      exact kept_gone hr h3
    · rw [steps_unique hs (show Steps w _ w from ⟨0, fun n _ => by simp [run, erase, getList, hc, hx]⟩)]
      exact hself
  | clear d =>
    obtain ⟨l, hc⟩ := hl
    obtain ⟨w1, h1, _, h3, _⟩ := clear_op_ok hg hc
    rw [steps_unique hs h1]
    exact kept_gone hr h3
  | detach d x =>
    obtain ⟨l, hc⟩ := hl
    by_cases hx : x ∈ l
    · obtain ⟨w1, h1, _, h3, _⟩ := detach_op_ok hg hc hx
      rw [steps_unique hs h1]
      exact kept_unlinked hr (d := d) (by rintro rfl; exact ht rfl) ⟨_, hc, hx⟩ h3
    · rw [steps_unique hs (show Steps w _ w from ⟨0, fun n _ => by simp [run, detachFrom, getList, hc, hx]⟩)]
      exact hself
  | assign d p =>
    obtain ⟨⟨q, hc⟩, hm⟩ := hl
    obtain ⟨w2, h1, _, _, w1, h3, h4, h5⟩ := assign_ok hg hc hm
    rw [steps_unique hs h1]
    have hk := kept_gone (c := c) hr h3
    cases p with
    | none => rw [h4 rfl]; exact hk
    | some x =>
      have hlk := h5 x rfl
      have hd : c ≠ d := by rintro rfl; exact ht rfl
      intro l hl hs2
      rw [hlk.cons c hd] at hs2 ⊢
      rw [hk l hl hs2]
      congr 2
      refine List.filter_congr fun y _ => ?_
      have := linked_alive hlk y
      cases h1 : (w1.objs y).isSome <;> cases h2 : (w2.objs y).isSome <;> simp_all
  | release x =>
    obtain ⟨w1, h1, _, h3⟩ := release_top hg hl
    rw [steps_unique hs h1]
    exact kept_gone hr h3

theorem history_reach {c : Nat} {w w' : World} {ops : List Op} (hr : Reach w) (h : History c w ops w') : Reach w' := by
  induction h with
  | nil => exact hr
  | step _ hl _ hs _ ih => exact .step ih hl hs

theorem added_append (c : Nat) (ops : List Op) (op : Op) : added c (ops ++ [op]) = added c ops ++ added c [op] := by simp [added, List.filterMap_append]

end

/-! ## Searching -/

theorem findFirst_some {accept : Nat → Bool} {f : Doc → Nat → Option (Doc × Option Nat)} : ∀ {xs : List Nat} {d d' : Doc} {y : Nat},
    findFirst accept f d xs = some (d', some y) → ∃ x ∈ xs, ∃ d1, f d1 x = some (d', some y) ∧ accept y = true := by
  intro xs
  induction xs with
  | nil => intro d d' y h; simp [findFirst] at h
  | cons x xs ih =>
    intro d d' y h
    rw [findFirst, Option.bind_eq_some_iff] at h
    obtain ⟨⟨d1, r⟩, hf, h⟩ := h
    cases r with
    | none =>
      obtain ⟨z, hz, d2, h2⟩ := ih h
      exact ⟨z, by simp [hz], d2, h2⟩
    | some z =>
      simp only at h
      by_cases ha : accept z = true
      · rw [if_pos ha] at h
        simp only [Option.some.injEq, Prod.mk.injEq] at h
        obtain ⟨rfl, rfl⟩ := h
        exact ⟨x, by simp, d, hf, ha⟩
      · rw [if_neg ha] at h
        obtain ⟨z, hz, d2, h2⟩ := ih h
        exact ⟨z, by simp [hz], d2, h2⟩

/-- What is kept while ids are given out. -/
def Grows (d d' : Doc) : Prop := ∀ x s, Holds d x s → Holds d' x s

theorem Grows.trans {a b c : Doc} (h : Grows a b) (h' : Grows b c) : Grows a c := fun x s hx => h' x s (h x s hx)

theorem get_grows {d d' : Doc} {x : Nat} {s : List Ch} (h : getDaeId d x = some (d', s)) : Grows d d' ∧ Holds d' x s := by
  rw [getDaeId, Option.bind_eq_some_iff] at h
  obtain ⟨o, ho, h⟩ := h
  have hlt := FIds.obj_lt ho
  split at h
  · rename_i hu
    simp only [Option.some.injEq, Prod.mk.injEq] at h
    obtain ⟨rfl, rfl⟩ := h
    exact ⟨fun _ _ h => h, by rw [Holds, ho]; cases o; simp_all⟩
  · rename_i hu
    rw [Option.map_eq_some_iff] at h
    obtain ⟨r, _, h⟩ := h
    simp only [Prod.mk.injEq] at h
    obtain ⟨rfl, rfl⟩ := h
    constructor
    · intro y t hy
      have : y ≠ x := by
        rintro rfl
        rw [Holds, ho] at hy
        obtain rfl := Option.some.inj hy
        exact hu rfl
      rw [Holds, FIds.obj_put d r.1 x y _ hlt, if_neg this]
      exact hy
    · rw [Holds, FIds.obj_put d r.1 x x _ hlt, if_pos rfl]

theorem findFirst_grows {accept : Nat → Bool} {f : Doc → Nat → Option (Doc × Option Nat)} (hf : ∀ d x d' r, f d x = some (d', r) → Grows d d') :
    ∀ {xs : List Nat} {d d' : Doc} {r : Option Nat}, findFirst accept f d xs = some (d', r) → Grows d d' := by
  intro xs
  induction xs with
  | nil =>
    intro d d' r h
    simp only [findFirst, Option.some.injEq, Prod.mk.injEq] at h
    obtain ⟨rfl, _⟩ := h
    exact fun _ _ h => h
  | cons x xs ih =>
    intro d d' r h
    rw [findFirst, Option.bind_eq_some_iff] at h
    obtain ⟨⟨d1, q⟩, hx, h⟩ := h
    have g1 := hf _ _ _ _ hx
    cases q with
    | none => exact g1.trans (ih h)
    | some z =>
      simp only at h
      split at h
      · simp only [Option.some.injEq, Prod.mk.injEq] at h
        obtain ⟨rfl, _⟩ := h
        exact g1
      · exact g1.trans (ih h)

theorem findIn_grows {kids : Nat → List Nat} {id : List Ch} : ∀ (n : Nat) (d : Doc) (x : Nat) (d' : Doc) (r : Option Nat),
    findIn kids id n d x = some (d', r) → Grows d d' := by
  intro n
  induction n with
  | zero => intro d x d' r h; simp [findIn] at h
  | succ n ih =>
    intro d x d' r h
    rw [findIn, Option.bind_eq_some_iff] at h
    obtain ⟨⟨d1, s⟩, hg, h⟩ := h
    have g1 := (get_grows hg).1
    simp only at h
    split at h
    · simp only [Option.some.injEq, Prod.mk.injEq] at h
      obtain ⟨rfl, _⟩ := h
      exact g1
    · exact g1.trans (findFirst_grows ih h)

theorem findIn_some {kids : Nat → List Nat} {id : List Ch} : ∀ {n : Nat} {d : Doc} {x : Nat} {d' : Doc} {y : Nat},
    findIn kids id n d x = some (d', some y) → Under kids x y ∧ Holds d' y id := by
  intro n
  induction n with
  | zero => intro d x d' r h; simp [findIn] at h
  | succ n ih =>
    intro d x d' y h
    rw [findIn, Option.bind_eq_some_iff] at h
    obtain ⟨⟨d1, s⟩, hg, h⟩ := h
    simp only at h
    split at h
    · rename_i e
      simp only [Option.some.injEq, Prod.mk.injEq] at h
      obtain ⟨rfl, rfl⟩ := h
      subst e
      exact ⟨.refl, (get_grows hg).2⟩
    · obtain ⟨z, hz, d2, h2, _⟩ := findFirst_some h
      obtain ⟨h3, h4⟩ := ih h2
      exact ⟨Relation.ReflTransGen.head hz h3, h4⟩

theorem findFirst_none {accept : Nat → Bool} {f : Doc → Nat → Option (Doc × Option Nat)} (hf : ∀ d x d' r, f d x = some (d', r) → Grows d d')
    (P : Doc → Nat → Prop) (hP : ∀ d d' x, Grows d d' → P d x → P d' x) :
    ∀ {xs : List Nat} {d d' : Doc}, (∀ x ∈ xs, ∀ d d' y, f d x = some (d', some y) → accept y = true) → (∀ x ∈ xs, ∀ d d', f d x = some (d', none) → P d' x) →
      findFirst accept f d xs = some (d', none) → ∀ x ∈ xs, P d' x := by
  intro xs
  induction xs with
  | nil => intro d d' _ _ _ x hx; simp at hx
  | cons x xs ih =>
    intro d d' ha hn h z hz
    rw [findFirst, Option.bind_eq_some_iff] at h
    obtain ⟨⟨d1, q⟩, hx, h⟩ := h
    cases q with
    | some y =>
      simp only at h
      rw [if_pos (ha x (by simp) _ _ _ hx)] at h
      simp at h
    | none =>
      simp only at h
      rcases List.mem_cons.1 hz with rfl | hz
      · exact hP _ _ _ (findFirst_grows hf h) (hn z (by simp) _ _ hx)
      · exact ih (fun x hx => ha x (by simp [hx])) (fun x hx => hn x (by simp [hx])) h z hz

/-- All entities below hold other ids. -/
def Others (kids : Nat → List Nat) (id : List Ch) (d : Doc) (x : Nat) : Prop := ∀ y, Under kids x y → ∃ s, Holds d y s ∧ s ≠ id

theorem others_grows (kids : Nat → List Nat) (id : List Ch) {d d' : Doc} {x : Nat} (hg : Grows d d') (h : Others kids id d x) : Others kids id d' x := by
  intro y hy
  obtain ⟨s, h1, h2⟩ := h y hy
  exact ⟨s, hg y s h1, h2⟩

theorem findIn_none {kids : Nat → List Nat} {id : List Ch} : ∀ {n : Nat} {d : Doc} {x : Nat} {d' : Doc},
    findIn kids id n d x = some (d', none) → Others kids id d' x := by
  intro n
  induction n with
  | zero => intro d x d' h; simp [findIn] at h
  | succ n ih =>
    intro d x d' h
    rw [findIn, Option.bind_eq_some_iff] at h
    obtain ⟨⟨d1, s⟩, hg, h⟩ := h
    simp only at h
    split at h
    · simp at h
    · rename_i hne
      have hk := findFirst_none (f := findIn kids id n) (findIn_grows n) (Others kids id) (fun _ _ _ => others_grows kids id) (fun _ _ _ _ _ _ => rfl)
        (fun _ _ _ _ => ih) h
      intro y hy
      rcases Relation.ReflTransGen.cases_head hy with rfl | ⟨z, hz, hy⟩
      · exact ⟨s, findFirst_grows (findIn_grows n) h _ _ (get_grows hg).2, hne⟩
      · exact hk z hz y hy

theorem get_held {d : Doc} {x : Nat} {s : List Ch} (h : Holds d x s) : getDaeId d x = some (d, s) := by
  rw [Holds] at h
  simp [getDaeId, h]

/-- If all ids are given, the search ends, and changes nothing. -/
theorem findFirst_held {accept : Nat → Bool} {f : Nat → Doc → Nat → Option (Doc × Option Nat)} {d : Doc} : ∀ {xs : List Nat},
    (∀ x ∈ xs, ∃ N r, ∀ n ≥ N, f n d x = some (d, r)) → ∃ N r, ∀ n ≥ N, findFirst accept (f n) d xs = some (d, r) := by
  intro xs
  induction xs with
  | nil => intro _; exact ⟨0, none, fun _ _ => rfl⟩
  | cons x xs ih =>
    intro h
    obtain ⟨N, r, hN⟩ := h x (by simp)
    obtain ⟨M, q, hM⟩ := ih (fun x hx => h x (by simp [hx]))
    cases r with
    | none => exact ⟨max N M, q, fun n hn => by rw [findFirst, hN n (by omega), Option.bind_some]; exact hM n (by omega)⟩
    | some y =>
      by_cases ha : accept y = true
      · exact ⟨N, some y, fun n hn => by rw [findFirst, hN n hn, Option.bind_some]; exact if_pos ha⟩
      · exact ⟨max N M, q, fun n hn => by rw [findFirst, hN n (by omega), Option.bind_some]; exact (if_neg ha).trans (hM n (by omega))⟩

theorem findIn_held {kids : Nat → List Nat} {id : List Ch} {d : Doc} {rk : Nat → Nat} : ∀ (k x : Nat), rk x ≤ k →
    (∀ y, Under kids x y → (∃ s, Holds d y s) ∧ ∀ z ∈ kids y, rk z < rk y) → ∃ N r, ∀ n ≥ N, findIn kids id n d x = some (d, r) := by
  intro k
  induction k with
  | zero =>
    intro x hk h
    obtain ⟨⟨s, hs⟩, hz⟩ := h x .refl
    have : kids x = [] := by
      by_contra hne
      obtain ⟨z, hm⟩ := List.exists_mem_of_ne_nil _ hne
      have := hz z hm
      omega
    refine ⟨1, if s = id then some x else none, fun n hn => ?_⟩
    obtain ⟨m, rfl⟩ : ∃ m, n = m + 1 := ⟨n - 1, by omega⟩
    rw [findIn, get_held hs, Option.bind_some]
    by_cases e : s = id
    · simp [e]
    · simp [e, this, findFirst]
  | succ k ih =>
    intro x hk h
    obtain ⟨⟨s, hs⟩, hz⟩ := h x .refl
    obtain ⟨N, r, hN⟩ := findFirst_held (accept := fun _ => true) (f := findIn kids id) (d := d) (xs := kids x) (by
      intro z hm
      refine ih z ?_ (fun y hy => h y (Relation.ReflTransGen.head hm hy))
      have := hz z hm
      omega)
    refine ⟨N + 1, if s = id then some x else r, fun n hn => ?_⟩
    obtain ⟨m, rfl⟩ : ∃ m, n = m + 1 := ⟨n - 1, by omega⟩
    rw [findIn, get_held hs, Option.bind_some]
    by_cases e : s = id
    · simp [e]
    · simp [e, hN m (by omega)]

end Verif.FLib
