import Verif.LibSub
import Mathlib.Data.Fintype.Card

/-!
# Libraries, entity search and sub ids: properties (C54, C82)
-/

namespace Verif.FLib

open Verif.FStr (Ch)
open Verif.FIds (Doc Holds getDaeId)

/-! ## C54: the entities of a library -/

/-- **C54** (the entities). Whatever a program does, but for calls on the container of the library other than adding, the library that was empty at the
start lists exactly the entities that were added and are still alive, in the order of their addition. -/
theorem library_entities {w w' : FOwn.World} (hr : FOwn.Reach w) {c : Nat} (h0 : w.cons c = some (.list [])) {ops : List FOwn.Op} (h : History c w ops w') :
    w'.cons c = some (.list ((added c ops).filter fun x => (w'.objs x).isSome)) := by
  suffices hs : w'.cons c = some (.list ((added c ops).filter fun x => (w'.objs x).isSome)) ∧ ∀ x ∈ added c ops, (w'.objs x).isSome ∨ x ∈ w'.freed from hs.1
  induction h with
  | nil => exact ⟨by simpa [added] using h0, by simp [added]⟩
  | @step ops w1 op w2 hh hl ht hs hsome ih =>
    obtain ⟨ih1, ih2⟩ := ih
    have hr1 := history_reach hr hh
    have hr2 : FOwn.Reach w2 := .step hr1 hl hs
    obtain ⟨w3, h3, _, hf, hk⟩ := FOwn.ownership_safe_partial w1 hr1 op hl
    obtain rfl := FOwn.steps_unique hs h3
    -- an entity that is alive now was alive before
    have hback : ∀ x ∈ added c ops, (w2.objs x).isSome → (w1.objs x).isSome := by
      intro x hx ha
      rcases ih2 x hx with h | h
      · exact h
      · have := (FOwn.owned_once_partial w2 hr2).2.1 x (hf.subset h)
        rw [this] at ha
        simp at ha
    have hlive : ∀ x ∈ added c ops, (w2.objs x).isSome ∨ x ∈ w2.freed := by
      intro x hx
      rcases ih2 x hx with h | h
      · exact hk x h
      · exact .inr (hf.subset h)
    have hfilter : ((added c ops).filter fun x => (w1.objs x).isSome).filter (fun x => (w2.objs x).isSome) = (added c ops).filter fun x => (w2.objs x).isSome := by
      rw [List.filter_filter]
      refine List.filter_congr fun x hx => ?_
      cases h2 : (w2.objs x).isSome with
      | false => rfl
      | true => simp [hback x hx h2]
    rw [added_append]
    by_cases hp : ∃ x, op = .pushBack c x
    · obtain ⟨x, rfl⟩ := hp
      obtain ⟨⟨l, hc⟩, hm⟩ := hl
      obtain ⟨w3, h3, _, hlk, hcons⟩ := FOwn.pushBack_ok (FOwn.reach_good hr1) hc hm
      obtain rfl := FOwn.steps_unique hs h3
      have hx2 : (w2.objs x).isSome := by
        obtain ⟨o, _, _, h2⟩ := hlk.self
        simp [h2]
      have hadd : added c [FOwn.Op.pushBack c x] = [x] := by simp [added]
      rw [hadd]
      refine ⟨?_, ?_⟩
      · rw [hcons, List.filter_append, show ([x].filter fun x => (w2.objs x).isSome) = [x] by simp [hx2]]
        rw [ih1] at hc
        simp only [Option.some.injEq, FOwn.Content.list.injEq] at hc
        rw [← hc, ← hfilter]
        congr 3
        refine (List.filter_eq_self.2 fun y hy => ?_).symm
        exact (linked_alive hlk y).2 (List.mem_filter.1 hy).2
      · intro y hy
        rcases List.mem_append.1 hy with hy | hy
        · exact hlive y hy
        · rw [List.mem_singleton.1 hy]; exact .inl hx2
    · have hnone : added c [op] = [] := by
        cases op <;> simp [added]
        rename_i d x
        rintro rfl
        exact hp ⟨x, rfl⟩
      rw [hnone, List.append_nil]
      refine ⟨?_, hlive⟩
      have := kept_step hr1 hl ht (fun x e => hp ⟨x, e⟩) hs _ ih1 hsome
      rw [this, hfilter]

/-- **C54** (`GetEntity`). The entities can be read by their position; a position that is too large gives NULL. -/
theorem library_get {w w' : FOwn.World} (hr : FOwn.Reach w) {c : Nat} (h0 : w.cons c = some (.list [])) {ops : List FOwn.Op} (h : History c w ops w') (i : Nat) :
    getEntity w' c i = some (((added c ops).filter fun x => (w'.objs x).isSome)[i]?) := by
  simp [getEntity, FOwn.getList, library_entities hr h0 h]

/-- A library that is given two entities; the first one is released from outside, and the second one is then its first. -/
example : ∃ w w', FOwn.Reach w ∧ w.cons 1 = some (.list []) ∧ History 1 w [.create 10 [], .pushBack 1 10, .create 11 [], .pushBack 1 11, .release 10] w' ∧
    getEntity w' 1 0 = some (some 11) := by
  have r1 : FOwn.Reach _ := FOwn.reach_run (op := .newOwner 1 true) .start rfl (fun _ => rfl)
  have h1 := History.step (op := .create 10 []) (w2 := _) (.nil (c := 1) (FOwn.putC FOwn.nothing 1 (some (.list [])))) (by simp [FOwn.Legal, FOwn.putC, FOwn.nothing]) (fun h => h) ⟨0, fun _ _ => rfl⟩ rfl
  have h2 := History.step (op := .pushBack 1 10) (w2 := _) h1 ⟨⟨_, rfl⟩, FOwn.mayOwn_leaf rfl⟩ (fun h => h) ⟨0, fun _ _ => rfl⟩ rfl
  have h3 := History.step (op := .create 11 []) (w2 := _) h2 (by simp [FOwn.Legal, FOwn.putC, FOwn.putO, FOwn.nothing]) (fun h => h) ⟨0, fun _ _ => rfl⟩ rfl
  have h4 := History.step (op := .pushBack 1 11) (w2 := _) h3 ⟨⟨_, rfl⟩, FOwn.mayOwn_leaf rfl⟩ (fun h => h) ⟨0, fun _ _ => rfl⟩ rfl
  have h5 := History.step (op := .release 10) (w2 := _) h4 rfl (fun h => h)
    ⟨2, fun n hn => by obtain ⟨m, rfl⟩ : ∃ m, n = m + 2 := ⟨n - 2, by omega⟩; exact rfl⟩ rfl
  exact ⟨_, _, r1, rfl, h5, rfl⟩

/-- **C54** (`AddEntity`). An entity without an owner that is given to a library becomes its last entity; this is the step `pushBack` of a history. -/
theorem library_add {w : FOwn.World} (hr : FOwn.Reach w) {c x : Nat} {l : List Nat} (hc : w.cons c = some (.list l)) (hm : FOwn.MayOwn w c x) :
    ∃ w', addEntity w c x = some w' ∧ w'.cons c = some (.list (l ++ [x])) ∧ FOwn.Steps w (.pushBack c x) w' := by
  obtain ⟨w', ⟨N, h⟩, _, _, hl⟩ := FOwn.pushBack_ok (FOwn.reach_good hr) hc hm
  exact ⟨w', h N le_rfl, hl, N, h⟩

/-- **C54** (`AddEntity` that makes the entity). The new entity becomes the last one of the library; the call is a creation and a step `pushBack`. -/
theorem library_add_new {w : FOwn.World} (hr : FOwn.Reach w) {c x : Nat} {l : List Nat} (hc : w.cons c = some (.list l)) {kinds : List (Nat × Bool)}
    (hn : FOwn.Legal w (.create x kinds)) :
    ∃ w', addNewEntity w c x kinds = some w' ∧ w'.cons c = some (.list (l ++ [x])) ∧
      ∃ w1, FOwn.Steps w (.create x kinds) w1 ∧ FOwn.Steps w1 (.pushBack c x) w' := by
  obtain ⟨w1, ⟨N, h1⟩, _, hf⟩ := FOwn.create_ok (FOwn.reach_good hr) hn
  have hr1 : FOwn.Reach w1 := .step hr hn ⟨N, h1⟩
  have hck : c ∉ kinds.map Prod.fst := by
    intro h
    have := (hf.new c h).1
    rw [hc] at this
    simp at this
  have hc1 : w1.cons c = some (.list l) := by rw [hf.old c hck, hc]
  obtain ⟨_, _, ho⟩ := hf.obj x rfl
  have hm : FOwn.MayOwn w1 c x := by
    refine ⟨⟨_, ho, rfl⟩, ?_⟩
    have hself : ∀ y, FOwn.Desc w1 x y → y = x := by
      intro y hy
      induction hy with
      | refl => rfl
      | tail _ h ih =>
        subst ih
        obtain ⟨d, ⟨o, ho', hd⟩, v, hv, hi⟩ := h
        rw [ho] at ho'
        obtain rfl := Option.some.inj ho'
        obtain ⟨_, v', hv', he⟩ := hf.new d hd
        rw [hv] at hv'
        obtain rfl := Option.some.inj hv'
        rw [he] at hi
        simp at hi
    intro y hy
    rw [hself y hy]
    rintro ⟨o, ho', hd⟩
    rw [ho] at ho'
    obtain rfl := Option.some.inj ho'
    exact hck hd
  obtain ⟨w', h2, h3, h4⟩ := library_add hr1 hc1 hm
  refine ⟨w', ?_, h3, w1, ⟨N, h1⟩, h4⟩
  have := h1 N le_rfl
  unfold addNewEntity
  rw [show FOwn.create w x kinds = some w1 from this]
  exact h2

/-- A library with one entity is given a new one with one member. -/
example : ∃ w w', FOwn.Reach w ∧ w.cons 1 = some (.list [10]) ∧ FOwn.Legal w (.create 11 [(2, true)]) ∧ addNewEntity w 1 11 [(2, true)] = some w' ∧
    w'.cons 1 = some (.list [10, 11]) := by
  have r1 : FOwn.Reach _ := FOwn.reach_run (op := .newOwner 1 true) .start rfl (fun _ => rfl)
  have r2 : FOwn.Reach _ := FOwn.reach_run (op := .create 10 []) r1 (by simp [FOwn.Legal, FOwn.putC]) (fun _ => rfl)
  have r3 : FOwn.Reach _ := FOwn.reach_run (op := .pushBack 1 10) r2 ⟨⟨_, rfl⟩, FOwn.mayOwn_leaf rfl⟩ (fun _ => rfl)
  have hl := fun w (h1 : w.objs 11 = none) (h2 : 11 ∉ w.freed) (h3 : w.cons 2 = none) =>
    (show FOwn.Legal w (.create 11 [(2, true)]) from ⟨h1, h2, by simpa using h3, by simp⟩)
  obtain ⟨w', h1, h2, _⟩ := library_add_new r3 (c := 1) (l := [10]) rfl (hl _ rfl (by simp [FOwn.putC, FOwn.putO]) rfl)
  exact ⟨_, w', r3, rfl, hl _ rfl (by simp [FOwn.putC, FOwn.putO]) rfl, h1, h2⟩

/-! ## C54: search -/

/-- **C54** (what is found). An entity that is found has the id, has the class of the library, and belongs to it. -/
theorem find_sound {kids : Nat → List Nat} {cls : Nat → Nat} {want : Nat} {id : List Ch} {n : Nat} {d d' : Doc} {entities : List Nat} {x : Nat}
    (h : findDaeId kids cls want id n d entities = some (d', some x)) : Belongs kids entities x ∧ cls x = want ∧ Holds d' x id := by
  obtain ⟨e, he, d1, h1, ha⟩ := findFirst_some h
  obtain ⟨h2, h3⟩ := findIn_some h1
  exact ⟨⟨e, he, h2⟩, by simpa using ha, h3⟩

/-- **C54** (when nothing is found). If nothing is found, and the library has only entities of its class, every entity of the library has another id. -/
theorem find_none {kids : Nat → List Nat} {cls : Nat → Nat} {want : Nat} {id : List Ch} {n : Nat} {d d' : Doc} {entities : List Nat}
    (hc : ∀ y, Belongs kids entities y → cls y = want) (h : findDaeId kids cls want id n d entities = some (d', none)) :
    ∀ y, Belongs kids entities y → ∃ s, Holds d' y s ∧ s ≠ id := by
  have := findFirst_none (findIn_grows n) (Others kids id) (fun _ _ _ => others_grows kids id) (xs := entities) (accept := fun y => cls y = want)
    (fun e he d d' y hy => by simpa using hc y ⟨e, he, (findIn_some hy).1⟩) (fun _ _ _ _ => findIn_none) h
  rintro y ⟨e, he, hy⟩
  exact this e he y hy

/-- **C54** (exactness). If all entities of the library have been given ids, the search ends and changes nothing, and it finds exactly the entity with
the id. -/
theorem find_exact {kids : Nat → List Nat} (hk : Ranked kids) {cls : Nat → Nat} {want : Nat} (id : List Ch) {d : Doc} (hd : FIds.Reach d) {entities : List Nat}
    (hc : ∀ y, Belongs kids entities y → cls y = want ∧ ∃ s, Holds d y s) :
    ∃ N r, (∀ n ≥ N, findDaeId kids cls want id n d entities = some (d, r)) ∧ ∀ x, r = some x ↔ Belongs kids entities x ∧ Holds d x id := by
  obtain ⟨rk, hrk⟩ := hk
  obtain ⟨N, r, hN⟩ := findFirst_held (accept := fun y => cls y = want) (f := findIn kids id) (d := d) (xs := entities)
    (fun e he => findIn_held (rk := rk) (rk e) e (le_refl _) fun y hy => ⟨(hc y ⟨e, he, hy⟩).2, hrk y⟩)
  refine ⟨N, r, hN, fun x => ?_⟩
  constructor
  · rintro rfl
    obtain ⟨h1, _, h2⟩ := find_sound (hN N (le_refl _))
    exact ⟨h1, h2⟩
  · rintro ⟨hb, hx⟩
    cases r with
    | none =>
      obtain ⟨s, hs, hne⟩ := find_none (fun y hy => (hc y hy).1) (hN N (le_refl _)) x hb
      rw [Holds] at hs hx
      rw [hs] at hx
      simp only [Option.some.injEq, FIds.Obj.mk.injEq, and_true] at hx
      exact absurd hx hne
    | some y =>
      obtain ⟨_, _, h2⟩ := find_sound (hN N (le_refl _))
      by_contra hne
      exact FIds.ids_unique_partial hd h2 hx (by rintro rfl; exact hne rfl) rfl

/-- **C54** (`FindEntity`). The same over all libraries of the document. -/
theorem find_entity_exact {kids : Nat → List Nat} (hk : Ranked kids) {cls : Nat → Nat} (id : List Ch) {d : Doc} (hd : FIds.Reach d) :
    ∀ {libs : List (Nat × List Nat)}, (∀ l ∈ libs, ∀ y, Belongs kids l.2 y → cls y = l.1 ∧ ∃ s, Holds d y s) →
    ∃ N r, (∀ n ≥ N, findEntity kids cls id n d libs = some (d, r)) ∧ ∀ x, r = some x ↔ (∃ l ∈ libs, Belongs kids l.2 x) ∧ Holds d x id := by
  intro libs
  induction libs with
  | nil => intro _; exact ⟨0, none, fun _ _ => rfl, by simp⟩
  | cons l ls ih =>
    intro hc
    obtain ⟨N, r, hN, hr⟩ := find_exact hk (cls := cls) (want := l.1) id hd (entities := l.2) (hc l (by simp))
    obtain ⟨M, q, hM, hq⟩ := ih fun l hl => hc l (by simp [hl])
    cases r with
    | some y =>
      refine ⟨N, some y, fun n hn => by rw [findEntity, hN n hn]; rfl, fun x => ?_⟩
      obtain ⟨h1, h2⟩ := (hr y).1 rfl
      constructor
      · intro e
        obtain rfl := Option.some.inj e
        exact ⟨⟨l, by simp, h1⟩, h2⟩
      · rintro ⟨_, hx⟩
        by_contra hne
        exact FIds.ids_unique_partial hd h2 hx (by rintro rfl; exact hne rfl) rfl
    | none =>
      refine ⟨max N M, q, fun n hn => ?_, fun x => ?_⟩
      · rw [findEntity, hN n (by omega), Option.bind_some]
        exact hM n (by omega)
      · rw [hq]
        constructor
        · rintro ⟨⟨m, hm, h⟩, hx⟩
          exact ⟨⟨m, by simp [hm], h⟩, hx⟩
        · rintro ⟨⟨m, hm, h⟩, hx⟩
          rcases List.mem_cons.1 hm with rfl | hm
          · exact absurd ((hr x).2 ⟨h, hx⟩) (by simp)
          · exact ⟨⟨m, hm, h⟩, hx⟩

/-- The scene graphs of a program are `Ranked`: the search through the visual scenes always ends. -/
theorem scene_ranked {w : FScene.World} (h : FScene.Reach w) : Ranked (sceneKids w) := by
  obtain ⟨rk, hi, _⟩ := FScene.reach_good h
  refine ⟨rk, fun y z hz => hi.rank y z ?_⟩
  cases hy : w.nodes y with
  | none => simp [sceneKids, hy] at hz
  | some a => exact ⟨a, hy, by simpa [sceneKids, hy] using hz⟩

/-- A document with the objects "a" and "a1". -/
def sampleDoc : Doc :=
  (((getDaeId (FIds.create (FIds.create ⟨FTree.Map.empty, []⟩ [97]) [97]) 0).bind fun r => getDaeId r.1 1).map Prod.fst).getD ⟨FTree.Map.empty, []⟩

/-- The document is reachable, both objects have ids, and object 1, a child of object 0, is found in the library that has object 0. -/
example : FIds.Reach sampleDoc ∧ (∀ y, Belongs (fun x => if x = 0 then [1] else []) [0] y → 7 = 7 ∧ ∃ s, Holds sampleDoc y s) ∧
    (findDaeId (fun x => if x = 0 then [1] else []) (fun _ => 7) 7 [97, 49] 5 sampleDoc [0]).map Prod.snd = some (some 1) := by
  refine ⟨?_, ?_, by decide +kernel⟩
  · have e1 : (getDaeId (FIds.create (FIds.create ⟨FTree.Map.empty, []⟩ [97]) [97]) 0).isSome := by decide +kernel
    obtain ⟨⟨d1, s1⟩, e1⟩ := Option.isSome_iff_exists.mp e1
    have e2 : ((getDaeId (FIds.create (FIds.create ⟨FTree.Map.empty, []⟩ [97]) [97]) 0).bind fun r => getDaeId r.1 1).isSome := by decide +kernel
    have o0 : ((getDaeId (FIds.create (FIds.create ⟨FTree.Map.empty, []⟩ [97]) [97]) 0).map fun r => r.1.objs) = some [some ⟨[97], true⟩, some ⟨[97], false⟩] := by
      decide +kernel
    rw [e1, Option.bind_some] at e2
    rw [e1, Option.map_some, Option.some.injEq] at o0
    have o0 : d1.objs = _ := o0
    obtain ⟨⟨d2, s2⟩, e2⟩ := Option.isSome_iff_exists.mp e2
    have hd : sampleDoc = d2 := by
      rw [sampleDoc, e1, Option.bind_some, e2]
      rfl
    have hcalm : FIds.Calm (FIds.create (FIds.create ⟨FTree.Map.empty, []⟩ [97]) [97]) := by
      intro i s h
      match i, h with
      | 0, h => simp [Holds, Doc.obj, FIds.create] at h
      | 1, h => simp [Holds, Doc.obj, FIds.create] at h
      | i + 2, h => simp [Holds, Doc.obj, FIds.create] at h
    have hcalm1 : FIds.Calm d1 := by
      intro i s h
      match i, h with
      | 0, h =>
        simp [Holds, Doc.obj, o0] at h
        subst h
        decide +kernel
      | 1, h => simp [Holds, Doc.obj, o0] at h
      | i + 2, h => simp [Holds, Doc.obj, o0] at h
    rw [hd]
    exact .get 1 (.get 0 (.create _ (.create _ .empty)) hcalm e1) hcalm1 e2
  · rintro y ⟨e, he, hy⟩
    refine ⟨rfl, ?_⟩
    obtain rfl := List.mem_singleton.1 he
    have h01 : y = 0 ∨ y = 1 := by
      induction hy with
      | refl => exact .inl rfl
      | tail _ h ih =>
        rcases ih with rfl | rfl
        · exact .inr (by simpa using h)
        · simp at h
    rcases h01 with rfl | rfl
    · exact ⟨[97], (by decide +kernel : sampleDoc.obj 0 = _)⟩
    · exact ⟨[97, 49], (by decide +kernel : sampleDoc.obj 1 = _)⟩

/-! ## C82: sub ids -/

/-- **C82, partial.** `SetSubId` with a text ends and changes the sub id of this node only: to the first candidate that no ancestor and no descendant
has as its sub id, or, if the first 513 candidates are all taken, to the next one. -/
theorem sub_id_partial {w : FScene.World} (hr : FScene.Reach w) (sub : Nat → List Ch) {x : Nat} (hx : (w.nodes x).isSome) {id : List Ch} (hid : id ≠ []) (h0 : 0 ∉ id) :
    ∃ k ≤ 513, (∀ j < k, ∃ y, Related w x y ∧ sub y = cand id j) ∧ (k < 513 → ∀ y, Related w x y → sub y ≠ cand id k) ∧
      ∃ N, ∀ n ≥ N, setSubId n w sub x id = some (Function.update sub x (cand id k)) := by
  obtain ⟨k, hk, h1, h2, h3⟩ := set_ok hr sub hx hid h0
  exact ⟨k, hk, h1, fun h y hy e => h2 h ⟨y, hy, e⟩, h3⟩

/-- **C82** (unique). If at most 512 of the ancestors and descendants have a sub id, none of them has the new one. -/
theorem sub_id_unique_partial {w : FScene.World} (hr : FScene.Reach w) (sub : Nat → List Ch) {x : Nat} (hx : (w.nodes x).isSome) {id : List Ch} (hid : id ≠ [])
    (h0 : 0 ∉ id) (L : List Nat) (hL : ∀ y, Related w x y → sub y ≠ [] → y ∈ L) (hlen : L.length ≤ 512) :
    ∃ t ≠ [], (∃ N, ∀ n ≥ N, setSubId n w sub x id = some (Function.update sub x t)) ∧ ∀ y, Related w x y → sub y ≠ t := by
  obtain ⟨k, hk, h1, h2, h3⟩ := sub_id_partial hr sub hx hid h0
  refine ⟨cand id k, cand_ne_nil id hid k, h3, h2 ?_⟩
  by_contra hn
  obtain rfl : k = 513 := by omega
  choose f hf using h1
  have hmem : ∀ j : Fin 513, f j j.2 ∈ L.toFinset := by
    intro j
    rw [List.mem_toFinset]
    refine hL _ (hf j j.2).1 ?_
    rw [(hf j j.2).2]
    exact cand_ne_nil id hid j
  have hinj : Function.Injective fun j : Fin 513 => (⟨f j j.2, hmem j⟩ : L.toFinset) := by
    intro a b hab
    have hab : f a a.2 = f b b.2 := congrArg Subtype.val hab
    have := (hf a a.2).2
    rw [hab, (hf b b.2).2] at this
    exact Fin.ext (cand_inj id this).symm
  have := Fintype.card_le_of_injective _ hinj
  rw [Fintype.card_fin, Fintype.card_coe] at this
  have := this.trans (List.toFinset_card_le L)
  omega

/-- **C82** (valid). If the text is a valid sub id of at most 500 characters, so is the new sub id. -/
theorem sub_id_valid_partial {id : List Ch} (hid : id ≠ []) (hv : FXml.ValidId false id) (hl : id.length ≤ 500) {w : FScene.World} (hr : FScene.Reach w)
    (sub : Nat → List Ch) {x : Nat} (hx : (w.nodes x).isSome) (h0 : 0 ∉ id) :
    ∃ t ≠ [], (∃ N, ∀ n ≥ N, setSubId n w sub x id = some (Function.update sub x t)) ∧ FXml.ValidId false t := by
  obtain ⟨k, hk, h1, h2, h3⟩ := sub_id_partial hr sub hx hid h0
  refine ⟨cand id k, cand_ne_nil id hid k, h3, ?_⟩
  cases k with
  | zero => exact (FXml.clean_valid false id).1
  | succ k =>
    have hdig : ∀ k : Fin 513, (∀ c ∈ FBld.decimal k.val, FXml.nameChar false c = true) ∧ (FBld.decimal k.val).length ≤ 3 := by decide +kernel
    obtain ⟨hd1, hd2⟩ := hdig ⟨k, by omega⟩
    rw [cand, ← FBld.decimal_eq_numeral]
    cases id with
    | nil => exact absurd rfl hid
    | cons c t =>
      obtain ⟨hs, hn, _⟩ := hv
      refine ⟨hs, ?_, ?_⟩
      · intro y hy
        have hy : y ∈ t ++ 95 :: FBld.decimal k := hy
        rw [List.mem_append, List.mem_cons] at hy
        rcases hy with hy | rfl | hy
        · exact hn y hy
        · decide
        · exact hd1 y hy
      · show (t ++ 95 :: FBld.decimal k).length < 512
        rw [List.length_append, List.length_cons]
        rw [List.length_cons] at hl
        simp only at hd2
        omega

/-- The candidates for "a b", and a valid one. -/
example : cand [97, 32, 98] 0 = [97, 95, 98] ∧ FXml.ValidId false (cand [97, 32, 98] 0) := ⟨by decide +kernel, by decide, by decide, by decide⟩

/-- **C82, violated** (the validity). The parent has the sub id "a_b"; the child is given the text "a b", and its sub id is then "a b_0", which is not valid. -/
theorem sub_id_valid_violated : ∃ w sub sub', FScene.Reach w ∧ SubReach w sub ∧ FScene.Child w 1 2 ∧ (∃ N, ∀ n ≥ N, setSubId n w sub 2 [97, 32, 98] = some sub') ∧
    sub 1 = [97, 95, 98] ∧ sub' 2 = [97, 32, 98, 95, 48] ∧ ¬ FXml.ValidId false (sub' 2) := by
  obtain ⟨w, hr, h1, h2, _⟩ := FScene.sample_reach
  have hc : FScene.Child w 1 2 := ⟨_, h1, by simp⟩
  have hrel : Related w 2 1 := .inl (.single hc)
  have a1 : (w.nodes 1).isSome := by simp [h1]
  have a2 : (w.nodes 2).isSome := by simp [h2]
  obtain ⟨k, _, hk1, _, hk3⟩ := sub_id_partial hr (fun _ => []) a1 (id := [97, 95, 98]) (by simp) (by simp)
  have : k = 0 := by
    by_contra hk
    obtain ⟨y, _, hy⟩ := hk1 0 (by omega)
    exact cand_ne_nil [97, 95, 98] (by simp) 0 hy.symm
  subst this
  have hc0 : cand [97, 95, 98] 0 = [97, 95, 98] := by decide +kernel
  rw [hc0] at hk3
  have hs := SubReach.set .start a1 (by simp) hk3
  obtain ⟨m, hm, hm1, hm2, hm3⟩ := sub_id_partial hr (Function.update (fun _ => []) 1 [97, 95, 98]) a2 (id := [97, 32, 98]) (by simp) (by simp)
  have hd0 : cand [97, 32, 98] 0 = [97, 95, 98] := by decide +kernel
  have hd1 : cand [97, 32, 98] 1 = [97, 32, 98, 95, 48] := by
    simp only [cand, ← FBld.decimal_eq_numeral]
    decide +kernel
  have : m = 1 := by
    rcases Nat.lt_trichotomy m 1 with h | h | h
    · obtain rfl : m = 0 := by omega
      exact absurd (by rw [Function.update_self, hd0]) (hm2 (by omega) 1 hrel)
    · exact h
    · obtain ⟨y, _, hy⟩ := hm1 1 h
      rw [hd1] at hy
      by_cases e : y = 1
      · subst e
        rw [Function.update_self] at hy
        simp at hy
      · rw [Function.update_of_ne e] at hy
        simp at hy
  subst this
  rw [hd1] at hm3
  refine ⟨w, _, _, hr, hs, hc, hm3, by rw [Function.update_self], by rw [Function.update_self], ?_⟩
  rw [Function.update_self]
  rintro ⟨_, h, _⟩
  exact absurd (h 32 (by simp)) (by decide)

/-- **C82, violated** (the uniqueness). A node with 514 children whose sub ids are "a", "a_0", ..., "a_512" is given the sub id "a_512", that of its last child. -/
theorem sub_id_unique_violated : ∃ w sub, FScene.Reach w ∧ SubReach w sub ∧ FScene.Child w 0 514 ∧ sub 514 ≠ [] ∧
    ∃ N, ∀ n ≥ N, setSubId n w sub 0 [97] = some (Function.update sub 0 (sub 514)) := by
  obtain ⟨w, hr, h0, hk, hn, _⟩ := star_reach 514
  obtain ⟨sub, hs, hsub⟩ := star_subs hr h0 hk hn 514 (le_refl _)
  have hchild : ∀ i, 1 ≤ i → i ≤ 514 → FScene.Child w 0 i := fun i h1 h2 => ⟨_, h0, by rw [List.mem_range'_1]; omega⟩
  obtain ⟨k, hk1, _, h2, h3⟩ := sub_id_partial hr sub (x := 0) (by simp [h0]) (id := [97]) (by simp) (by simp)
  have : k = 513 := by
    by_contra hne
    refine h2 (by omega) (k + 1) (.inr (.single (hchild _ (by omega) (by omega)))) ?_
    rw [hsub, if_pos (by omega), Nat.add_sub_cancel]
  subst this
  have e : sub 514 = cand [97] 513 := by rw [hsub, if_pos (by omega)]
  refine ⟨w, sub, hr, hs, hchild 514 (by omega) (le_refl _), by rw [e]; exact cand_ne_nil _ (by simp) _, ?_⟩
  rw [e]
  exact h3

end Verif.FLib
