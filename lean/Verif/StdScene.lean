import Verif.StdLemmas

/-! # Lemmas on the conversion of scenes and documents -/

namespace Verif.FStd

open Verif.Geo Verif.FXform

/-- Assets that say nothing do not matter. -/
theorem functors_silent (t : Axis) (u : ℝ) (lib : Option Asset) (l rest : List Asset) (h : ∀ a ∈ l, a.unit = none ∧ a.up = none) :
    assetFunctors t u (l ++ rest) lib = assetFunctors t u rest lib := by
  have hu : (l ++ rest ++ lib.toList).findSome? Asset.unit = (rest ++ lib.toList).findSome? Asset.unit := by
    rw [List.append_assoc, List.findSome?_append]
    rw [List.findSome?_eq_none_iff.mpr (fun a ha => (h a ha).1)]
    rfl
  have ha : (l ++ rest ++ lib.toList).findSome? Asset.up = (rest ++ lib.toList).findSome? Asset.up := by
    rw [List.append_assoc, List.findSome?_append]
    rw [List.findSome?_eq_none_iff.mpr (fun a ha => (h a ha).2)]
    rfl
  simp only [assetFunctors, hu, ha]

/-- The assets along the chain of first parents. -/
theorem nodeAssets_chain {w : FScene.World} (insts : Nat → List (Option Nat)) (asset : Nat → Option Asset) {l : List Nat} {x : Nat} (h : Chain w l x) :
    ∀ n ≥ l.length, nodeAssets (FIter.graphOf w insts).parent0 asset n x = some (l.reverse.flatMap fun y => (asset y).toList) := by
  induction h with
  | root ha hp =>
    intro n hn
    obtain ⟨m, rfl⟩ : ∃ m, n = m + 1 := ⟨n - 1, by simp at hn; omega⟩
    simp [nodeAssets, FIter.graphOf, ha, hp]
  | step ha hp _ ih =>
    intro n hn
    obtain ⟨m, rfl⟩ : ∃ m, n = m + 1 := ⟨n - 1, by simp at hn; omega⟩
    simp only [List.length_append, List.length_singleton] at hn
    have := ih m (by omega)
    have hf : ∀ {z v q qs}, w.nodes z = some v → v.parents = q :: qs → (FIter.graphOf w insts).parent0 z = some q := by
      intro z v q qs h1 h2
      simp [FIter.graphOf, h1, h2]
    rw [nodeAssets, hf ha hp]
    simp only [this, Option.map_some]
    simp

/-- Everything above a node of a scene is in the scene. -/
theorem chain_below {w : FScene.World} {insts : Nat → List (Option Nat)} {r x : Nat} {a : FScene.Node} (hr : w.nodes r = some a) (hp : a.parents = [])
    (hb : FIter.Below (FIter.kids (FIter.graphOf w insts) true) r x) : ∀ {l}, Chain w l x → ∀ y ∈ l, FIter.Below (FIter.kids (FIter.graphOf w insts) true) r y := by
  induction hb with
  | refl =>
    intro l hl
    cases hl with
    | root _ _ => intro y hy; rw [List.mem_singleton] at hy; subst hy; exact .refl
    | step ha' hp' _ =>
      rw [hr] at ha'
      obtain rfl := Option.some.inj ha'
      rw [hp] at hp'
      cases hp'
  | tail hrp hpx ih =>
    intro l hl y hy
    rename_i p z
    have hz : (FIter.graphOf w insts).parent0 z = some p := by
      simp only [FIter.kids, if_true, List.mem_filter, decide_eq_true_eq] at hpx
      exact hpx.2
    cases hl with
    | root ha hp' => simp [FIter.graphOf, ha, hp'] at hz
    | step ha hp' hc =>
      simp [FIter.graphOf, ha, hp'] at hz
      subst hz
      rcases List.mem_append.mp hy with hy | hy
      · exact ih hc y hy
      · rw [List.mem_singleton] at hy; subst hy; exact hrp.tail hpx

/-- Nodes below two roots: the roots are the same. -/
theorem below_root {w : FScene.World} {insts : Nat → List (Option Nat)} {r r' x : Nat} {a a' : FScene.Node} (hr : w.nodes r = some a) (hp : a.parents = [])
    (hr' : w.nodes r' = some a') (hp' : a'.parents = []) (hb : FIter.Below (FIter.kids (FIter.graphOf w insts) true) r x) :
    FIter.Below (FIter.kids (FIter.graphOf w insts) true) r' x → r = r' := by
  have hk : ∀ {p z}, z ∈ FIter.kids (FIter.graphOf w insts) true p → (FIter.graphOf w insts).parent0 z = some p := by
    intro p z h
    simp only [FIter.kids, if_true, List.mem_filter, decide_eq_true_eq] at h
    exact h.2
  have h0 : ∀ {r a}, w.nodes r = some a → a.parents = [] → (FIter.graphOf w insts).parent0 r = none := by
    intro r a h h'
    simp [FIter.graphOf, h, h']
  induction hb with
  | refl =>
    intro h
    cases h with
    | refl => rfl
    | tail _ h => have := hk h; rw [h0 hr hp] at this; cases this
  | tail h1 h2 ih =>
    intro h
    cases h with
    | refl => have := hk h2; rw [h0 hr' hp'] at this; cases this
    | tail h3 h4 =>
      have e := (hk h2).symm.trans (hk h4)
      obtain rfl := Option.some.inj e
      exact ih h3

/-- The loop over the nodes, when the assets of all nodes are known to say nothing. -/
theorem convertNodes_silent (j : Job) (first : Nat → Option Nat) (n : Nat) (order : List Nat) (hd : order.Nodup) (s : Nodes)
    (hq : ∀ x, Silent (s.asset x)) (ht : ∀ asset : Nat → Option Asset, (∀ x, Silent (asset x)) → ∀ x ∈ order, ∃ l, nodeAssets first asset n x = some l ∧ ∀ a ∈ l, a.unit = none ∧ a.up = none) :
    ∃ s', convertNodes j first n order s = some s' ∧ (∀ x, Silent (s'.asset x)) ∧
      ∀ x, s'.transforms x = if x ∈ order then convertTransforms j.conv (s.transforms x) else s.transforms x := by
  induction order generalizing s with
  | nil => exact ⟨s, rfl, hq, fun x => by simp⟩
  | cons y ys ih =>
    obtain ⟨l, hl, hs⟩ := ht s.asset hq y List.mem_cons_self
    obtain ⟨hy, hys⟩ := List.nodup_cons.mp hd
    have hc := functors_silent j.target j.unit j.library l [j.doc] hs
    obtain ⟨s', h1, h2, h3⟩ := ih hys ⟨Function.update s.transforms y (convertTransforms j.conv (s.transforms y)), Function.update s.asset y (resetAsset (s.asset y))⟩
      (by
        intro x b hb
        by_cases e : x = y
        · subst e
          simp only [Function.update_self, resetAsset] at hb
          obtain ⟨_, _, rfl⟩ := Option.map_eq_some_iff.mp hb
          exact ⟨rfl, rfl⟩
        · simp only [Function.update_of_ne e] at hb
          exact hq x b hb)
      (fun asset ha x hx => ht asset ha x (List.mem_cons_of_mem _ hx))
    refine ⟨s', ?_, h2, ?_⟩
    · simp only [convertNodes, convertNode, hl, Option.bind_some, hc]
      exact h1
    · intro x
      rw [h3 x]
      by_cases e : x = y
      · subst e
        simp [hy]
      · simp [e]

theorem convertNodes_assets (j : Job) (first : Nat → Option Nat) (n : Nat) (order : List Nat) (hd : order.Nodup) (s s' : Nodes)
    (h : convertNodes j first n order s = some s') : s'.asset = fun x => if x ∈ order then resetAsset (s.asset x) else s.asset x := by
  induction order generalizing s with
  | nil =>
    obtain rfl : s = s' := by simpa [convertNodes] using h
    simp
  | cons y ys ih =>
    obtain ⟨hy, hd⟩ := List.nodup_cons.mp hd
    rw [convertNodes] at h
    obtain ⟨s1, h1, h2⟩ := Option.bind_eq_some_iff.mp h
    rw [convertNode] at h1
    obtain ⟨l, _, h1⟩ := Option.bind_eq_some_iff.mp h1
    obtain rfl := Option.some.inj h1
    rw [ih hd _ h2]
    funext x
    by_cases hx : x = y
    · subst hx; simp [hy]
    · simp [Function.update_of_ne hx, hx]

theorem mapM_all {α β : Type} {f : α → Option β} {l : List α} {g : α → β} (h : ∀ x ∈ l, f x = some (g x)) : l.mapM f = some (l.map g) := by
  induction l with
  | nil => rfl
  | cons x xs ih => simp [h x List.mem_cons_self, ih fun y hy => h y (List.mem_cons_of_mem _ hy)]

/-- The nodes visited: those of the scenes, each once. -/
theorem visitOrder_spec {w : FScene.World} (hw : FScene.Reach w) (insts : Nat → List (Option Nat)) {scenes : List Nat} (hs : Scenes w scenes) :
    ∃ order, order.Nodup ∧ (∀ x, x ∈ order ↔ InScene w insts scenes x) ∧ ∃ N, ∀ n ≥ N, visitOrder n (FIter.graphOf w insts) scenes = some order := by
  have key : ∀ l : List Nat, l.Nodup → (∀ r ∈ l, ∃ a, w.nodes r = some a ∧ a.parents = []) →
      ∃ order : List Nat, order.Nodup ∧ (∀ x, x ∈ order ↔ InScene w insts l x) ∧ ∃ N, ∀ n ≥ N,
        (l.mapM fun r => FIter.depthFirst n (FIter.graphOf w insts) false true r).map List.flatten = some order := by
    intro l
    induction l with
    | nil => intro _ _; exact ⟨[], List.nodup_nil, fun x => by simp [InScene], 0, fun n _ => rfl⟩
    | cons r rs ih =>
      intro hd hr
      obtain ⟨hd1, hd2⟩ := List.nodup_cons.mp hd
      obtain ⟨o, ho1, ho2, N, hN⟩ := ih hd2 fun r' h => hr r' (List.mem_cons_of_mem _ h)
      obtain ⟨D, hD⟩ := FIter.scene_traversal w hw insts r
      obtain ⟨M, hM⟩ := hD D le_rfl
      have hmem : ∀ x, x ∈ FIter.preOrder (FIter.kids (FIter.graphOf w insts) true) D r ↔ FIter.Below (FIter.kids (FIter.graphOf w insts) true) r x := by
        intro x
        obtain ⟨_, _, _, _, _, _, h⟩ := hM M le_rfl
        exact (h x).2.2
      have hnd : (FIter.preOrder (FIter.kids (FIter.graphOf w insts) true) D r).Nodup := by
        obtain ⟨_, _, _, _, _, h, _⟩ := hM M le_rfl
        exact h
      refine ⟨FIter.preOrder (FIter.kids (FIter.graphOf w insts) true) D r ++ o, ?_, ?_, N + M, ?_⟩
      · rw [List.nodup_append]
        refine ⟨hnd, ho1, ?_⟩
        rintro x hx y hy rfl
        obtain ⟨r', hr', hb⟩ := (ho2 x).mp hy
        obtain ⟨a, ha, hp⟩ := hr r List.mem_cons_self
        obtain ⟨a', ha', hp'⟩ := hr r' (List.mem_cons_of_mem _ hr')
        have := below_root ha hp ha' hp' ((hmem x).mp hx) hb
        subst this
        exact hd1 hr'
      · intro x
        rw [List.mem_append, hmem, ho2]
        constructor
        · rintro (h | ⟨r', h1, h2⟩)
          · exact ⟨r, List.mem_cons_self, h⟩
          · exact ⟨r', List.mem_cons_of_mem _ h1, h2⟩
        · rintro ⟨r', h1, h2⟩
          rcases List.mem_cons.mp h1 with rfl | h1
          · exact Or.inl h2
          · exact Or.inr ⟨r', h1, h2⟩
      · intro n hn
        obtain ⟨_, _, h, _⟩ := hM n (by omega)
        have h' := hN n (by omega)
        obtain ⟨ls, e1, e2⟩ := Option.map_eq_some_iff.mp h'
        subst e2
        simp [h, e1]
  obtain ⟨o, h1, h2, h3⟩ := key scenes.reverse (List.nodup_reverse.mpr hs.1) (fun r hr => hs.2 r (List.mem_reverse.mp hr))
  refine ⟨o, h1, fun x => (h2 x).trans ?_, h3⟩
  simp [InScene]

/-- In reachable scene graphs every live node has its chain of first parents. -/
theorem chain_exists {w : FScene.World} (hw : FScene.Reach w) {x : Nat} (hx : (w.nodes x).isSome) : ∃ l, Chain w l x := by
  obtain ⟨_, l, h, _⟩ := world_ends (FScene.reach_good hw) (fun _ => []) x hx
  exact ⟨l, h⟩

/-- The nodes of a scene are alive. -/
theorem inScene_alive {w : FScene.World} {insts : Nat → List (Option Nat)} {scenes : List Nat} (hs : Scenes w scenes) {x : Nat}
    (h : InScene w insts scenes x) : (w.nodes x).isSome := by
  obtain ⟨r, hr, hb⟩ := h
  obtain ⟨a, ha, _⟩ := hs.2 r hr
  cases hb with
  | refl => simp [ha]
  | tail _ h =>
    simp only [FIter.kids, if_true, List.mem_filter, FIter.graphOf] at h
    cases hz : w.nodes x with
    | none => simp [hz] at h
    | some _ => rfl

end Verif.FStd
