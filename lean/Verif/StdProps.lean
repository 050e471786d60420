import Verif.StdPivot

/-! # Change of the up-axis and of the length unit: theorems (C121-C125) -/

namespace Verif.FStd

open Verif.Geo Verif.FXform

/-! ## C121: the turn, the factor and the wanted values -/

/-- C121: the turn of the coordinates is a rotation, and turning back undoes it, for all pairs of axes. -/
theorem turn_rotation (target current : Axis) (k k' : ℝ) (p : V3 ℝ) :
    IsRotation (⟨prepare target current, k⟩ : Conv).turn ∧ (⟨prepare current target, k'⟩ : Conv).turn ((⟨prepare target current, k⟩ : Conv).turn p) = p := by
  refine ⟨turn_isRotation _, ?_⟩
  cases target <;> cases current <;> simp [prepare, Conv.turn, Fn.apply]

/-- C121: the turn takes the current up-axis to the wanted one. Missing: from X to Z and back. -/
theorem up_axis_partial (target current : Axis) (k : ℝ) (ht : target ≠ .unknown) (hc : current ≠ .unknown)
    (h : ¬ (target = .x ∧ current = .z) ∧ ¬ (target = .z ∧ current = .x)) :
    (⟨prepare target current, k⟩ : Conv).turn current.vector = target.vector := by
  cases target <;> cases current <;> simp_all [prepare, Conv.turn, Fn.apply, Axis.vector]

example : (⟨prepare .y .z, 1⟩ : Conv).turn ⟨0, 0, 1⟩ = ⟨0, 1, 0⟩ := up_axis_partial .y .z 1 (by decide) (by decide) (by decide)

/-- C121: from Z to X and from X to Z, the up-axis becomes Y. -/
theorem up_axis_violated (k : ℝ) :
    (⟨prepare .x .z, k⟩ : Conv).turn Axis.z.vector = Axis.y.vector ∧ (⟨prepare .z .x, k⟩ : Conv).turn Axis.x.vector = Axis.y.vector ∧
      Axis.y.vector ≠ Axis.x.vector ∧ Axis.y.vector ≠ Axis.z.vector := by
  simp [prepare, Conv.turn, Fn.apply, Axis.vector]

/-- C121: a length of `x` of the current units is `x * factor` of the wanted ones: the same number of meters. -/
theorem unit_factor {current target : ℝ} (hc : 0 < current) (ht : 0 < target) (x : ℝ) : x * unitFactor current target * target = x * current := by
  rw [unitFactor, if_neg (not_le.mpr hc)]
  field_simp

example : unitFactor 1 (1 / 100) = 100 := by norm_num [unitFactor]

/-- C121: the wanted values are the given ones; without them, those of the document; without these, one meter and Y. Missing: units below 0.0001. -/
theorem wanted_partial (unit : ℝ) (up : V3 ℝ) (doc : Asset) :
    (1 / 10000 ≤ unit → wantedUnit unit doc = unit) ∧ (unit ≤ 0 → wantedUnit unit doc = doc.unit.getD 1) ∧
      (¬ Near up ⟨0, 0, 0⟩ → wantedAxis up doc = up) ∧ wantedAxis ⟨0, 0, 0⟩ doc = doc.up.getD ⟨0, 1, 0⟩ := by
  refine ⟨fun h => ?_, fun h => ?_, fun h => ?_, ?_⟩
  · rw [wantedUnit, if_neg]
    rw [Bool.or_eq_true, equivalent_true, decide_eq_true_eq, tolerance, sub_zero, abs_of_nonneg (by linarith)]
    push Not
    exact ⟨h, by linarith⟩
  · rw [wantedUnit, if_pos]
    rw [Bool.or_eq_true, equivalent_true, decide_eq_true_eq, tolerance, sub_zero]
    rcases h.lt_or_eq with h | h
    · exact Or.inr h
    · exact Or.inl (by rw [h]; norm_num)
  · rw [wantedAxis, if_neg]
    rwa [equivalent3_near]
  · rw [wantedAxis, if_pos]
    rw [equivalent3_near]
    norm_num [Near]

/-- C121: a wanted unit of 0.05 millimeters is taken for none. -/
theorem wanted_violated : ∃ (unit : ℝ) (doc : Asset), 0 < unit ∧ wantedUnit unit doc ≠ unit := by
  refine ⟨1 / 20000, ⟨none, none⟩, by norm_num, ?_⟩
  rw [wantedUnit, if_pos]
  · norm_num
  · rw [Bool.or_eq_true, equivalent_true, tolerance]
    left
    rw [abs_lt]
    norm_num

/-! ## C122: transforms -/

/-- C122: every converted transform does in the new coordinates what the transform did in the old ones. Missing: look-ats, rotations around the zero
vector, and matrices that are not affine. -/
theorem transform_partial (c : Conv) {v : Value} (h : Plain v) : Carries c v.toMatrix (convertValue c v).toMatrix := carries_value c h

example : Plain (.rotation ⟨1, 2, 3⟩ 30) ∧ Plain (.skew ⟨1, 0, 0⟩ ⟨0, 1, 0⟩ 30) ∧ Plain (.scale ⟨1, 2, 0⟩) :=
  ⟨by norm_num [Plain, V3.lengthSquared], trivial, trivial⟩

/-- C122: so does the whole list of a node. Missing: factors that differ from 1 by less than 0.0001. -/
theorem transforms_partial {c : Conv} (hc : c.Clear) {ts : List Transform} (h : ∀ t ∈ ts, Plain t.value) : Carries c (toMatrix ts) (toMatrix (convertTransforms c ts)) := by
  rw [convertTransforms_eq hc]
  exact carries_all c h

example : (⟨.zToY, 100⟩ : Conv).Clear := Or.inr (by norm_num)

/-- C122: a converted look-at shows what is in front of the node, in its own directions, at the new place: the directions of the node are not turned. -/
theorem look_at_partial (c : Conv) (hk : 0 < c.factor) {p t u : V3 ℝ} (h : Looks p t u) (q : V3 ℝ) :
    (convertValue c (.lookAt p t u)).toMatrix.transformCoordinate (V3.smul c.factor q) = c.moved ((Value.lookAt p t u).toMatrix.transformCoordinate q) :=
  lookAt_moved c hk h q

theorem looks_forward : Looks ⟨0, 0, 0⟩ ⟨0, 0, -1⟩ ⟨0, 1, 0⟩ := by
  have hn : ((⟨0, 0, -1⟩ : V3 ℝ).sub ⟨0, 0, 0⟩).normalize = ⟨0, 0, -1⟩ := by simp [V3.sub, V3.normalize, V3.length]
  refine ⟨by simp [V3.sub, V3.lengthSquared], ?_, ?_, ?_⟩
  · rw [hn]; norm_num [Near]
  · rw [hn]; norm_num [Near, V3.neg]
  · rw [hn]; norm_num [V3.cross, V3.lengthSquared]

example : Looks ⟨0, 0, 0⟩ ⟨0, 0, -1⟩ ⟨0, 1, 0⟩ := looks_forward

/-- C122: a look-at is not carried like the other transforms, so what hangs below it is turned once more. -/
theorem look_at_violated : ∃ (c : Conv) (v : Value), c.factor = 1 ∧ c.fn = prepare .z .y ∧ ¬ Carries c v.toMatrix (convertValue c v).toMatrix := by
  refine ⟨⟨.zToY, 1⟩, .lookAt ⟨0, 0, 0⟩ ⟨0, 0, -1⟩ ⟨0, 1, 0⟩, rfl, rfl, fun h => ?_⟩
  have h1 := look_at_partial ⟨.zToY, 1⟩ one_pos looks_forward ⟨0, 0, 1⟩
  have h2 := h ⟨0, 1, 0⟩
  have e1 : (V3.smul (1 : ℝ) ⟨0, 0, 1⟩ : V3 ℝ) = ⟨0, 0, 1⟩ := by simp [V3.smul]
  have e2 : (⟨.zToY, 1⟩ : Conv).moved ⟨0, 1, 0⟩ = ⟨0, 0, 1⟩ := by simp [Conv.moved, Conv.turn, Fn.apply, V3.smul]
  rw [e2] at h2
  simp only [e1] at h1
  rw [h2] at h1
  have hid : (Value.lookAt ⟨0, 0, 0⟩ ⟨0, 0, -1⟩ ⟨0, 1, 0⟩).toMatrix = .identity := (add_transform [] .lookAt 0).2.2.1
  rw [hid, identity_point, identity_point] at h1
  simp [Conv.moved, Conv.turn, Fn.apply, V3.smul] at h1

/-! ## C123: scenes and documents -/

/-- C123: in every scene graph a program can build, and for every document with one asset, the change ends; the asset has the wanted values; every node
of the scenes is changed once, so that its world transform does in the new coordinates what it did in the old ones; the vertices of meshes and splines
are moved, normals and tangents are turned, clip planes are scaled, other data stay. Missing: assets of entities and libraries, look-ats, factors that
differ from 1 by less than 0.0001, strides below 3. -/
theorem document_partial {w : FScene.World} (hw : FScene.Reach w) (insts : Nat → List (Option Nat)) {scenes : List Nat} (hs : Scenes w scenes) (up : V3 ℝ) (unit : ℝ)
    {d : Doc} (hu : Uniform d) (hc : (d.conv up unit).Clear) (hp : ∀ x, InScene w insts scenes x → ∀ t ∈ d.nodes.transforms x, Plain t.value) (h0 : Strides d) :
    ∃ d', (∃ N, ∀ n ≥ N, standardize (FIter.graphOf w insts) scenes n up unit d = some d') ∧
      d'.asset = ⟨some (wantedUnit unit d.asset), some (wantedAxis up d.asset)⟩ ∧
      (∀ x, InScene w insts scenes x → ∃ m m', (∃ N, ∀ n ≥ N, worldTransform w d.nodes.transforms n x = some m) ∧
        (∃ N, ∀ n ≥ N, worldTransform w d'.nodes.transforms n x = some m') ∧ Carries (d.conv up unit) m m') ∧
      (∀ x, ¬ InScene w insts scenes x → d'.nodes.transforms x = d.nodes.transforms x) ∧
      List.Forall₂ (fun g g' => ShapeMoved (d.conv up unit) g.shape g'.shape) d.geoms d'.geoms ∧
      List.Forall₂ (fun s s' => (∀ b ∈ s.inverses, Invertible b) → Carries (d.conv up unit) s.bindShape s'.bindShape ∧
        List.Forall₂ (fun b b' => Carries (d.conv up unit) b b' ∧ b'.Affine) s.inverses s'.inverses) d.skins d'.skins ∧
      List.Forall₂ (fun k k' => k'.nearZ = k.nearZ * (d.conv up unit).factor ∧ k'.farZ = k.farZ * (d.conv up unit).factor) d.cameras d'.cameras := by
  obtain ⟨order, hnd, hmem, N1, hN1⟩ := visitOrder_spec hw insts hs
  -- the assets of the nodes
  have hlen : ∃ N2, ∀ x ∈ order, ∀ n ≥ N2, ∀ asset : Nat → Option Asset, (∀ x, Silent (asset x)) →
      ∃ l, nodeAssets (FIter.graphOf w insts).parent0 asset n x = some l ∧ ∀ a ∈ l, a.unit = none ∧ a.up = none := by
    have hall : ∀ x ∈ order, ∃ l, Chain w l x := fun x hx => chain_exists hw (inScene_alive hs ((hmem x).mp hx))
    clear hN1 hmem hnd
    induction order with
    | nil => exact ⟨0, fun x hx => nomatch hx⟩
    | cons y ys ih =>
      obtain ⟨N, hN⟩ := ih fun x hx => hall x (List.mem_cons_of_mem _ hx)
      obtain ⟨l, hl⟩ := hall y List.mem_cons_self
      refine ⟨max N l.length, fun x hx n hn asset ha => ?_⟩
      rcases List.mem_cons.mp hx with rfl | hx
      · refine ⟨_, nodeAssets_chain insts asset hl n (le_trans (le_max_right _ _) hn), fun a hm => ?_⟩
        obtain ⟨z, _, hz⟩ := List.mem_flatMap.mp hm
        rw [Option.mem_toList] at hz
        exact ha z a hz
      · exact hN x hx n (le_trans (le_max_left _ _) hn) asset ha
  obtain ⟨N2, hN2⟩ := hlen
  -- the nodes
  have hnodes : ∀ n ≥ max N1 N2, ∃ s', convertScene ⟨convertVector (wantedAxis up d.asset), wantedUnit unit d.asset, d.asset, d.sceneAsset⟩
      (FIter.graphOf w insts) n scenes d.nodes = some s' ∧
      ∀ x, s'.transforms x = if x ∈ order then convertTransforms (d.conv up unit) (d.nodes.transforms x) else d.nodes.transforms x := by
    intro n hn
    obtain ⟨s', h1, _, h3⟩ := convertNodes_silent ⟨convertVector (wantedAxis up d.asset), wantedUnit unit d.asset, d.asset, d.sceneAsset⟩
      (FIter.graphOf w insts).parent0 n order hnd d.nodes hu.nodes fun asset ha x hx => hN2 x hx n (le_trans (le_max_right _ _) hn) asset ha
    refine ⟨s', by rw [convertScene, hN1 n (le_trans (le_max_left _ _) hn)]; exact h1, ?_⟩
    have hj : Job.conv ⟨convertVector (wantedAxis up d.asset), wantedUnit unit d.asset, d.asset, d.sceneAsset⟩ = d.conv up unit := by
      rw [Job.conv, Doc.conv, hu.scene]
    rw [← hj]
    exact h3
  -- the geometries
  have hgeoms : ∃ gs, d.geoms.mapM (convertGeom (convertVector (wantedAxis up d.asset)) (wantedUnit unit d.asset) d.asset none) = some gs ∧
      List.Forall₂ (fun g g' => ShapeMoved (d.conv up unit) g.shape g'.shape) d.geoms gs := by
    have key : ∀ l : List Geom, (∀ g ∈ l, g.asset = none) → (∀ g ∈ l, ∀ l, g.shape = .mesh l → ∀ x ∈ l, x.2.1 ≠ 0) →
        ∃ gs, l.mapM (convertGeom (convertVector (wantedAxis up d.asset)) (wantedUnit unit d.asset) d.asset none) = some gs ∧
          List.Forall₂ (fun g g' => ShapeMoved (d.conv up unit) g.shape g'.shape) l gs := by
      intro l
      induction l with
      | nil => exact fun _ _ => ⟨[], rfl, .nil⟩
      | cons g l ih =>
        intro ha h0
        obtain ⟨gs, h1, h2⟩ := ih (fun g' hg => ha g' (List.mem_cons_of_mem _ hg)) fun g' hg => h0 g' (List.mem_cons_of_mem _ hg)
        obtain ⟨g', h3, _, h4⟩ := convertGeom_spec hc (ha g List.mem_cons_self) (h0 g List.mem_cons_self)
        exact ⟨g' :: gs, by simp [h1, h3], .cons h4 h2⟩
    exact key d.geoms hu.geoms h0
  obtain ⟨gs, hg1, hg2⟩ := hgeoms
  obtain ⟨s', hs1, hs2⟩ := hnodes _ le_rfl
  -- more fuel changes nothing
  have hext : ∀ n ≥ max N1 N2, convertScene ⟨convertVector (wantedAxis up d.asset), wantedUnit unit d.asset, d.asset, d.sceneAsset⟩
      (FIter.graphOf w insts) n scenes d.nodes = some ⟨s'.transforms, fun x => if x ∈ order then resetAsset (d.nodes.asset x) else d.nodes.asset x⟩ := by
    intro n hn
    obtain ⟨s2, h1, h2⟩ := hnodes n hn
    have ha : s2.asset = fun x => if x ∈ order then resetAsset (d.nodes.asset x) else d.nodes.asset x := by
      rw [convertScene, hN1 n (le_trans (le_max_left _ _) hn)] at h1
      exact convertNodes_assets _ _ _ _ hnd _ _ h1
    have ht : s2.transforms = s'.transforms := funext fun x => by rw [h2, hs2]
    rw [h1, ← ha, ← ht]
  refine ⟨(⟨⟨some (wantedUnit unit d.asset), some (wantedAxis up d.asset)⟩, d.sceneAsset, d.skinAsset, d.geomAsset, d.cameraAsset,
    ⟨s'.transforms, fun x => if x ∈ order then resetAsset (d.nodes.asset x) else d.nodes.asset x⟩,
    d.skins.map (convertSkin (convertVector (wantedAxis up d.asset)) (wantedUnit unit d.asset) d.asset none), gs,
    d.cameras.map (convertCamera (convertVector (wantedAxis up d.asset)) (wantedUnit unit d.asset) d.asset none)⟩ : Doc),
    ⟨max N1 N2, fun n hn => ?_⟩, rfl, fun x hx => ?_, fun x hx => ?_, hg2, ?_, ?_⟩
  · rw [standardize]
    simp only [hext n hn, Option.bind_some, hu.geom, hu.skin, hu.camera, hg1, Option.map_some]
  · obtain ⟨l, hl⟩ := chain_exists hw (inScene_alive hs hx)
    refine ⟨_, _, ⟨l.length, world_of_chain hl _⟩, ⟨l.length, world_of_chain hl _⟩, ?_⟩
    refine worlds_carry hs _ (fun y hy => ?_) hp hx hl
    change s'.transforms y = _
    rw [hs2, if_pos ((hmem y).mpr hy), convertTransforms_eq hc]
  · change s'.transforms x = _
    rw [hs2, if_neg fun h => hx ((hmem x).mp h)]
  · rw [List.forall₂_map_right_iff, List.forall₂_same]
    exact fun s hs hi => convertSkin_spec hc (hu.skins s hs) hi
  · rw [List.forall₂_map_right_iff, List.forall₂_same]
    intro k hk
    rw [convertCamera_spec hc (hu.cameras k hk)]
    exact ⟨rfl, rfl⟩

/-- A document: a mesh with one vertex, a node above another, both with a translation. -/
noncomputable def sampleDoc : Doc :=
  ⟨⟨some 1, some ⟨0, 1, 0⟩⟩, none, none, none, none,
    ⟨fun x => if x = 2 then [⟨[], .translation ⟨1, 2, 3⟩⟩] else [], fun _ => none⟩,
    [⟨none, .identity, [.identity]⟩], [⟨none, .mesh [(.position, 3, [1, 2, 3]), (.normal, 3, [0, 1, 0]), (.other, 2, [0, 1])]⟩], [⟨none, 1, 1000⟩]⟩

example : Uniform sampleDoc ∧ Strides sampleDoc ∧ (sampleDoc.conv ⟨0, 0, 1⟩ (1 / 100)).Clear ∧ (sampleDoc.conv ⟨0, 0, 1⟩ (1 / 100)).fn = .zToY := by
  have hu : wantedUnit (1 / 100) sampleDoc.asset = 1 / 100 := (wanted_partial (1 / 100) ⟨0, 0, 1⟩ _).1 (by norm_num)
  have ha : wantedAxis ⟨0, 0, 1⟩ sampleDoc.asset = ⟨0, 0, 1⟩ := (wanted_partial (1 / 100) ⟨0, 0, 1⟩ _).2.2.1 (by norm_num [Near])
  have hz : convertVector (⟨0, 0, 1⟩ : V3 ℝ) = .z := by norm_num [convertVector, equivalent3, equivalent, tolerance]
  have hy : convertVector (⟨0, 1, 0⟩ : V3 ℝ) = .y := by norm_num [convertVector, equivalent3, equivalent, tolerance]
  have e : sampleDoc.conv ⟨0, 0, 1⟩ (1 / 100) = ⟨prepare .z .y, unitFactor 1 (1 / 100)⟩ := by
    rw [Doc.conv, hu, ha, hz]
    simp [assetFunctors, sampleDoc, hy]
  refine ⟨⟨fun x b h => ?_, rfl, rfl, rfl, rfl, ?_, ?_, ?_⟩, ?_, ?_, by rw [e]; rfl⟩
  · cases h
  · simp [sampleDoc]
  · simp [sampleDoc]
  · simp [sampleDoc]
  · simp only [Strides, sampleDoc, List.mem_singleton, forall_eq, Shape.mesh.injEq, forall_eq']
    simp only [List.mem_cons, List.not_mem_nil, or_false]
    rintro _ (rfl | rfl | rfl) <;> decide
  · rw [e]; exact Or.inr (by norm_num [unitFactor])

/-- A reachable scene graph with one scene; the node 2 is in it. -/
example : ∃ w, FScene.Reach w ∧ Scenes w [1] ∧ InScene w (fun _ => []) [1] 2 := by
  obtain ⟨w, h, h1, h2, h3⟩ := FScene.sample_reach
  refine ⟨w, h, ⟨by simp, fun r hr => ?_⟩, 1, by simp, .tail .refl ?_⟩
  · rw [List.mem_singleton] at hr
    subst hr
    exact ⟨_, h1, rfl⟩
  · simp [FIter.kids, FIter.graphOf, h1, h2]

/-- C123: the second of two equal calls changes nothing. Missing: assets of libraries. -/
theorem second_call_partial {w : FScene.World} (hw : FScene.Reach w) (insts : Nat → List (Option Nat)) {scenes : List Nat} (hs : Scenes w scenes) (up : V3 ℝ) (unit : ℝ)
    {d : Doc} (h1 : d.sceneAsset = none) (h2 : d.skinAsset = none) (h3 : d.geomAsset = none) (h4 : d.cameraAsset = none) :
    ∃ N, ∀ n ≥ N, ∀ d', standardize (FIter.graphOf w insts) scenes n up unit d = some d' → standardize (FIter.graphOf w insts) scenes n up unit d' = some d' := by
  obtain ⟨order, hnd, hmem, N, hN⟩ := visitOrder_spec hw insts hs
  refine ⟨N, fun n hn d' h => ?_⟩
  rw [standardize] at h
  obtain ⟨nodes, hnodes, h⟩ := Option.bind_eq_some_iff.mp h
  obtain ⟨geoms, hgeoms, h⟩ := Option.map_eq_some_iff.mp h
  have hu : ∀ a, wantedUnit unit ⟨some (wantedUnit unit d.asset), a⟩ = wantedUnit unit d.asset := by
    intro a
    simp only [wantedUnit]
    split <;> rfl
  have ha : ∀ u, wantedAxis up ⟨u, some (wantedAxis up d.asset)⟩ = wantedAxis up d.asset := by
    intro u
    simp only [wantedAxis]
    split <;> rfl
  generalize hU : wantedUnit unit d.asset = u at *
  generalize hA : wantedAxis up d.asset = a at *
  rw [h1] at hnodes
  rw [h3] at hgeoms
  rw [convertScene, hN n hn, Option.bind_some] at hnodes
  have hassets := convertNodes_assets _ _ _ _ hnd _ _ hnodes
  have hall := convertNodes_defined hnodes
  subst h
  rw [standardize]
  simp only [hu, ha, h1, h2, h3, h4, List.map_map]
  have k1 : convertScene ⟨convertVector a, u, ⟨some u, some a⟩, none⟩ (FIter.graphOf w insts) n scenes nodes = some nodes := by
    rw [convertScene, hN n hn, Option.bind_some]
    refine convertNodes_idle _ _ _ _ _ fun x hx => ?_
    refine ⟨?_, ?_⟩
    · rw [hassets]
      simp only [hx, if_true]
      cases d.nodes.asset x <;> rfl
    · obtain ⟨l, hl⟩ := chain_exists hw (inScene_alive hs ((hmem x).mp hx))
      have hdef := nodeAssets_defined (hall x hx) nodes.asset
      obtain ⟨m, hm⟩ := Option.isSome_iff_exists.mp hdef
      have hm' := nodeAssets_mono hm (max n l.length) (le_max_left _ _)
      rw [nodeAssets_chain insts nodes.asset hl _ (le_max_right _ _)] at hm'
      obtain rfl := Option.some.inj hm'
      refine ⟨_, hm, ?_⟩
      have hsil : ∀ b ∈ l.reverse.flatMap fun y => (nodes.asset y).toList, b.unit = none ∧ b.up = none := by
        intro b hb
        obtain ⟨z, hz, hb⟩ := List.mem_flatMap.mp hb
        rw [Option.mem_toList, hassets] at hb
        have hzo : z ∈ order := by
          obtain ⟨r, hr, hrb⟩ := (hmem x).mp hx
          obtain ⟨e, he, hep⟩ := hs.2 r hr
          exact (hmem z).mpr ⟨r, hr, chain_below he hep hrb hl z (List.mem_reverse.mp hz)⟩
        simp only [hzo, if_true] at hb
        rw [resetAsset] at hb
        obtain ⟨_, _, rfl⟩ := Option.map_eq_some_iff.mp hb
        exact ⟨rfl, rfl⟩
      have := nothing_to_do (second_functors _ hsil u a true)
      rw [if_pos rfl] at this
      exact this
  have k2 : geoms.mapM (convertGeom (convertVector a) u ⟨some u, some a⟩ none) = some geoms := by
    have hr := mapM_resets hgeoms
    have := mapM_all (g := id) (f := convertGeom (convertVector a) u ⟨some u, some a⟩ none) (l := geoms) fun g hg => ?_
    · simpa using this
    · obtain ⟨o, ho⟩ := hr g hg
      have hc := idle_entity u a o
      rw [convertGeom, ho, if_neg (by rw [hc.1, hc.2]; decide), resetAsset_twice, ← ho]
      rfl
  rw [k1, Option.bind_some, k2, Option.map_some]
  congr 2
  · refine List.map_congr_left fun s _ => ?_
    have hc := idle_entity u a s.asset
    have ho : (convertSkin (convertVector a) u d.asset none s).asset = resetAsset s.asset := by
      rw [convertSkin]
      split <;> rfl
    simp only [Function.comp]
    generalize convertSkin (convertVector a) u d.asset none s = t at ho ⊢
    rw [convertSkin, ho, if_neg (by rw [hc.1, hc.2]; decide), resetAsset_twice, ← ho]
  · refine List.map_congr_left fun k _ => ?_
    have hc := idle_entity u a k.asset
    have ho : (convertCamera (convertVector a) u d.asset none k).asset = resetAsset k.asset := by
      rw [convertCamera]
      split <;> rfl
    simp only [Function.comp]
    generalize convertCamera (convertVector a) u d.asset none k = t at ho ⊢
    rw [convertCamera, ho, if_neg (by rw [hc.1]; decide), resetAsset_twice, ← ho]

/-- A document with one camera and nothing else. -/
noncomputable def cameraDoc (doc : Asset) (library : Option Asset) (k : Camera) : Doc := ⟨doc, none, none, none, library, ⟨fun _ => [], fun _ => none⟩, [], [], [k]⟩

theorem cameraDoc_standardize (G : FIter.Graph) (n : Nat) (up : V3 ℝ) (unit : ℝ) (doc : Asset) (library : Option Asset) (k : Camera) :
    standardize G [] n up unit (cameraDoc doc library k) = some (cameraDoc ⟨some (wantedUnit unit doc), some (wantedAxis up doc)⟩ library
      (convertCamera (convertVector (wantedAxis up doc)) (wantedUnit unit doc) doc library k)) := rfl

theorem wanted_centimeters (doc : Asset) : wantedUnit (1 / 100) doc = 1 / 100 := (wanted_partial (1 / 100) ⟨0, 0, 1⟩ doc).1 (by norm_num)

/-- C123: a second equal call changes the clip planes again, if the asset of the camera says nothing and that of the library has a unit. -/
theorem second_call_violated (G : FIter.Graph) (n : Nat) :
    ∃ d d' d'', standardize G [] n ⟨0, 1, 0⟩ (1 / 100) d = some d' ∧ standardize G [] n ⟨0, 1, 0⟩ (1 / 100) d' = some d'' ∧
      d.cameras.map Camera.nearZ = [1] ∧ d'.cameras.map Camera.nearZ = [100] ∧ d''.cameras.map Camera.nearZ = [10000] := by
  have key : ∀ t doc x y, convertCamera t (1 / 100) doc (some ⟨some 1, none⟩) ⟨some ⟨none, none⟩, x, y⟩ = ⟨some ⟨none, none⟩, x * 100, y * 100⟩ := by
    intro t doc x y
    have hf : (assetFunctors t (1 / 100) (entityAssets (some ⟨none, none⟩) doc) (some ⟨some 1, none⟩)).factor = 100 := by
      norm_num [assetFunctors, entityAssets, unitFactor]
    have hl : (assetFunctors t (1 / 100) (entityAssets (some ⟨none, none⟩) doc) (some ⟨some 1, none⟩)).hasLength = true := by
      rw [hasLength_iff, hf]; norm_num
    rw [convertCamera]
    simp only [hl, if_true, hf, resetAsset, Option.map_some]
  refine ⟨cameraDoc ⟨some (1 / 100), none⟩ (some ⟨some 1, none⟩) ⟨some ⟨none, none⟩, 1, 2⟩, _, _, cameraDoc_standardize G n _ _ _ _ _, cameraDoc_standardize G n _ _ _ _ _, rfl, ?_, ?_⟩
  · simp only [cameraDoc, wanted_centimeters, key]
    norm_num
  · simp only [cameraDoc, wanted_centimeters, key]
    norm_num

/-- C123: an entity whose asset has neither unit nor up-axis (one that names an author, say) is not changed, though the document is. -/
theorem own_asset_violated (G : FIter.Graph) (n : Nat) :
    ∃ d d', standardize G [] n ⟨0, 1, 0⟩ (1 / 100) d = some d' ∧ d.asset.unit = some 1 ∧ d'.asset.unit = some (1 / 100) ∧
      (∀ k ∈ d.cameras, Silent k.asset) ∧ d.cameras.map Camera.nearZ = [1] ∧ d'.cameras.map Camera.nearZ = [1] := by
  refine ⟨cameraDoc ⟨some 1, none⟩ none ⟨some ⟨none, none⟩, 1, 2⟩, _, cameraDoc_standardize G n _ _ _ _ _, rfl, ?_, ?_, rfl, ?_⟩
  · exact congrArg some (wanted_centimeters _)
  · intro k hk b hb
    simp only [cameraDoc, List.mem_singleton] at hk
    subst hk
    obtain rfl := Option.some.inj hb
    exact ⟨rfl, rfl⟩
  · have hl : ∀ t, (assetFunctors t (1 / 100) (entityAssets (some ⟨none, none⟩) ⟨some 1, none⟩) none).hasLength = false := by
      intro t
      rw [Bool.eq_false_iff, Ne, hasLength_iff]
      norm_num [assetFunctors, entityAssets, unitFactor]
    simp only [cameraDoc, wanted_centimeters, convertCamera, hl, Bool.false_eq_true, if_false]
    rfl

/-- C123: a document that says nothing keeps its numbers, but gets the wanted values as its unit and up-axis. -/
theorem unlabelled_violated (G : FIter.Graph) (n : Nat) :
    ∃ d d', standardize G [] n ⟨0, 1, 0⟩ (1 / 100) d = some d' ∧ d.asset.unit = none ∧ d'.asset.unit = some (1 / 100) ∧
      d.cameras.map Camera.nearZ = [1] ∧ d'.cameras.map Camera.nearZ = [1] := by
  refine ⟨cameraDoc ⟨none, none⟩ none ⟨none, 1, 2⟩, _, cameraDoc_standardize G n _ _ _ _ _, rfl, ?_, rfl, ?_⟩
  · exact congrArg some (wanted_centimeters _)
  · have hl : ∀ t, (assetFunctors t (1 / 100) (entityAssets none ⟨none, none⟩) none).hasLength = false := by
      intro t
      rw [Bool.eq_false_iff, Ne, hasLength_iff]
      norm_num [assetFunctors, entityAssets, unitFactor]
    simp only [cameraDoc, wanted_centimeters, convertCamera, hl, Bool.false_eq_true, if_false]
    rfl

/-- C123: the asset of a library gives way to that of the document, though it is nearer. -/
theorem library_asset_violated (G : FIter.Graph) (n : Nat) :
    ∃ d d', standardize G [] n ⟨0, 1, 0⟩ (1 / 100) d = some d' ∧ d.cameraAsset.bind Asset.unit = some 1 ∧ d'.asset.unit = some (1 / 100) ∧
      d.cameras.map Camera.nearZ = [1] ∧ d'.cameras.map Camera.nearZ = [1] := by
  refine ⟨cameraDoc ⟨some (1 / 100), none⟩ (some ⟨some 1, none⟩) ⟨none, 1, 2⟩, _, cameraDoc_standardize G n _ _ _ _ _, rfl, ?_, rfl, ?_⟩
  · exact congrArg some (wanted_centimeters _)
  · have hl : ∀ t, (assetFunctors t (1 / 100) (entityAssets none ⟨some (1 / 100), none⟩) (some ⟨some 1, none⟩)).hasLength = false := by
      intro t
      rw [Bool.eq_false_iff, Ne, hasLength_iff]
      norm_num [assetFunctors, entityAssets, unitFactor]
    simp only [cameraDoc, wanted_centimeters, convertCamera, hl, Bool.false_eq_true, if_false]
    rfl

/-- Node 1 is the scene, node 2 is its child. -/
def twoNodes : FIter.Graph where
  children x := if x = 1 then [2] else []
  insts _ := []
  parent0 x := if x = 2 then some 1 else none

/-- C123: a node below one that has a unit of its own is not changed with that unit: the asset of the parent has been emptied before. -/
theorem nested_asset_violated : ∃ (j : Job) (s s' : Nodes), convertScene j twoNodes 10 [1] s = some s' ∧
    (nodeAssets twoNodes.parent0 s.asset 10 2).map (fun l => (assetFunctors j.target j.unit (l ++ [j.doc]) j.library).factor) = some 100 ∧
    s.transforms 2 = [⟨[], .translation ⟨1, 0, 0⟩⟩] ∧ s'.transforms 2 = s.transforms 2 := by
  have hv : visitOrder 10 twoNodes [1] = some [1, 2] := by decide
  have hun : convertVector (⟨0, 0, 0⟩ : V3 ℝ) = .unknown := by
    simp [convertVector, equivalent3, equivalent, tolerance]
    norm_num
  have hno : ∀ l : List Asset, (∀ a ∈ l, a.unit = none ∧ a.up = none) → ∀ ts, convertTransforms (assetFunctors .y (1 / 100) (l ++ [⟨some (1 / 100), none⟩]) none) ts = ts := by
    intro l hl ts
    rw [functors_silent _ _ _ _ _ hl, convertTransforms, if_neg]
    rw [Bool.or_eq_true, not_or, hasLength_iff]
    refine ⟨by norm_num [assetFunctors, unitFactor], ?_⟩
    simp [Conv.hasAxis, assetFunctors, hun, prepare]
  refine ⟨⟨.y, 1 / 100, ⟨some (1 / 100), none⟩, none⟩,
    ⟨fun x => if x = 2 then [⟨[], .translation ⟨1, 0, 0⟩⟩] else [], fun x => if x = 1 then some ⟨some 1, none⟩ else none⟩,
    ⟨fun x => if x = 2 then [⟨[], .translation ⟨1, 0, 0⟩⟩] else [], fun x => if x = 1 then some ⟨none, none⟩ else none⟩, ?_, ?_, rfl, rfl⟩
  · rw [convertScene, hv]
    simp only [Option.bind_some, convertNodes, convertNode, nodeAssets, twoNodes]
    simp only [OfNat.one_ne_ofNat, if_false, if_true, Option.bind_some, Function.update_self, Option.map_some, resetAsset]
    rw [Option.some.injEq, Nodes.mk.injEq]
    constructor
    · funext x
      by_cases h2 : x = 2
      · subst h2
        simp only [Function.update_self, Function.update_of_ne (show (2 : Nat) ≠ 1 by decide), if_true]
        rw [hno]
        simp
      · by_cases h1 : x = 1
        · subst h1
          simp [convertTransforms]
        · simp [h1, h2]
    · funext x
      by_cases h2 : x = 2
      · subst h2; simp
      · by_cases h1 : x = 1
        · subst h1; simp
        · simp [h1, h2]
  · simp only [nodeAssets, twoNodes, OfNat.one_ne_ofNat, if_false, if_true, Option.map_some]
    norm_num [assetFunctors, unitFactor]

/-- C123: with a factor that is nearly 1 and a turn, translations are scaled, but vertices are not. -/
theorem small_factor_violated : ∃ c : Conv, c.factor = 20001 / 20000 ∧ convertTransforms c [⟨[], .translation ⟨1, 0, 0⟩⟩] = [⟨[], .translation ⟨20001 / 20000, 0, 0⟩⟩] ∧
    convertSource c .position 3 [1, 0, 0] = some [1, 0, 0] := by
  refine ⟨⟨.zToY, 20001 / 20000⟩, rfl, ?_, ?_⟩
  · simp [convertTransforms, Conv.hasAxis, convertValue, Conv.lengthen, Conv.turn, Fn.apply, V3.smul]
  · have hl : (⟨.zToY, 20001 / 20000⟩ : Conv).hasLength = false := by
      rw [Bool.eq_false_iff, Ne, hasLength_iff]
      norm_num
    rw [convertSource.eq_def]
    simp only [hl]
    simp [Conv.hasAxis, turnValues, Conv.turn, Fn.apply]

/-! ## C124: skins -/

/-- C124: a vertex of a converted skin is where the vertex of the skin was, in the new coordinates, whatever the weights are: the vertex, the bind-shape
matrix, the inverses of the bind-poses and the world transforms of the joints (weight, old and new world transform, inverse) fit together. Missing:
bind-poses that are not affine or whose determinant is tiny or huge. -/
theorem skin_partial (c : Conv) {shape : M44 ℝ} (hs : shape.Affine) {joints : List (ℝ × M44 ℝ × M44 ℝ × M44 ℝ)}
    (hj : ∀ j ∈ joints, Carries c j.2.1 j.2.2.1 ∧ Invertible j.2.2.2) (p : V3 ℝ) :
    skinned (convertMatrix c shape) (joints.map fun j => (j.1, j.2.2.1, convertBindPose c j.2.2.2)) (c.moved p) =
      c.moved (skinned shape (joints.map fun j => (j.1, j.2.1, j.2.2.2)) p) := by
  induction joints with
  | nil => simp only [List.map_nil, skinned, List.foldr_nil, moved_zero]
  | cons j js ih =>
    have ih := ih fun j hj' => hj j (List.mem_cons_of_mem _ hj')
    obtain ⟨h1, h2, h3, h4⟩ := hj j List.mem_cons_self
    obtain ⟨h5, h6⟩ := convertBindPose_spec c h2 h3 h4
    simp only [skinned, List.map_cons, List.foldr_cons] at ih ⊢
    rw [ih, moved_add, moved_smul]
    congr 2
    have ha : (j.2.2.2.mul shape).Affine := (transform_product hs ⟨0, 0, 0⟩).2.2.2.2 h2
    have ha' : ((convertBindPose c j.2.2.2).mul (convertMatrix c shape)).Affine := (transform_product (convertMatrix_affine c hs) ⟨0, 0, 0⟩).2.2.2.2 h6
    exact carries_mul h1 (carries_mul h5 (carries_matrix c shape) hs (convertMatrix_affine c hs)) ha ha' p

example : (M44.identity : M44 ℝ).Affine ∧ Invertible (M44.identity : M44 ℝ) := by
  have h : (M44.identity : M44 ℝ).Affine := by simp [M44.Affine, M44.identity, M44.set]
  refine ⟨h, h, ?_, ?_⟩ <;> rw [(matrix_algebra .identity .identity .identity).2.2.2.2.2.2.1] <;> norm_num

/-! ## C125: pivots -/

/-- C125: what a camera, a light, an emitter or a force field meets in its own directions stays at the same place: the pivots undo the turn of the
directions of the node. Missing: look-ats, and rotations that are nearly pivots. -/
theorem pivot_partial (target current : Axis) (k : ℝ) {ts : List Entry} (h : ∀ e ∈ ts, Plain e.1.value)
    (hx : ExactRotations (ts.map fun e => (⟨e.1.sid, convertValue ⟨prepare target current, k⟩ e.1.value⟩, e.2))) (q : V3 ℝ) :
    (toMatrix (stack (setPivot target current false (ts.map fun e => (⟨e.1.sid, convertValue ⟨prepare target current, k⟩ e.1.value⟩, e.2))))).transformCoordinate (V3.smul k q) =
      (⟨prepare target current, k⟩ : Conv).moved ((toMatrix (stack ts)).transformCoordinate q) := by
  rw [setPivot_point hx target current k, (turn_isRotation _).smul]
  have e : stack (ts.map fun e => ((⟨e.1.sid, convertValue ⟨prepare target current, k⟩ e.1.value⟩ : Transform), e.2)) = convertAll ⟨prepare target current, k⟩ (stack ts) := by
    simp [stack, convertAll, Function.comp]
  rw [e]
  exact carries_all ⟨prepare target current, k⟩ (ts := stack ts) (by
    intro t ht
    obtain ⟨e, he, rfl⟩ := List.mem_map.mp ht
    exact h e he) q

example : ExactRotations [((⟨[], .rotation ⟨1, 0, 0⟩ 30⟩ : Transform), false), (⟨[], .translation ⟨1, 2, 3⟩⟩, true)] := by
  intro e he a x hv b y _ hy _ hd
  simp only [List.mem_cons, List.not_mem_nil, or_false] at he
  rcases he with rfl | rfl
  · simp only [Value.rotation.injEq] at hv
    obtain ⟨rfl, rfl⟩ := hv
    rcases hy with rfl | rfl <;> norm_num [abs_lt] at hd
  · cases hv

/-- C125: where only the roll is changed, the line the node looks along stays. Missing: rotations that are nearly pivots. -/
theorem roll_partial {ts : List Entry} (hx : ExactRotations ts) (target current : Axis) (d : ℝ) :
    (toMatrix (stack (setPivot target current true ts))).transformVector ⟨0, 0, d⟩ = (toMatrix (stack ts)).transformVector ⟨0, 0, d⟩ ∧
    (toMatrix (stack (setPivot target current true ts))).transformCoordinate ⟨0, 0, d⟩ = (toMatrix (stack ts)).transformCoordinate ⟨0, 0, d⟩ :=
  setPivot_roll hx target current d

/-- C125: a pivot is taken away again by the way back, after its axis has been converted. Missing: X to Z and back. -/
theorem pivot_back_partial (target current : Axis) (k : ℝ) (ht : target ≠ .unknown) (hc : current ≠ .unknown)
    (h : ¬ (target = .x ∧ current = .z) ∧ ¬ (target = .z ∧ current = .x)) {ts : List Entry} (hl : lastRotation ts = none) :
    setPivot current target false ((setPivot target current false ts).map fun e => (⟨e.1.sid, convertValue ⟨prepare current target, k⟩ e.1.value⟩, e.2)) =
      ts.map fun e => (⟨e.1.sid, convertValue ⟨prepare current target, k⟩ e.1.value⟩, e.2) := by
  have hadd : ∀ a x, smartAdd ts a x = addRotation ts a x := by
    intro a x
    rw [smartAdd.eq_def, hl]
  have hback : ∀ (us : List Entry) (s : List Int) a x y, y = -x → smartAdd (us ++ [((⟨s, .rotation a x⟩ : Transform), false)]) a y = us := by
    rintro us s a x _ rfl
    rw [smartAdd.eq_def, lastRotation_append]
    simp only
    rw [if_pos, List.dropLast_concat]
    rw [Bool.and_eq_true, equivalent3_near, equivalent_true, neg_neg, sub_self, abs_zero]
    exact ⟨by simp [Near], by norm_num [tolerance]⟩
  have hr : ∀ (c : Conv) a x, convertValue c (.rotation a x) = .rotation (c.turn a) x := fun _ _ _ => rfl
  cases target <;> cases current <;>
    first
      | exact absurd rfl ht
      | exact absurd rfl hc
      | exact absurd ⟨rfl, rfl⟩ h.1
      | exact absurd ⟨rfl, rfl⟩ h.2
      | rfl
      | (simp only [prepare, setPivot, pivotIn, pivotOut, addRotation, hadd, hr, List.map_append, List.map_cons, List.map_nil, Conv.turn, Fn.apply, reduceCtorEq,
          or_self, and_true, if_true, if_false, Bool.false_eq_true, mul_zero]
         exact hback _ _ _ _ _ (by norm_num))

example : lastRotation [((⟨[], .rotation ⟨1, 0, 0⟩ 90⟩ : Transform), true)] = none ∧ lastRotation [((⟨[], .translation ⟨1, 0, 0⟩⟩ : Transform), false)] = none :=
  ⟨rfl, rfl⟩

/-- C125: a camera placed by a look-at is turned twice: it looked along -Z, and looks up after the change from Y to Z, not along Y. -/
theorem camera_look_at_violated : ∃ (c : Conv) (v : Value), c = ⟨prepare .z .y, 1⟩ ∧ c.moved (v.toMatrix.transformCoordinate ⟨0, 0, -1⟩) = ⟨0, 1, 0⟩ ∧
    (toMatrix (stack (setPivot .z .y false [(⟨[], convertValue c v⟩, false)]))).transformCoordinate ⟨0, 0, -1⟩ = ⟨0, 0, 1⟩ := by
  refine ⟨⟨.zToY, 1⟩, .lookAt ⟨0, 0, 0⟩ ⟨0, 0, -1⟩ ⟨0, 1, 0⟩, rfl, ?_, ?_⟩
  · have hid : (Value.lookAt ⟨0, 0, 0⟩ ⟨0, 0, -1⟩ ⟨0, 1, 0⟩).toMatrix = .identity := (add_transform [] .lookAt 0).2.2.1
    rw [hid, identity_point]
    simp [Conv.moved, Conv.turn, Fn.apply, V3.smul]
  · have hx : ExactRotations [((⟨[], convertValue ⟨.zToY, 1⟩ (.lookAt ⟨0, 0, 0⟩ ⟨0, 0, -1⟩ ⟨0, 1, 0⟩)⟩ : Transform), false)] := by
      intro e he a x hv
      simp only [List.mem_singleton] at he
      subst he
      cases hv
    rw [setPivot_point hx .z .y 1]
    have h1 := look_at_partial ⟨.zToY, 1⟩ one_pos looks_forward ((⟨prepare .z .y, 1⟩ : Conv).turn ⟨0, 0, -1⟩)
    have e1 : ∀ p : V3 ℝ, V3.smul (1 : ℝ) p = p := fun p => by simp [V3.smul]
    have hid : (Value.lookAt ⟨0, 0, 0⟩ ⟨0, 0, -1⟩ ⟨0, 1, 0⟩).toMatrix = .identity := (add_transform [] .lookAt 0).2.2.1
    rw [hid, identity_point, e1] at h1
    have e2 : toMatrix (stack [((⟨[], convertValue ⟨.zToY, 1⟩ (.lookAt ⟨0, 0, 0⟩ ⟨0, 0, -1⟩ ⟨0, 1, 0⟩)⟩ : Transform), false)]) =
        (convertValue ⟨.zToY, 1⟩ (.lookAt ⟨0, 0, 0⟩ ⟨0, 0, -1⟩ ⟨0, 1, 0⟩)).toMatrix := by
      simp only [stack, List.map_cons, List.map_nil, toMatrix_cons]
      exact (matrix_algebra _ .identity .identity).2.1
    rw [e2, h1]
    simp [Conv.moved, Conv.turn, Fn.apply, V3.smul, prepare]

end Verif.FStd
