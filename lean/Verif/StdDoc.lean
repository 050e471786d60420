import Verif.StdMesh
import Verif.XformProps

/-! # Lemmas on whole documents and pivots -/

namespace Verif.FStd

open Verif.Geo Verif.FXform

theorem worlds_carry {w : FScene.World} {insts : Nat → List (Option Nat)} {scenes : List Nat} (hs : Scenes w scenes) (c : Conv) {tf tf' : Nat → List Transform}
    (h : ∀ x, InScene w insts scenes x → tf' x = convertAll c (tf x)) (hp : ∀ x, InScene w insts scenes x → ∀ t ∈ tf x, Plain t.value) {x : Nat}
    (hx : InScene w insts scenes x) {l : List Nat} (hl : Chain w l x) : Carries c (toMatrix (l.flatMap tf)) (toMatrix (l.flatMap tf')) := by
  have hall : ∀ y ∈ l, InScene w insts scenes y := by
    obtain ⟨r, hr, hb⟩ := hx
    obtain ⟨a, ha, hp⟩ := hs.2 r hr
    exact fun y hy => ⟨r, hr, chain_below ha hp hb hl y hy⟩
  have e : ∀ l : List Nat, (∀ y ∈ l, InScene w insts scenes y) → l.flatMap tf' = convertAll c (l.flatMap tf) := by
    intro l
    induction l with
    | nil => intro _; rfl
    | cons y ys ih =>
      intro hy
      rw [List.flatMap_cons, List.flatMap_cons, ih fun z hz => hy z (List.mem_cons_of_mem _ hz), h y (hy y List.mem_cons_self), convertAll, convertAll,
        convertAll, List.map_append]
  rw [e l hall]
  refine carries_all c fun t ht => ?_
  obtain ⟨y, hy, ht⟩ := List.mem_flatMap.mp ht
  exact hp y (hall y hy) t ht

/-- The chain of a node is the only one. -/
theorem world_of_chain {w : FScene.World} {l : List Nat} {x : Nat} (h : Chain w l x) (tf : Nat → List Transform) :
    ∀ n ≥ l.length, worldTransform w tf n x = some (toMatrix (l.flatMap tf)) := by
  induction h with
  | root ha hp =>
    intro n hn
    obtain ⟨m, rfl⟩ : ∃ m, n = m + 1 := ⟨n - 1, by simp at hn; omega⟩
    simp [worldTransform, ha, hp]
  | step ha hp _ ih =>
    intro n hn
    obtain ⟨m, rfl⟩ : ∃ m, n = m + 1 := ⟨n - 1, by simp at hn; omega⟩
    simp only [List.length_append, List.length_singleton] at hn
    simp [worldTransform, ha, hp, ih m (by omega), toMatrix_append]

theorem moved_trivial {c : Conv} (ha : c.fn = .identity) (hl : c.factor = 1) (p : V3 ℝ) : c.moved p = p ∧ c.turn p = p := by
  obtain ⟨f, k⟩ := c
  obtain rfl : f = .identity := ha
  obtain rfl : k = 1 := hl
  constructor
  · ext <;> simp [Conv.moved, Conv.turn, Fn.apply, V3.smul]
  · rfl

theorem shapeMoved_trivial {c : Conv} (ha : c.fn = .identity) (hl : c.factor = 1) (s : Shape) : ShapeMoved c s s := by
  cases s with
  | mesh l =>
    refine .mesh (List.forall₂_same.mpr fun x _ => ⟨rfl, rfl, rfl, fun _ => rfl, fun _ k _ p hp => ?_⟩)
    rw [(moved_trivial ha hl p).1, (moved_trivial ha hl p).2]
    exact ⟨fun _ => hp, fun _ => hp⟩
  | splines l =>
    have : l.map (List.map c.moved) = l := by
      have e : c.moved = id := funext fun p => (moved_trivial ha hl p).1
      rw [e]
      simp
    conv => arg 3; rw [← this]
    exact .splines l
  | other => exact .other

theorem factor_one {c : Conv} (hc : c.Clear) (h : c.hasLength = false) : c.factor = 1 := by
  refine hc.resolve_right fun h' => ?_
  rw [← hasLength_iff, h] at h'
  cases h'

theorem convertSource_spec {c : Conv} (hc : c.Clear) (x : Source × Nat × List ℝ) (h0 : x.2.1 ≠ 0) :
    ∃ d, convertSource c x.1 x.2.1 x.2.2 = some d ∧ SourceMoved c x (x.1, x.2.1, d) := by
  obtain ⟨kind, stride, data⟩ := x
  simp only at h0 ⊢
  rw [convertSource.eq_def, if_neg h0]
  by_cases hz : data.length / stride = 0
  · rw [if_pos hz]
    refine ⟨data, rfl, rfl, rfl, rfl, fun _ => rfl, fun _ k hk => ?_⟩
    simp only [hz] at hk
    exact absurd hk (Nat.not_lt_zero _)
  rw [if_neg hz]
  by_cases h3 : 3 ≤ stride
  · obtain ⟨out, h1, h2, h4, _⟩ := turnStep_spec c stride h3 data
    cases kind with
    | other => exact ⟨data, rfl, rfl, rfl, rfl, fun _ => rfl, fun _ k _ p _ => ⟨fun e => Source.noConfusion e, fun e => Source.noConfusion e⟩⟩
    | normal =>
      refine ⟨out, h1, rfl, rfl, h2, fun e => (nomatch e), fun _ k hk p hp => ⟨fun e => (nomatch e), fun _ => h4 k hk p hp⟩⟩
    | position =>
      simp only [h1, Option.map_some]
      refine ⟨_, rfl, rfl, rfl, ?_, fun e => (nomatch e), fun _ k hk p hp => ⟨fun _ => ?_, fun e => (nomatch e)⟩⟩
      · by_cases hl : c.hasLength = true
        · simp [hl, h2]
        · simp [hl, h2]
      · have hp' := h4 k hk p hp
        by_cases hl : c.hasLength = true
        · have hlt : k * stride + 3 ≤ data.length / stride * stride := by
            have : (k + 1) * stride ≤ data.length / stride * stride := Nat.mul_le_mul_right _ hk
            rw [Nat.add_mul, Nat.one_mul] at this
            simp only at *
            omega
          obtain ⟨q1, q2, q3⟩ := hp'
          simp only [hl, if_true]
          refine ⟨?_, ?_, ?_⟩
          · rw [List.getElem?_mapIdx, q1, Option.map_some, if_pos (by omega)]; simp [Conv.moved, V3.smul, mul_comm]
          · rw [List.getElem?_mapIdx, q2, Option.map_some, if_pos (by omega)]; simp [Conv.moved, V3.smul, mul_comm]
          · rw [List.getElem?_mapIdx, q3, Option.map_some, if_pos (by omega)]; simp [Conv.moved, V3.smul, mul_comm]
        · rw [Bool.not_eq_true] at hl
          simp only [hl]
          have hf := factor_one hc hl
          have : c.moved p = c.turn p := by ext <;> simp [Conv.moved, V3.smul, hf]
          rw [this]
          exact hp'
  · have hd : (c.hasAxis && decide (stride ≥ 3)) = false := by simp [h3]
    simp only [hd]
    cases kind with
    | other => exact ⟨data, rfl, rfl, rfl, rfl, fun _ => rfl, fun h => absurd h h3⟩
    | normal => exact ⟨data, rfl, rfl, rfl, rfl, fun _ => rfl, fun h => absurd h h3⟩
    | position =>
      refine ⟨_, rfl, rfl, rfl, ?_, fun e => (nomatch e), fun h => absurd h h3⟩
      by_cases hl : c.hasLength = true <;> simp [hl]

theorem convertShape_spec {c : Conv} (hc : c.Clear) (s : Shape) (h0 : ∀ l, s = .mesh l → ∀ x ∈ l, x.2.1 ≠ 0) :
    ∃ s', convertShape c s = some s' ∧ ShapeMoved c s s' := by
  cases s with
  | mesh l =>
    have h0 := h0 l rfl
    have key : ∃ l', (l.mapM fun x => (convertSource c x.1 x.2.1 x.2.2).map fun d => (x.1, x.2.1, d)) = some l' ∧ List.Forall₂ (SourceMoved c) l l' := by
      clear * - h0 hc
      induction l with
      | nil => exact ⟨[], rfl, .nil⟩
      | cons x xs ih =>
        obtain ⟨l', e, hf⟩ := ih fun y hy => h0 y (List.mem_cons_of_mem _ hy)
        obtain ⟨d, e1, h1⟩ := convertSource_spec hc x (h0 x List.mem_cons_self)
        exact ⟨_, by simp [e, e1], .cons h1 hf⟩
    obtain ⟨l', e, hf⟩ := key
    exact ⟨_, by rw [convertShape, e]; rfl, .mesh hf⟩
  | splines l => exact ⟨_, rfl, .splines l⟩
  | other => exact ⟨_, rfl, .other⟩

theorem convertGeom_spec {t : Axis} {u : ℝ} {doc : Asset} (hc : (assetFunctors t u [doc] none).Clear) {g : Geom} (hg : g.asset = none)
    (h0 : ∀ l, g.shape = .mesh l → ∀ x ∈ l, x.2.1 ≠ 0) :
    ∃ g', convertGeom t u doc none g = some g' ∧ g'.asset = none ∧ ShapeMoved (assetFunctors t u [doc] none) g.shape g'.shape := by
  have e : assetFunctors t u [doc] none = assetFunctors t u (entityAssets g.asset doc) none := by rw [hg]; rfl
  rw [e] at hc ⊢
  rw [convertGeom]
  generalize assetFunctors t u (entityAssets g.asset doc) none = c at hc ⊢
  rw [hg]
  by_cases h : (c.hasLength || c.hasAxis) = true
  · obtain ⟨s', h1, h2⟩ := convertShape_spec hc g.shape h0
    exact ⟨⟨none, s'⟩, by simp only [h, if_true, h1]; rfl, rfl, h2⟩
  · refine ⟨⟨none, g.shape⟩, by rw [if_neg h]; rfl, rfl, ?_⟩
    obtain ⟨h1, h2⟩ := trivial_of_no hc h
    exact shapeMoved_trivial h1 h2 _

theorem convertSkin_spec {t : Axis} {u : ℝ} {doc : Asset} (hc : (assetFunctors t u [doc] none).Clear) {s : Skin} (hs : s.asset = none)
    (hi : ∀ b ∈ s.inverses, Invertible b) :
    Carries (assetFunctors t u [doc] none) s.bindShape (convertSkin t u doc none s).bindShape ∧
      List.Forall₂ (fun b b' => Carries (assetFunctors t u [doc] none) b b' ∧ b'.Affine) s.inverses (convertSkin t u doc none s).inverses := by
  have e : assetFunctors t u [doc] none = assetFunctors t u (entityAssets s.asset doc) none := by rw [hs]; rfl
  rw [e] at hc ⊢
  rw [convertSkin]
  generalize assetFunctors t u (entityAssets s.asset doc) none = c at hc ⊢
  rw [hs]
  by_cases h : (c.hasLength || c.hasAxis) = true
  · rw [if_pos h]
    refine ⟨carries_matrix c _, ?_⟩
    rw [List.forall₂_map_right_iff, List.forall₂_same]
    intro b hb
    obtain ⟨h1, h2, h3⟩ := hi b hb
    exact convertBindPose_spec c h1 h2 h3
  · rw [if_neg h]
    obtain ⟨h1, h2⟩ := trivial_of_no hc h
    exact ⟨carries_trivial h1 h2 _, List.forall₂_same.mpr fun b hb => ⟨carries_trivial h1 h2 b, (hi b hb).1⟩⟩

theorem convertCamera_spec {t : Axis} {u : ℝ} {doc : Asset} (hc : (assetFunctors t u [doc] none).Clear) {k : Camera} (hk : k.asset = none) :
    convertCamera t u doc none k = ⟨none, k.nearZ * (assetFunctors t u [doc] none).factor, k.farZ * (assetFunctors t u [doc] none).factor⟩ := by
  have e : assetFunctors t u [doc] none = assetFunctors t u (entityAssets k.asset doc) none := by rw [hk]; rfl
  rw [e] at hc ⊢
  rw [convertCamera]
  generalize assetFunctors t u (entityAssets k.asset doc) none = c at hc ⊢
  rw [hk]
  by_cases h : c.hasLength = true
  · rw [if_pos h]; rfl
  · rw [if_neg h]
    rw [Bool.not_eq_true] at h
    rw [factor_one hc h]
    obtain ⟨a, n, f⟩ := k
    obtain rfl : a = none := hk
    simp [resetAsset]

/-! ## The second call -/

theorem second_functors (l : List Asset) (hl : ∀ a ∈ l, a.unit = none ∧ a.up = none) (u : ℝ) (a : V3 ℝ) (b : Bool) :
    (assetFunctors (convertVector a) u (l ++ if b then [⟨some u, some a⟩] else []) none).fn = .identity ∧
      (assetFunctors (convertVector a) u (l ++ if b then [⟨some u, some a⟩] else []) none).factor = 1 := by
  rw [functors_silent _ _ _ _ _ hl]
  cases b with
  | true =>
    refine ⟨?_, ?_⟩
    · simp [assetFunctors, prepare]
    · change (if u ≤ 0 then (1 : ℝ) else u / u) = 1
      by_cases h : u ≤ 0
      · rw [if_pos h]
      · rw [if_neg h, div_self (by rintro rfl; exact h le_rfl)]
  | false =>
    refine ⟨?_, ?_⟩
    · have : convertVector (⟨0, 0, 0⟩ : V3 ℝ) = .unknown := by
        simp [convertVector, equivalent3, equivalent, tolerance]
        norm_num
      simp [assetFunctors, this, prepare]
    · simp [assetFunctors, unitFactor]

theorem nothing_to_do {c : Conv} (h : c.fn = .identity ∧ c.factor = 1) : c.hasLength = false ∧ c.hasAxis = false := by
  constructor
  · rw [Conv.hasLength, h.2, equivalent_refl]; rfl
  · simp [Conv.hasAxis, h.1]

theorem resetAsset_twice (a : Option Asset) : resetAsset (resetAsset a) = resetAsset a := by cases a <;> rfl

/-- An entity after the first call, in a document with the wanted values. -/
theorem idle_entity (u : ℝ) (a : V3 ℝ) (o : Option Asset) :
    (assetFunctors (convertVector a) u (entityAssets (resetAsset o) ⟨some u, some a⟩) none).hasLength = false ∧
      (assetFunctors (convertVector a) u (entityAssets (resetAsset o) ⟨some u, some a⟩) none).hasAxis = false := by
  refine nothing_to_do ?_
  cases o with
  | none =>
    have := second_functors [] (fun _ h => nomatch h) u a true
    simpa [entityAssets, resetAsset] using this
  | some b =>
    have := second_functors [⟨none, none⟩] (by simp) u a false
    simpa [entityAssets, resetAsset] using this

theorem mapM_resets {t : Axis} {u : ℝ} {doc : Asset} {lib : Option Asset} {l l' : List Geom} (h : l.mapM (convertGeom t u doc lib) = some l') :
    ∀ g ∈ l', ∃ o, g.asset = resetAsset o := by
  induction l generalizing l' with
  | nil =>
    obtain rfl : [] = l' := by simpa using h
    exact fun _ h => nomatch h
  | cons x xs ih =>
    rw [List.mapM_cons] at h
    obtain ⟨y, h1, h⟩ := Option.bind_eq_some_iff.mp h
    obtain ⟨ys, h2, h⟩ := Option.bind_eq_some_iff.mp h
    obtain rfl := Option.some.inj h
    intro g hg
    rcases List.mem_cons.mp hg with rfl | hg
    · rw [convertGeom] at h1
      obtain ⟨s, _, rfl⟩ := Option.map_eq_some_iff.mp h1
      exact ⟨_, rfl⟩
    · exact ih h2 g hg

theorem nodeAssets_mono {first : Nat → Option Nat} {asset : Nat → Option Asset} {n x : Nat} {l : List Asset} (h : nodeAssets first asset n x = some l) :
    ∀ m ≥ n, nodeAssets first asset m x = some l := by
  induction n generalizing x l with
  | zero => cases h
  | succ n ih =>
    intro m hm
    obtain ⟨k, rfl⟩ : ∃ k, m = k + 1 := ⟨m - 1, by omega⟩
    rw [nodeAssets] at h ⊢
    cases hf : first x with
    | none => rw [hf] at h; exact h
    | some p =>
      rw [hf] at h
      obtain ⟨l', h1, h2⟩ := Option.map_eq_some_iff.mp h
      simp only [ih h1 k (by omega), Option.map_some]
      exact congrArg some h2

theorem nodeAssets_defined {first : Nat → Option Nat} {asset : Nat → Option Asset} {n x : Nat} (h : (nodeAssets first asset n x).isSome) (asset' : Nat → Option Asset) :
    (nodeAssets first asset' n x).isSome := by
  induction n generalizing x with
  | zero => cases h
  | succ n ih =>
    rw [nodeAssets] at h ⊢
    cases hf : first x with
    | none => rfl
    | some p =>
      rw [hf] at h
      simp only [Option.isSome_map] at h ⊢
      exact ih h

theorem convertNodes_defined {j : Job} {first : Nat → Option Nat} {n : Nat} {order : List Nat} {s s' : Nodes} (h : convertNodes j first n order s = some s') :
    ∀ x ∈ order, (nodeAssets first s.asset n x).isSome := by
  induction order generalizing s with
  | nil => exact fun _ h => nomatch h
  | cons y ys ih =>
    rw [convertNodes] at h
    obtain ⟨s1, h1, h2⟩ := Option.bind_eq_some_iff.mp h
    rw [convertNode] at h1
    obtain ⟨l, h3, _⟩ := Option.bind_eq_some_iff.mp h1
    intro x hx
    rcases List.mem_cons.mp hx with rfl | hx
    · simp [h3]
    · exact nodeAssets_defined (ih h2 x hx) _

theorem convertNodes_idle (j : Job) (first : Nat → Option Nat) (n : Nat) (order : List Nat) (s : Nodes)
    (h : ∀ x ∈ order, resetAsset (s.asset x) = s.asset x ∧ ∃ l, nodeAssets first s.asset n x = some l ∧
      (assetFunctors j.target j.unit (l ++ [j.doc]) j.library).hasLength = false ∧ (assetFunctors j.target j.unit (l ++ [j.doc]) j.library).hasAxis = false) :
    convertNodes j first n order s = some s := by
  induction order with
  | nil => rfl
  | cons y ys ih =>
    obtain ⟨h1, l, h2, h3, h4⟩ := h y List.mem_cons_self
    have e : convertNode j first n s y = some s := by
      rw [convertNode, h2, Option.bind_some, convertTransforms, if_neg (by rw [h3, h4]; decide), h1, Function.update_eq_self, Function.update_eq_self]
    rw [convertNodes, e, Option.bind_some]
    exact ih fun x hx => h x (List.mem_cons_of_mem _ hx)

end Verif.FStd
