import Verif.VolumeSpec
import Mathlib.MeasureTheory.Measure.Lebesgue.EqHaar
import Mathlib.MeasureTheory.Measure.Prod
import Mathlib.MeasureTheory.Measure.Lebesgue.Complex
import Mathlib.Analysis.SpecialFunctions.Integrals.Basic
import Mathlib.LinearAlgebra.Determinant

/-!
# Volumes: lemmas
-/

namespace Verif.FPhys

open MeasureTheory

theorem disc_eq : disc = Complex.measurableEquivRealProd '' (Metric.closedBall (0 : ℂ) 1) := by
  ext p
  simp only [disc, Set.mem_ofPred_eq, Set.mem_image, Metric.mem_closedBall, dist_zero_right]
  constructor
  · intro h
    refine ⟨⟨p.1, p.2⟩, ?_, rfl⟩
    rw [← sq_le_one_iff₀ (norm_nonneg _), Complex.sq_norm, Complex.normSq_mk]
    nlinarith
  · rintro ⟨c, hc, rfl⟩
    rw [← sq_le_one_iff₀ (norm_nonneg _), Complex.sq_norm, Complex.normSq_apply] at hc
    show c.re ^ 2 + c.im ^ 2 ≤ 1
    nlinarith

theorem disc_volume : volume disc = ENNReal.ofReal Real.pi := by
  rw [disc_eq, MeasurableEquiv.image_eq_preimage_symm]
  rw [(Complex.volume_preserving_equiv_real_prod.symm).measure_preimage_equiv, Complex.volume_closedBall]
  simp only [ENNReal.ofReal_one, one_pow, one_mul]
  rw [← NNReal.coe_real_pi, ENNReal.ofReal_coe_nnreal]

theorem disc_compact : IsCompact disc := by
  rw [disc_eq]
  exact (isCompact_closedBall _ _).image Complex.equivRealProdCLM.continuous

theorem det_scale2 (a b : ℝ) : LinearMap.det ((a • LinearMap.id : ℝ →ₗ[ℝ] ℝ).prodMap (b • LinearMap.id : ℝ →ₗ[ℝ] ℝ)) = a * b := by
  rw [LinearMap.det_prodMap]; simp

/-- The area of an ellipse. -/
theorem ellipse_volume {a b : ℝ} (ha : 0 ≤ a) (hb : 0 ≤ b) : volume ((fun p : ℝ × ℝ => (a * p.1, b * p.2)) '' disc) = ENNReal.ofReal (Real.pi * a * b) := by
  have := Measure.addHaar_image_linearMap (volume : Measure (ℝ × ℝ)) ((a • LinearMap.id : ℝ →ₗ[ℝ] ℝ).prodMap (b • LinearMap.id : ℝ →ₗ[ℝ] ℝ)) disc
  rw [det_scale2, disc_volume, abs_of_nonneg (mul_nonneg ha hb), ← ENNReal.ofReal_mul (mul_nonneg ha hb)] at this
  rw [show Real.pi * a * b = a * b * Real.pi by ring, ← this]
  rfl

/-- A solid is the sum of its cross-sections. -/
theorem volume_slices {S : Set Space} (hS : MeasurableSet S) {a b : ℝ} (hab : a ≤ b) {c : ℝ → ℝ} (hc : Continuous c) (h0 : ∀ z ∈ Set.Icc a b, 0 ≤ c z)
    (h1 : ∀ z ∈ Set.Icc a b, volume (Prod.mk z ⁻¹' S) = ENNReal.ofReal (c z)) (h2 : ∀ z, z ∉ Set.Icc a b → volume (Prod.mk z ⁻¹' S) = 0) :
    volume S = ENNReal.ofReal (∫ z in a..b, c z) := by
  rw [show (volume : Measure Space) = (volume : Measure ℝ).prod volume from rfl, Measure.prod_apply hS]
  have e : (fun z => volume (Prod.mk z ⁻¹' S)) = (Set.Icc a b).indicator fun z => ENNReal.ofReal (c z) := by
    funext z
    by_cases hz : z ∈ Set.Icc a b
    · rw [Set.indicator_of_mem hz, h1 z hz]
    · rw [Set.indicator_of_notMem hz, h2 z hz]
  rw [e, lintegral_indicator measurableSet_Icc, intervalIntegral.integral_of_le hab, ← integral_Icc_eq_integral_Ioc,
    ofReal_integral_eq_lintegral_ofReal]
  · exact hc.continuousOn.integrableOn_Icc
  · exact (ae_restrict_iff' measurableSet_Icc).2 (.of_forall h0)

theorem mk_preimage_crossSections (f g : ℝ → ℝ) (h z : ℝ) :
    Prod.mk z ⁻¹' crossSections f g h = {q | z ∈ Set.Icc 0 h ∧ q ∈ (fun p : ℝ × ℝ => (f z * p.1, g z * p.2)) '' disc} := by
  ext q
  simp only [crossSections, Set.mem_preimage, Set.mem_image, Set.mem_prod, Set.mem_ofPred_eq, Prod.exists, Prod.mk.injEq]
  constructor
  · rintro ⟨z', u, v, ⟨hz, hd⟩, rfl, e⟩
    exact ⟨hz, u, v, hd, e⟩
  · rintro ⟨hz, u, v, hd, e⟩
    exact ⟨z, u, v, ⟨hz, hd⟩, rfl, e⟩

theorem crossSections_compact {f g : ℝ → ℝ} (hf : Continuous f) (hg : Continuous g) (h : ℝ) : IsCompact (crossSections f g h) := by
  refine (isCompact_Icc.prod disc_compact).image ?_
  fun_prop

theorem crossSections_volume {f g : ℝ → ℝ} (hf : Continuous f) (hg : Continuous g) {h : ℝ} (hh : 0 ≤ h) (f0 : ∀ z ∈ Set.Icc 0 h, 0 ≤ f z)
    (g0 : ∀ z ∈ Set.Icc 0 h, 0 ≤ g z) : volume (crossSections f g h) = ENNReal.ofReal (∫ z in (0 : ℝ)..h, Real.pi * f z * g z) := by
  refine volume_slices (crossSections_compact hf hg h).measurableSet hh (by fun_prop) ?_ ?_ ?_
  · intro z hz
    have := f0 z hz; have := g0 z hz; positivity
  · intro z hz
    rw [mk_preimage_crossSections]
    simp only [hz, true_and, Set.ofPred_mem_eq]
    exact ellipse_volume (f0 z hz) (g0 z hz)
  · intro z hz
    rw [mk_preimage_crossSections]
    simp [hz]

theorem tapered_integral (a a' b b' : ℝ) {h : ℝ} (hh : 0 ≤ h) :
    ∫ z in (0 : ℝ)..h, Real.pi * (a + a' * (z / h)) * (b + b' * (z / h)) = (a * b + (a * b' + a' * b) / 2 + a' * b' / 3) * Real.pi * h := by
  rcases hh.eq_or_lt with rfl | hpos
  · simp
  have : ∀ z, Real.pi * (a + a' * (z / h)) * (b + b' * (z / h)) = Real.pi * a * b + Real.pi * (a * b' + a' * b) / h * z + Real.pi * a' * b' / h ^ 2 * z ^ 2 := by
    intro z; field_simp; ring
  simp_rw [this]
  rw [intervalIntegral.integral_add, intervalIntegral.integral_add, intervalIntegral.integral_const, intervalIntegral.integral_const_mul,
    intervalIntegral.integral_const_mul, integral_id, integral_pow]
  · simp only [smul_eq_mul]; field_simp; ring
  all_goals exact Continuous.intervalIntegrable (by fun_prop) _ _

theorem interp_nonneg {a b z h : ℝ} (ha : 0 ≤ a) (hb : 0 ≤ b) (hz : z ∈ Set.Icc 0 h) : 0 ≤ a + (b - a) * (z / h) := by
  have h1 : 0 ≤ z / h := div_nonneg hz.1 (hz.1.trans hz.2)
  have h2 : z / h ≤ 1 := div_le_one_of_le₀ hz.2 (hz.1.trans hz.2)
  nlinarith

theorem tapered_volume {r r2 : V2 ℝ} (hr : r.Nonneg) (hr2 : r2.Nonneg) {h : ℝ} (hh : 0 ≤ h) : HasVolume (taperedSolid r r2 h) (taperedCylinderVolume r r2 h) := by
  obtain ⟨h1, h2⟩ := hr
  obtain ⟨h3, h4⟩ := hr2
  refine ⟨by unfold taperedCylinderVolume; positivity, ?_⟩
  rw [taperedSolid, crossSections_volume (by fun_prop) (by fun_prop) hh (fun z hz => interp_nonneg h1 h3 hz) (fun z hz => interp_nonneg h2 h4 hz),
    tapered_integral _ _ _ _ hh]
  congr 1
  unfold taperedCylinderVolume
  ring

/-! ## Balls -/

theorem ball_compact : IsCompact ball := by
  have h1 : IsClosed ball := isClosed_le (by fun_prop) (by fun_prop)
  refine Metric.isCompact_of_isClosed_isBounded h1 ?_
  refine (Metric.isBounded_closedBall (x := (0 : Space)) (r := 1)).subset ?_
  rintro ⟨z, x, y⟩ h
  simp only [ball, Set.mem_ofPred_eq] at h
  simp only [Metric.mem_closedBall, dist_zero_right, Prod.norm_mk, Real.norm_eq_abs, sup_le_iff]
  refine ⟨?_, ?_, ?_⟩ <;> exact abs_le_of_sq_le_sq (by nlinarith [sq_nonneg x, sq_nonneg y, sq_nonneg z]) zero_le_one

theorem ball_slice {z : ℝ} (hz : z ^ 2 ≤ 1) : Prod.mk z ⁻¹' ball = (fun p : ℝ × ℝ => (√(1 - z ^ 2) * p.1, √(1 - z ^ 2) * p.2)) '' disc := by
  ext ⟨x, y⟩
  simp only [ball, disc, Set.mem_preimage, Set.mem_ofPred_eq, Set.mem_image, Prod.exists, Prod.mk.injEq]
  have hs : √(1 - z ^ 2) ^ 2 = 1 - z ^ 2 := Real.sq_sqrt (by linarith)
  constructor
  · intro h
    rcases (Real.sqrt_nonneg (1 - z ^ 2)).eq_or_lt with e | hp
    · rw [← e] at hs
      have hx : x = 0 := by nlinarith [sq_nonneg x, sq_nonneg y]
      have hy : y = 0 := by nlinarith [sq_nonneg x, sq_nonneg y]
      exact ⟨0, 0, by simp, by simp [hx], by simp [hy]⟩
    · refine ⟨x / √(1 - z ^ 2), y / √(1 - z ^ 2), ?_, by field_simp, by field_simp⟩
      rw [div_pow, div_pow, ← add_div, hs, div_le_one (by rw [← hs]; positivity)]
      linarith
  · rintro ⟨u, v, h, rfl, rfl⟩
    rw [mul_pow, mul_pow, hs]
    nlinarith

theorem ball_slice_out {z : ℝ} (hz : ¬ z ^ 2 ≤ 1) : Prod.mk z ⁻¹' ball = ∅ := by
  ext ⟨x, y⟩
  simp only [ball, Set.mem_preimage, Set.mem_ofPred_eq, Set.mem_empty_iff_false, iff_false]
  nlinarith [sq_nonneg x, sq_nonneg y]

theorem ball_slice_volume {z : ℝ} (hz : z ^ 2 ≤ 1) : volume (Prod.mk z ⁻¹' ball) = ENNReal.ofReal (Real.pi * (1 - z ^ 2)) := by
  rw [ball_slice hz, ellipse_volume (Real.sqrt_nonneg _) (Real.sqrt_nonneg _), mul_assoc, ← sq, Real.sq_sqrt (by linarith)]

theorem ball_integral (a : ℝ) : ∫ z in a..1, Real.pi * (1 - z ^ 2) = Real.pi * (2 / 3 - a + a ^ 3 / 3) := by
  rw [intervalIntegral.integral_const_mul, intervalIntegral.integral_sub, intervalIntegral.integral_const, integral_pow]
  · simp only [smul_eq_mul]; ring
  all_goals exact Continuous.intervalIntegrable (by fun_prop) _ _

theorem ball_volume : volume ball = ENNReal.ofReal (4 * Real.pi / 3) := by
  rw [volume_slices ball_compact.measurableSet (a := -1) (b := 1) (by norm_num) (c := fun z => Real.pi * (1 - z ^ 2)) (by fun_prop), ball_integral]
  · congr 1; ring
  · intro z hz
    have : z ^ 2 ≤ 1 := by nlinarith [hz.1, hz.2]
    have := Real.pi_pos
    exact mul_nonneg this.le (by linarith)
  · intro z hz
    exact ball_slice_volume (by nlinarith [hz.1, hz.2])
  · intro z hz
    rw [ball_slice_out, measure_empty]
    intro h
    exact hz ⟨by nlinarith, by nlinarith⟩

theorem half_closed : IsClosed {p : Space | 0 ≤ p.1} := isClosed_le (by fun_prop) (by fun_prop)

theorem half_volume : volume (ball ∩ {p | 0 ≤ p.1}) = ENNReal.ofReal (2 * Real.pi / 3) := by
  have hc : IsCompact (ball ∩ {p | 0 ≤ p.1}) := ball_compact.inter_right half_closed
  rw [volume_slices hc.measurableSet (a := 0) (b := 1) (by norm_num) (c := fun z => Real.pi * (1 - z ^ 2)) (by fun_prop), ball_integral]
  · congr 1; ring
  · intro z hz
    have : z ^ 2 ≤ 1 := by nlinarith [hz.1, hz.2]
    have := Real.pi_pos
    exact mul_nonneg this.le (by linarith)
  · intro z hz
    rw [← ball_slice_volume (by nlinarith [hz.1, hz.2])]
    congr 1
    ext q
    simp [hz.1]
  · intro z hz
    have : Prod.mk z ⁻¹' (ball ∩ {p : Space | 0 ≤ p.1}) = ∅ := by
      by_cases h0 : 0 ≤ z
      · rw [Set.preimage_inter, ball_slice_out, Set.empty_inter]
        intro h
        exact hz ⟨h0, by nlinarith⟩
      · ext q
        simp [h0]
    rw [this, measure_empty]

/-! ## Stretching -/

instance space_haar : (volume : Measure Space).IsAddHaarMeasure :=
  inferInstanceAs (((volume : Measure ℝ).prod (volume : Measure (ℝ × ℝ))).IsAddHaarMeasure)

/-- The linear map that stretches along the three axes. -/
noncomputable def stretch (c a b : ℝ) : Space →ₗ[ℝ] Space :=
  (c • LinearMap.id : ℝ →ₗ[ℝ] ℝ).prodMap ((a • LinearMap.id : ℝ →ₗ[ℝ] ℝ).prodMap (b • LinearMap.id : ℝ →ₗ[ℝ] ℝ))

theorem stretch_det (c a b : ℝ) : LinearMap.det (stretch c a b) = c * (a * b) := by
  rw [stretch, LinearMap.det_prodMap, det_scale2]; simp

theorem stretch_volume (c a b : ℝ) (S : Set Space) : volume ((fun p : Space => (c * p.1, a * p.2.1, b * p.2.2)) '' S) = ENNReal.ofReal |c * (a * b)| * volume S := by
  rw [← stretch_det, ← Measure.addHaar_image_linearMap]
  rfl

theorem ellipsoid_volume {c a b : ℝ} (hc : 0 ≤ c) (ha : 0 ≤ a) (hb : 0 ≤ b) : HasVolume (ellipsoidSolid c a b) (ellipsoidVolume a b c) := by
  refine ⟨by unfold ellipsoidVolume; positivity, ?_⟩
  rw [ellipsoidSolid, stretch_volume, ball_volume, abs_of_nonneg (by positivity), ← ENNReal.ofReal_mul (by positivity)]
  congr 1
  unfold ellipsoidVolume
  ring

theorem sphere_eq {r : ℝ} (hr : 0 ≤ r) : sphereSolid r = ellipsoidSolid r r r := by
  ext ⟨z, x, y⟩
  simp only [sphereSolid, ellipsoidSolid, ball, Set.mem_ofPred_eq, Set.mem_image, Prod.exists, Prod.mk.injEq]
  constructor
  · intro h
    rcases hr.eq_or_lt with rfl | hp
    · refine ⟨0, 0, 0, by simp, ?_, ?_, ?_⟩ <;> nlinarith [sq_nonneg x, sq_nonneg y, sq_nonneg z]
    · refine ⟨z / r, x / r, y / r, ?_, by field_simp, by field_simp, by field_simp⟩
      rw [div_pow, div_pow, div_pow, ← add_div, ← add_div, div_le_one (by positivity)]
      exact h
  · rintro ⟨u, v, w, h, rfl, rfl, rfl⟩
    nlinarith [sq_nonneg r]

theorem box_volume {h : Geo.V3 ℝ} (hx : 0 ≤ h.x) (hy : 0 ≤ h.y) (hz : 0 ≤ h.z) : HasVolume (boxSolid h) (boxVolume h) := by
  refine ⟨by unfold boxVolume; positivity, ?_⟩
  have e : boxSolid h = Set.Icc (-h.x) h.x ×ˢ Set.Icc (-h.y) h.y ×ˢ Set.Icc (-h.z) h.z := by
    ext p
    simp only [boxSolid, abs_le, Set.mem_ofPred_eq, Set.mem_prod, Set.mem_Icc]
  rw [e, show (volume : Measure Space) = (volume : Measure ℝ).prod ((volume : Measure ℝ).prod volume) from rfl, Measure.prod_prod, Measure.prod_prod,
    Real.volume_Icc, Real.volume_Icc, Real.volume_Icc, ← ENNReal.ofReal_mul (by linarith), ← ENNReal.ofReal_mul (by linarith)]
  congr 1
  unfold boxVolume
  ring

/-! ## Caps -/

theorem cap_eq (r : V2 ℝ) (s z0 : ℝ) : capSolid r s z0 = (fun p : Space => (z0, 0, 0) + p) '' ((fun p : Space => (s * max r.x r.y * p.1, r.x * p.2.1, r.y * p.2.2)) '' (ball ∩ {p | 0 ≤ p.1})) := by
  rw [Set.image_image]
  unfold capSolid
  congr 1
  funext p
  simp [mul_assoc]

theorem cap_volume {r : V2 ℝ} (hr : r.Nonneg) {s : ℝ} (hs : s = 1 ∨ s = -1) (z0 : ℝ) : volume (capSolid r s z0) = ENNReal.ofReal (ellipsoidEndVolume r / 2) := by
  obtain ⟨h1, h2⟩ := hr
  have hm : 0 ≤ max r.x r.y := le_max_of_le_left h1
  rw [cap_eq, Set.image_add_left, measure_preimage_add, stretch_volume, half_volume]
  have : |s * max r.x r.y * (r.x * r.y)| = max r.x r.y * (r.x * r.y) := by
    rcases hs with rfl | rfl <;> simp [abs_mul, abs_of_nonneg hm, abs_of_nonneg h1, abs_of_nonneg h2]
  rw [this, ← ENNReal.ofReal_mul (by positivity)]
  congr 1
  unfold ellipsoidEndVolume ellipsoidVolume
  ring

theorem cap_compact (r : V2 ℝ) (s z0 : ℝ) : IsCompact (capSolid r s z0) := (ball_compact.inter_right half_closed).image (by fun_prop)

theorem level_null (z0 : ℝ) : volume {p : Space | p.1 = z0} = 0 := by
  have : {p : Space | p.1 = z0} = {z0} ×ˢ Set.univ := by ext p; simp
  rw [this, show (volume : Measure Space) = (volume : Measure ℝ).prod volume from rfl, Measure.prod_prod]
  simp

theorem cap_low {r : V2 ℝ} (hr : r.Nonneg) {z0 : ℝ} {p : Space} (h : p ∈ capSolid r (-1) z0) : p.1 ≤ z0 := by
  obtain ⟨q, ⟨_, hq⟩, rfl⟩ := h
  have hm : 0 ≤ max r.x r.y := le_max_of_le_left hr.1
  have : 0 ≤ max r.x r.y * q.1 := mul_nonneg hm hq
  show z0 + -1 * (max r.x r.y * q.1) ≤ z0
  linarith

theorem cap_high {r : V2 ℝ} (hr : r.Nonneg) {z0 : ℝ} {p : Space} (h : p ∈ capSolid r 1 z0) : z0 ≤ p.1 := by
  obtain ⟨q, ⟨_, hq⟩, rfl⟩ := h
  have hm : 0 ≤ max r.x r.y := le_max_of_le_left hr.1
  have : 0 ≤ max r.x r.y * q.1 := mul_nonneg hm hq
  show z0 ≤ z0 + 1 * (max r.x r.y * q.1)
  linarith

theorem tapered_between {r r2 : V2 ℝ} {h : ℝ} {p : Space} (hp : p ∈ taperedSolid r r2 h) : 0 ≤ p.1 ∧ p.1 ≤ h := by
  obtain ⟨q, ⟨hq, _⟩, rfl⟩ := hp
  exact hq

theorem tapered_compact (r r2 : V2 ℝ) (h : ℝ) : IsCompact (taperedSolid r r2 h) := crossSections_compact (by fun_prop) (by fun_prop) h

theorem capsule_volume {r r2 : V2 ℝ} (hr : r.Nonneg) (hr2 : r2.Nonneg) {h : ℝ} (hh : 0 ≤ h) :
    HasVolume (capsuleSolid r r2 h) (taperedCylinderVolume r r2 h + ellipsoidEndVolume r / 2 + ellipsoidEndVolume r2 / 2) := by
  have hend : ∀ {q : V2 ℝ}, q.Nonneg → 0 ≤ ellipsoidEndVolume q / 2 := by
    rintro q ⟨h1, h2⟩
    have hm : 0 ≤ max q.x q.y := le_max_of_le_left h1
    unfold ellipsoidEndVolume ellipsoidVolume
    positivity
  obtain ⟨ht, ht'⟩ := tapered_volume hr hr2 hh
  refine ⟨by have := hend hr; have := hend hr2; linarith, ?_⟩
  have d1 : AEDisjoint volume (taperedSolid r r2 h) (capSolid r (-1) 0) := by
    refine measure_mono_null ?_ (level_null 0)
    rintro p ⟨h1, h2⟩
    exact le_antisymm (cap_low hr h2) (tapered_between h1).1
  have d2 : AEDisjoint volume (taperedSolid r r2 h ∪ capSolid r (-1) 0) (capSolid r2 1 h) := by
    refine measure_mono_null ?_ (level_null h)
    rintro p ⟨h1 | h1, h2⟩
    · exact le_antisymm (tapered_between h1).2 (cap_high hr2 h2)
    · exact le_antisymm ((cap_low hr h1).trans hh) (cap_high hr2 h2)
  unfold capsuleSolid
  rw [measure_union₀ (cap_compact _ _ _).measurableSet.nullMeasurableSet d2, measure_union₀ (cap_compact _ _ _).measurableSet.nullMeasurableSet d1, ht',
    cap_volume hr (.inr rfl), cap_volume hr2 (.inl rfl), ← ENNReal.ofReal_add ht (hend hr), ← ENNReal.ofReal_add (add_nonneg ht (hend hr)) (hend hr2)]

theorem tapered_self (r : V2 ℝ) (h : ℝ) : taperedCylinderVolume r r h = cylinderVolume r h := by
  unfold taperedCylinderVolume cylinderVolume; ring

theorem cylinder_eq (r : V2 ℝ) (h : ℝ) : cylinderSolid r h = taperedSolid r r h := by
  unfold cylinderSolid taperedSolid
  simp

/-! ## The tolerance -/

theorem prod_close {x y u v M t : ℝ} (hu : 0 ≤ u) (hy : 0 ≤ y) (hyM : y ≤ M) (huM : u ≤ M) (h1 : |x - u| ≤ t) (h2 : |y - v| ≤ t) :
    |x * y - u * v| ≤ 2 * M * t := by
  have e : x * y - u * v = (x - u) * y + u * (y - v) := by ring
  rw [e]
  refine (abs_add_le _ _).trans ?_
  rw [abs_mul, abs_mul, abs_of_nonneg hy, abs_of_nonneg hu]
  have ht : 0 ≤ t := (abs_nonneg _).trans h1
  nlinarith [mul_le_mul h1 hyM hy ht, mul_le_mul huM h2 (abs_nonneg _) (hu.trans huM)]

theorem equiv1_abs {a b : ℝ} (h : equiv1 a b) : |a - b| ≤ 1 / 10000 := abs_le.2 ⟨by linarith [h.2], h.1.le⟩

theorem tapered_close {r r2 : V2 ℝ} (hr : r.Nonneg) {h M : ℝ} (hh : 0 ≤ h) (he : equiv2 r r2) (hr2 : r2.Nonneg)
    (m1 : r.x ≤ M) (m2 : r.y ≤ M) (m3 : r2.x ≤ M) :
    |cylinderVolume r h - taperedCylinderVolume r r2 h| ≤ 2 * Real.pi * M * h * (1 / 10000) := by
  have a1 := equiv1_abs he.1
  have a2 := equiv1_abs he.2
  have z : |r.x - r.x| ≤ (1 / 10000 : ℝ) := by simp
  have z' : |r.y - r.y| ≤ (1 / 10000 : ℝ) := by simp
  have e : cylinderVolume r h - taperedCylinderVolume r r2 h =
      ((r.x * r.y - r.x * r2.y) + (r.x * r.y - r2.x * r.y) + 2 * (r.x * r.y - r2.x * r2.y)) * (Real.pi * h / 6) := by
    unfold cylinderVolume taperedCylinderVolume; ring
  have b1 := abs_le.1 (prod_close hr.1 hr.2 m2 m1 z a2 : |r.x * r.y - r.x * r2.y| ≤ _)
  have b2 := abs_le.1 (prod_close hr2.1 hr.2 m2 m3 a1 z' : |r.x * r.y - r2.x * r.y| ≤ _)
  have b3 := abs_le.1 (prod_close hr2.1 hr.2 m2 m3 a1 a2 : |r.x * r.y - r2.x * r2.y| ≤ _)
  have hM : 0 ≤ M := hr.1.trans m1
  have hp : 0 ≤ Real.pi * h / 6 := by have := Real.pi_pos; positivity
  rw [e, abs_mul, abs_of_nonneg hp]
  have : |r.x * r.y - r.x * r2.y + (r.x * r.y - r2.x * r.y) + 2 * (r.x * r.y - r2.x * r2.y)| ≤ 8 * M * (1 / 10000) :=
    abs_le.2 ⟨by linarith [b1.1, b2.1, b3.1], by linarith [b1.2, b2.2, b3.2]⟩
  have h0 := mul_le_mul_of_nonneg_right this hp
  have : 0 ≤ M * (Real.pi * h) := by have := Real.pi_pos; positivity
  nlinarith

theorem end_close {r r2 : V2 ℝ} (hr : r.Nonneg) {M : ℝ} (he : equiv2 r r2) (hr2 : r2.Nonneg)
    (m1 : r.x ≤ M) (m2 : r.y ≤ M) (m3 : r2.x ≤ M) (m4 : r2.y ≤ M) :
    |ellipsoidEndVolume r / 2 - ellipsoidEndVolume r2 / 2| ≤ 2 * Real.pi * M ^ 2 * (1 / 10000) := by
  have a1 := equiv1_abs he.1
  have a2 := equiv1_abs he.2
  have hM : 0 ≤ M := hr.1.trans m1
  have am : |max r.x r.y - max r2.x r2.y| ≤ 1 / 10000 := (abs_max_sub_max_le_max _ _ _ _).trans (max_le a1 a2)
  have h3 : |r.x * r.y - r2.x * r2.y| ≤ 2 * M * (1 / 10000) := prod_close hr2.1 hr.2 m2 m3 a1 a2
  have k1 : 0 ≤ max r.x r.y := le_max_of_le_left hr.1
  have k2 : max r.x r.y ≤ M := max_le m1 m2
  have e : ellipsoidEndVolume r / 2 - ellipsoidEndVolume r2 / 2 =
      ((r.x * r.y - r2.x * r2.y) * max r.x r.y + r2.x * r2.y * (max r.x r.y - max r2.x r2.y)) * (2 * Real.pi / 3) := by
    unfold ellipsoidEndVolume ellipsoidVolume; ring
  have hp : 0 ≤ 2 * Real.pi / 3 := by have := Real.pi_pos; positivity
  rw [e, abs_mul, abs_of_nonneg hp]
  have q : r2.x * r2.y ≤ M * M := mul_le_mul m3 m4 hr2.2 hM
  have q0 : 0 ≤ r2.x * r2.y := mul_nonneg hr2.1 hr2.2
  have s1 : |(r.x * r.y - r2.x * r2.y) * max r.x r.y| ≤ 2 * M * (1 / 10000) * M := by
    rw [abs_mul, abs_of_nonneg k1]
    exact mul_le_mul h3 k2 k1 (by positivity)
  have s2 : |r2.x * r2.y * (max r.x r.y - max r2.x r2.y)| ≤ M * M * (1 / 10000) := by
    rw [abs_mul, abs_of_nonneg q0]
    exact mul_le_mul q am (abs_nonneg _) (by positivity)
  have := mul_le_mul_of_nonneg_right ((abs_add_le _ _).trans (add_le_add s1 s2)) hp
  nlinarith

theorem volume_unique {S : Set Space} {v w : ℝ} (hv : HasVolume S v) (hw : HasVolume S w) : v = w := by
  have := hv.2.symm.trans hw.2
  rwa [ENNReal.ofReal_eq_ofReal_iff hv.1 hw.1] at this

end Verif.FPhys
