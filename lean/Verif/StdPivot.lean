import Verif.StdDoc
import Verif.GeoRotProps

/-! # Lemmas on pivots and look-ats -/

namespace Verif.FStd

open Verif.Geo Verif.FXform

theorem rotation_cancel (a : V3 ℝ) (h : a.lengthSquared = 1) (x : ℝ) :
    (Value.rotation a x).toMatrix.mul (Value.rotation a (-x)).toMatrix = .identity := by
  have h1 := (unit_axis_rotation h (degToRad x) (degToRad (-x)) ⟨0, 0, 0⟩).2.2.2
  have h2 := (axis_rotation_partial (Or.inl h) 0 0 ⟨0, 0, 0⟩).2.2.2.2
  simp only [Value.toMatrix]
  rw [h1]
  have : degToRad x + degToRad (-x) = 0 := by simp only [degToRad]; ring
  rw [this, h2]

/-- The axes and the angles of pivots. -/
def PivotAxis (b : V3 ℝ) : Prop := b = ⟨1, 0, 0⟩ ∨ b = ⟨0, 0, 1⟩

def PivotAngle (y : ℝ) : Prop := y = 90 ∨ y = -90

theorem pivotAxis_unit {b : V3 ℝ} (h : PivotAxis b) : b.lengthSquared = 1 := by
  rcases h with rfl | rfl <;> simp [V3.lengthSquared]

theorem lastRotation_some {ts : List Entry} {a : V3 ℝ} {x : ℝ} (h : lastRotation ts = some (a, x)) :
    ∃ us s, ts = us ++ [(⟨s, .rotation a x⟩, false)] := by
  rw [lastRotation.eq_def] at h
  split at h
  · rename_i s a' x' e
    simp only [Option.some.injEq, Prod.mk.injEq] at h
    obtain ⟨rfl, rfl⟩ := h
    exact ⟨ts.dropLast, s, (List.dropLast_append_getLast? _ (by rw [e]; rfl)).symm⟩
  · cases h

theorem lastRotation_append (us : List Entry) (s : List Int) (a : V3 ℝ) (x : ℝ) : lastRotation (us ++ [(⟨s, .rotation a x⟩, false)]) = some (a, x) := by
  rw [lastRotation.eq_def, List.getLast?_concat]

theorem toMatrix_addRotation (ts : List Entry) (a : V3 ℝ) (x : ℝ) :
    toMatrix (stack (addRotation ts a x)) = (toMatrix (stack ts)).mul (Value.rotation a x).toMatrix := by
  rw [addRotation, stack, List.map_append, toMatrix_append]
  congr 1
  simp only [List.map_cons, List.map_nil, toMatrix_cons]
  exact (matrix_algebra _ .identity .identity).2.1

theorem smartAdd_matrix {ts : List Entry} (hx : ExactRotations ts) {b : V3 ℝ} (hb : PivotAxis b) {y : ℝ} (hy : PivotAngle y) :
    toMatrix (stack (smartAdd ts b y)) = (toMatrix (stack ts)).mul (Value.rotation b y).toMatrix ∧ ExactRotations (smartAdd ts b y) := by
  have hadd : ExactRotations (addRotation ts b y) := by
    intro e he a x ha b' y' hb' hy' hn hd
    rw [addRotation, List.mem_append, List.mem_singleton] at he
    rcases he with he | rfl
    · exact hx e he a x ha b' y' hb' hy' hn hd
    · simp only [Value.rotation.injEq] at ha
      obtain ⟨rfl, rfl⟩ := ha
      obtain ⟨h1, h2, h3⟩ := hn
      constructor
      · rcases hb with rfl | rfl <;> rcases hb' with rfl | rfl
        · rfl
        · norm_num at h1
        · norm_num at h1
        · rfl
      · rcases hy with rfl | rfl <;> rcases hy' with rfl | rfl
        · rfl
        · norm_num at hd
        · norm_num at hd
        · rfl
  rw [smartAdd.eq_def]
  split
  · rename_i a x e
    split
    · rename_i hc
      obtain ⟨us, s, rfl⟩ := lastRotation_some e
      rw [Bool.and_eq_true, equivalent3_near, equivalent_true] at hc
      obtain ⟨rfl, rfl⟩ := hx _ (List.mem_append_right _ List.mem_cons_self) a x rfl b (-y) hb (by rcases hy with rfl | rfl <;> simp) hc.1 hc.2
      rw [List.dropLast_concat]
      refine ⟨?_, fun e he => hx e (List.mem_append_left _ he)⟩
      change toMatrix (stack us) = (toMatrix (List.map Prod.fst (us ++ [((⟨s, .rotation a (-y)⟩ : Transform), false)]))).mul _
      rw [List.map_append, toMatrix_append, (matrix_algebra _ _ _).1]
      simp only [List.map_cons, List.map_nil, toMatrix_cons]
      have h1 : (Value.rotation a (-y)).toMatrix.mul (toMatrix []) = (Value.rotation a (-y)).toMatrix := (matrix_algebra _ .identity .identity).2.1
      have h2 := rotation_cancel a (pivotAxis_unit hb) (-y)
      rw [neg_neg] at h2
      rw [h1, h2, (matrix_algebra _ .identity .identity).2.1]
    · exact ⟨toMatrix_addRotation ts b y, hadd⟩
  · exact ⟨toMatrix_addRotation ts b y, hadd⟩

theorem quarter (x : ℝ) (h : PivotAngle x) : Real.cos (degToRad x) = 0 ∧ Real.sin (degToRad x) = x / 90 := by
  rcases h with rfl | rfl
  · have : degToRad 90 = Real.pi / 2 := by rw [degToRad]; ring
    rw [this, Real.cos_pi_div_two, Real.sin_pi_div_two]
    norm_num
  · have : degToRad (-90) = -(Real.pi / 2) := by rw [degToRad]; ring
    rw [this, Real.cos_neg, Real.sin_neg, Real.cos_pi_div_two, Real.sin_pi_div_two]
    norm_num

theorem xQuarter {x : ℝ} (h : PivotAngle x) (p : V3 ℝ) : (Value.rotation ⟨1, 0, 0⟩ x).toMatrix.transformCoordinate p = ⟨p.x, -(x / 90 * p.z), x / 90 * p.y⟩ := by
  rw [Value.toMatrix, axisRotationMatrix_x, xAxisRotationMatrix, (quarter x h).1, (quarter x h).2]
  ext <;> simp [M44.xRotation, M44.identity, M44.set, M44.transformCoordinate]

theorem zQuarter {x : ℝ} (h : PivotAngle x) (p : V3 ℝ) : (Value.rotation ⟨0, 0, 1⟩ x).toMatrix.transformCoordinate p = ⟨-(x / 90 * p.y), x / 90 * p.x, p.z⟩ := by
  rw [Value.toMatrix, axisRotationMatrix_z, zAxisRotationMatrix, (quarter x h).1, (quarter x h).2]
  ext <;> simp [M44.zRotation, M44.identity, M44.set, M44.transformCoordinate]

theorem rotation_affine (a : V3 ℝ) (x : ℝ) : (Value.rotation a x).toMatrix.Affine := value_affine _ (fun _ h => nomatch h)

theorem smartAdd_point {ts : List Entry} (hx : ExactRotations ts) {b : V3 ℝ} (hb : PivotAxis b) {y : ℝ} (hy : PivotAngle y) (p : V3 ℝ) :
    (toMatrix (stack (smartAdd ts b y))).transformCoordinate p = (toMatrix (stack ts)).transformCoordinate ((Value.rotation b y).toMatrix.transformCoordinate p) := by
  rw [(smartAdd_matrix hx hb hy).1, (transform_product (rotation_affine _ _) _).1]

theorem setPivot_point {ts : List Entry} (hx : ExactRotations ts) (target current : Axis) (k : ℝ) (p : V3 ℝ) :
    (toMatrix (stack (setPivot target current false ts))).transformCoordinate p =
      (toMatrix (stack ts)).transformCoordinate ((⟨prepare target current, k⟩ : Conv).turn p) := by
  have p90 : PivotAngle 90 := Or.inl rfl
  have m90 : PivotAngle (-90) := Or.inr rfl
  have ax : PivotAxis ⟨1, 0, 0⟩ := Or.inl rfl
  have az : PivotAxis ⟨0, 0, 1⟩ := Or.inr rfl
  rw [setPivot]
  cases target <;> cases current <;>
    simp only [prepare, pivotIn, pivotOut, Conv.turn, Fn.apply, if_true, if_false, reduceCtorEq, or_true, or_false, or_self, and_true, Bool.false_eq_true]
  · rw [smartAdd_point hx az m90, zQuarter m90]; norm_num
  · rw [smartAdd_point (smartAdd_matrix hx ax m90).2 az m90, smartAdd_point hx ax m90, zQuarter m90, xQuarter m90]; norm_num
  · rw [smartAdd_point hx az p90, zQuarter p90]; norm_num
  · rw [smartAdd_point hx ax m90, xQuarter m90]; norm_num
  · rw [smartAdd_point (smartAdd_matrix hx az p90).2 ax p90, smartAdd_point hx az p90, zQuarter p90, xQuarter p90]; norm_num
  · rw [smartAdd_point hx ax p90, xQuarter p90]; norm_num

theorem zQuarter_vector {x : ℝ} (d : ℝ) : (Value.rotation ⟨0, 0, 1⟩ x).toMatrix.transformVector ⟨0, 0, d⟩ = ⟨0, 0, d⟩ ∧
    (Value.rotation ⟨0, 0, 1⟩ x).toMatrix.transformCoordinate ⟨0, 0, d⟩ = ⟨0, 0, d⟩ := by
  rw [Value.toMatrix, axisRotationMatrix_z, zAxisRotationMatrix]
  constructor
  · ext <;> simp [M44.zRotation, M44.identity, M44.set, M44.transformVector]
  · ext <;> simp [M44.zRotation, M44.identity, M44.set, M44.transformCoordinate]

theorem smartAdd_roll {ts : List Entry} (hx : ExactRotations ts) {y : ℝ} (hy : PivotAngle y) (d : ℝ) :
    (toMatrix (stack (smartAdd ts ⟨0, 0, 1⟩ y))).transformVector ⟨0, 0, d⟩ = (toMatrix (stack ts)).transformVector ⟨0, 0, d⟩ ∧
    (toMatrix (stack (smartAdd ts ⟨0, 0, 1⟩ y))).transformCoordinate ⟨0, 0, d⟩ = (toMatrix (stack ts)).transformCoordinate ⟨0, 0, d⟩ := by
  rw [(smartAdd_matrix hx (Or.inr rfl) hy).1, (transform_product (rotation_affine _ _) _).2.1, (transform_product (rotation_affine _ _) _).1,
    (zQuarter_vector d).1, (zQuarter_vector d).2]
  exact ⟨rfl, rfl⟩

theorem setPivot_roll {ts : List Entry} (hx : ExactRotations ts) (target current : Axis) (d : ℝ) :
    (toMatrix (stack (setPivot target current true ts))).transformVector ⟨0, 0, d⟩ = (toMatrix (stack ts)).transformVector ⟨0, 0, d⟩ ∧
    (toMatrix (stack (setPivot target current true ts))).transformCoordinate ⟨0, 0, d⟩ = (toMatrix (stack ts)).transformCoordinate ⟨0, 0, d⟩ := by
  rw [setPivot]
  split
  · exact ⟨rfl, rfl⟩
  have key : ∀ us, ExactRotations us → ∀ current', ∀ f : Axis → Bool → List Entry → List Entry, (f = pivotOut ∨ f = pivotIn) →
      ((toMatrix (stack (f current' true us))).transformVector ⟨0, 0, d⟩ = (toMatrix (stack us)).transformVector ⟨0, 0, d⟩ ∧
      (toMatrix (stack (f current' true us))).transformCoordinate ⟨0, 0, d⟩ = (toMatrix (stack us)).transformCoordinate ⟨0, 0, d⟩) ∧ ExactRotations (f current' true us) := by
    intro us hu a f hf
    rcases hf with rfl | rfl
    · cases a <;> simp only [pivotOut, reduceCtorEq, Bool.true_eq_false, and_false, if_false, if_true, and_self, true_and] <;>
        first
          | exact hu
          | exact ⟨smartAdd_roll hu (Or.inl rfl) d, (smartAdd_matrix hu (Or.inr rfl) (Or.inl rfl)).2⟩
    · cases a <;> simp only [pivotIn, reduceCtorEq, Bool.true_eq_false, and_false, if_false, if_true, and_self, true_and] <;>
        first
          | exact hu
          | exact ⟨smartAdd_roll hu (Or.inr rfl) d, (smartAdd_matrix hu (Or.inr rfl) (Or.inr rfl)).2⟩
  have h1 := key ts hx current pivotOut (Or.inl rfl)
  have h2 := key _ h1.2 target pivotIn (Or.inr rfl)
  exact ⟨h2.1.1.trans h1.1.1, h2.1.2.trans h1.1.2⟩

/-! ## Look-ats -/

theorem near_turn (c : Conv) (a b : V3 ℝ) : Near (c.turn a) (c.turn b) ↔ Near a b := by
  have hn' : ∀ x y : ℝ, |-x + y| = |x - y| := fun x y => by rw [← abs_neg]; congr 1; ring
  obtain ⟨f, k⟩ := c
  cases f <;> simp [Near, Conv.turn, Fn.apply, hn'] <;> tauto

theorem turn_neg (c : Conv) (a : V3 ℝ) : c.turn a.neg = (c.turn a).neg := by
  obtain ⟨f, k⟩ := c
  cases f <;> simp [Conv.turn, Fn.apply, V3.neg]

theorem normalize_smul {k : ℝ} (hk : 0 < k) {a : V3 ℝ} (h : a.lengthSquared ≠ 0) : (V3.smul k a).normalize = a.normalize := by
  have hl : (V3.smul k a).length = k * a.length := by
    rw [V3.length, V3.length]
    have : (V3.smul k a).x * (V3.smul k a).x + (V3.smul k a).y * (V3.smul k a).y + (V3.smul k a).z * (V3.smul k a).z =
        k ^ 2 * (a.x * a.x + a.y * a.y + a.z * a.z) := by simp only [V3.smul]; ring
    rw [this, Real.sqrt_mul (by positivity), Real.sqrt_sq hk.le]
  have h' : (V3.smul k a).lengthSquared ≠ 0 := by
    have : (V3.smul k a).lengthSquared = k ^ 2 * a.lengthSquared := by simp only [V3.smul, V3.lengthSquared]; ring
    rw [this]
    exact mul_ne_zero (by positivity) h
  rw [normalize_eq h', normalize_eq h, hl]
  simp only [V3.smul]
  rw [mul_div_mul_left _ _ hk.ne', mul_div_mul_left _ _ hk.ne', mul_div_mul_left _ _ hk.ne']

theorem lookAt_moved (c : Conv) (hk : 0 < c.factor) {p t u : V3 ℝ} (h : Looks p t u) (q : V3 ℝ) :
    (convertValue c (.lookAt p t u)).toMatrix.transformCoordinate (V3.smul c.factor q) = c.moved ((Value.lookAt p t u).toMatrix.transformCoordinate q) := by
  have hr := turn_isRotation c
  have hsub : (c.lengthen (c.turn t)).sub (c.lengthen (c.turn p)) = V3.smul c.factor (c.turn (t.sub p)) := by
    obtain ⟨f, k⟩ := c
    cases f <;> ext <;> simp [Conv.lengthen, Conv.turn, Fn.apply, V3.sub, V3.smul] <;> ring
  have hf : ((c.lengthen (c.turn t)).sub (c.lengthen (c.turn p))).normalize = c.turn (t.sub p).normalize := by
    rw [hsub, normalize_smul hk (by rw [turn_lengthSquared]; exact h.apart), turn_normalize c h.apart]
  have hs : sideways (c.turn (t.sub p).normalize) (c.turn u) = c.turn (sideways (t.sub p).normalize u) := by
    rw [sideways, sideways]
    have e1 : equivalent3 (t.sub p).normalize u = false := by rw [Bool.eq_false_iff, Ne, equivalent3_near]; exact h.up
    have e2 : equivalent3 (t.sub p).normalize u.neg = false := by rw [Bool.eq_false_iff, Ne, equivalent3_near]; exact h.down
    have e3 : equivalent3 (c.turn (t.sub p).normalize) (c.turn u) = false := by rw [Bool.eq_false_iff, Ne, equivalent3_near, near_turn]; exact h.up
    have e4 : equivalent3 (c.turn (t.sub p).normalize) (c.turn u).neg = false := by
      rw [Bool.eq_false_iff, Ne, equivalent3_near, ← turn_neg, near_turn]; exact h.down
    rw [e1, e2, e3, e4]
    simp only [Bool.not_false, Bool.and_self, if_true]
    rw [← hr.cross, turn_normalize c h.cross]
  simp only [convertValue, Value.toMatrix, lookAtMatrix]
  rw [hf, hs, ← hr.cross]
  generalize sideways (t.sub p).normalize u = s
  generalize (t.sub p).normalize = f
  generalize s.cross f = v
  obtain ⟨g, k⟩ := c
  cases g <;> ext <;> simp [Conv.moved, Conv.turn, Conv.lengthen, Fn.apply, V3.smul, M44.transformCoordinate] <;> ring

end Verif.FStd
