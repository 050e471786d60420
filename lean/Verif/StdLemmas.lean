import Verif.StdSpec
import Verif.XformLemmas
import Verif.IterProps

/-! # Lemmas on the change of the up-axis and of the unit -/

namespace Verif.FStd

open Verif.Geo Verif.FXform

theorem turn_isRotation (c : Conv) : IsRotation c.turn := by
  obtain ⟨f, k⟩ := c
  constructor
  · intro a b; cases f <;> ext <;> simp [Conv.turn, Fn.apply, V3.add] <;> ring
  · intro s a; cases f <;> ext <;> simp [Conv.turn, Fn.apply, V3.smul]
  · intro a b; cases f <;> simp [Conv.turn, Fn.apply, V3.dot] <;> ring
  · intro a b; cases f <;> ext <;> simp [Conv.turn, Fn.apply, V3.cross] <;> ring

theorem turn_lengthSquared (c : Conv) (a : V3 ℝ) : (c.turn a).lengthSquared = a.lengthSquared := (turn_isRotation c).dot a a

theorem turn_normalize (c : Conv) {a : V3 ℝ} (h : a.lengthSquared ≠ 0) : (c.turn a).normalize = c.turn a.normalize := by
  have hl : (c.turn a).length = a.length := by
    rw [V3.length, V3.length]
    exact congrArg _ (turn_lengthSquared c a)
  rw [normalize_eq h, normalize_eq (by rwa [turn_lengthSquared]), hl]
  obtain ⟨f, k⟩ := c
  cases f <;> simp [Conv.turn, Fn.apply, neg_div]

theorem carries_rotation_unit (c : Conv) (a : V3 ℝ) (cT sT : ℝ) : Carries c (M44.axisRotation a cT sT) (M44.axisRotation (c.turn a) cT sT) := by
  intro p
  obtain ⟨f, k⟩ := c
  cases f <;> ext <;> simp [Conv.moved, Conv.turn, Fn.apply, V3.smul, M44.transformCoordinate, M44.axisRotation] <;> ring

theorem carries_rotation (c : Conv) {a : V3 ℝ} (h : a.lengthSquared ≠ 0) (t : ℝ) : Carries c (axisRotationMatrix a t) (axisRotationMatrix (c.turn a) t) := by
  rw [axisRotationMatrix, axisRotationMatrix, turn_lengthSquared]
  split
  · exact carries_rotation_unit c a _ _
  · rw [turn_normalize c h]; exact carries_rotation_unit c _ _ _

theorem carries_matrix (c : Conv) (m : M44 ℝ) : Carries c m (convertMatrix c m) := by
  intro p
  obtain ⟨f, k⟩ := c
  cases f <;> ext <;> simp [Conv.moved, Conv.turn, Conv.lengthen, Fn.apply, V3.smul, M44.transformCoordinate, convertMatrix] <;> ring

theorem carries_value (c : Conv) {v : Value} (h : Plain v) : Carries c v.toMatrix (convertValue c v).toMatrix := by
  cases v with
  | translation t =>
    intro p
    obtain ⟨f, k⟩ := c
    cases f <;> ext <;> simp [Conv.moved, Conv.turn, Conv.lengthen, Fn.apply, V3.smul, M44.transformCoordinate, convertValue, Value.toMatrix, M44.translation] <;> ring
  | rotation a x => exact carries_rotation c h _
  | scale s =>
    intro p
    obtain ⟨f, k⟩ := c
    cases f <;> ext <;> simp [Conv.moved, Conv.turn, Conv.turnScale, Fn.apply, V3.smul, M44.transformCoordinate, convertValue, Value.toMatrix, M44.scale, M44.identity, M44.set] <;> ring
  | skew r a x =>
    intro p
    obtain ⟨f, k⟩ := c
    simp only [convertValue, Value.toMatrix, skew_matrix]
    cases f <;> ext <;> simp [Conv.moved, Conv.turn, Fn.apply, V3.smul, M44.transformCoordinate] <;> ring
  | matrix m => exact carries_matrix c m
  | lookAt p t u => exact h.elim

theorem plain_affine {v : Value} (h : Plain v) : v.toMatrix.Affine := value_affine v (by rintro m rfl; exact h)

theorem convertMatrix_affine (c : Conv) {m : M44 ℝ} (h : m.Affine) : (convertMatrix c m).Affine := h

theorem plain_convert (c : Conv) {v : Value} (h : Plain v) : Plain (convertValue c v) := by
  cases v with
  | rotation a x => rwa [convertValue, Plain, turn_lengthSquared]
  | matrix m => exact h
  | lookAt p t u => exact h.elim
  | _ => trivial

theorem carries_identity (c : Conv) : Carries c .identity .identity := by
  intro p
  simp [M44.transformCoordinate, M44.identity, M44.set]

theorem carries_mul {c : Conv} {a a' b b' : M44 ℝ} (ha : Carries c a a') (hb : Carries c b b') (h : b.Affine) (h' : b'.Affine) :
    Carries c (a.mul b) (a'.mul b') := by
  intro p
  rw [(transform_product h' _).1, hb, ha, (transform_product h _).1]

/-- The transforms of a node that are converted. -/
noncomputable def convertAll (c : Conv) (ts : List Transform) : List Transform := ts.map fun t => { t with value := convertValue c t.value }

theorem carries_all (c : Conv) {ts : List Transform} (h : ∀ t ∈ ts, Plain t.value) : Carries c (toMatrix ts) (toMatrix (convertAll c ts)) := by
  induction ts with
  | nil => exact carries_identity c
  | cons t ts ih =>
    rw [convertAll, List.map_cons, toMatrix_cons, toMatrix_cons]
    have h' : ∀ t ∈ ts, Plain t.value := fun t ht => h t (List.mem_cons_of_mem _ ht)
    refine carries_mul (carries_value c (h t List.mem_cons_self)) (ih h') (toMatrix_affine fun t ht => plain_affine (h' t ht)) (toMatrix_affine ?_)
    intro t ht
    obtain ⟨u, hu, rfl⟩ := List.mem_map.mp ht
    exact plain_affine (plain_convert c (h' u hu))

theorem carries_trivial {c : Conv} (ha : c.fn = .identity) (hl : c.factor = 1) (m : M44 ℝ) : Carries c m m := by
  intro p
  obtain ⟨f, k⟩ := c
  obtain rfl : f = .identity := ha
  obtain rfl : k = 1 := hl
  ext <;> simp [Conv.moved, Conv.turn, Fn.apply, V3.smul]

theorem hasLength_iff (c : Conv) : c.hasLength = true ↔ 1 / 10000 ≤ |c.factor - 1| := by
  rw [Conv.hasLength, Bool.not_eq_true', Bool.eq_false_iff, Ne, equivalent_true, tolerance, not_lt]

theorem trivial_of_no {c : Conv} (hc : c.Clear) (h : ¬ (c.hasLength || c.hasAxis) = true) : c.fn = .identity ∧ c.factor = 1 := by
  rw [Bool.or_eq_true, not_or, hasLength_iff] at h
  refine ⟨?_, hc.resolve_right h.1⟩
  have := h.2
  rw [Conv.hasAxis, decide_eq_true_eq, not_not] at this
  exact this

theorem convertValue_trivial {c : Conv} (ha : c.fn = .identity) (hl : c.factor = 1) (v : Value) : convertValue c v = v := by
  obtain ⟨f, k⟩ := c
  obtain rfl : f = .identity := ha
  obtain rfl : k = 1 := hl
  cases v <;> simp [convertValue, Conv.turn, Conv.turnScale, Conv.lengthen, Fn.apply, V3.smul, convertMatrix]

theorem convertTransforms_eq {c : Conv} (hc : c.Clear) (ts : List Transform) : convertTransforms c ts = convertAll c ts := by
  rw [convertTransforms]
  split
  · rfl
  · rename_i h
    obtain ⟨h1, h2⟩ := trivial_of_no hc h
    rw [convertAll]
    symm
    rw [List.map_congr_left (g := id), List.map_id]
    intro t _
    rw [convertValue_trivial h1 h2]
    rfl

end Verif.FStd
