import Verif.XformSpec
import Verif.GeoRotProps
import Verif.SceneOps

/-! # Lemmas on the transforms of scene nodes -/

namespace Verif.FXform

open Verif.Geo

theorem insertIdx_take_drop {α : Type} (l : List α) (x : α) (i : Nat) (h : i ≤ l.length) : l.insertIdx i x = l.take i ++ x :: l.drop i := by
  induction l generalizing i with
  | nil =>
    obtain rfl : i = 0 := by simpa using h
    simp
  | cons y l ih =>
    cases i with
    | zero => simp
    | succ i => simp [ih i (by simpa using h)]

theorem transform4_mul (a b : M44 ℝ) (q : V4 ℝ) : (a.mul b).transform4 q = a.transform4 (b.transform4 q) := by
  simp only [M44.transform4, M44.mul, V4.mk.injEq]
  refine ⟨?_, ?_, ?_, ?_⟩ <;> ring

theorem transform4_identity (q : V4 ℝ) : (M44.identity : M44 ℝ).transform4 q = q := by
  simp [M44.transform4, M44.identity, M44.set]

theorem fold_mul (ts : List Transform) (m : M44 ℝ) :
    ts.foldl (fun m t => m.mul t.value.toMatrix) m = m.mul (toMatrix ts) := by
  induction ts generalizing m with
  | nil => exact ((matrix_algebra m m m).2.1).symm
  | cons t ts ih =>
    rw [toMatrix, List.foldl_cons, List.foldl_cons, ih, ih, (matrix_algebra m m m).2.2.1 |> fun _ => (matrix_algebra t.value.toMatrix m m).2.2.1,
      (matrix_algebra m t.value.toMatrix (toMatrix ts)).1]

theorem toMatrix_nil : toMatrix [] = .identity := rfl

theorem toMatrix_cons (t : Transform) (ts : List Transform) : toMatrix (t :: ts) = t.value.toMatrix.mul (toMatrix ts) := by
  rw [toMatrix, List.foldl_cons, fold_mul, (matrix_algebra t.value.toMatrix .identity .identity).2.2.1]

theorem toMatrix_append (ts us : List Transform) : toMatrix (ts ++ us) = (toMatrix ts).mul (toMatrix us) := by
  rw [toMatrix, List.foldl_append, fold_mul]
  rfl

theorem toMatrix_apply (ts : List Transform) (q : V4 ℝ) : (toMatrix ts).transform4 q = applyAll ts q := by
  induction ts with
  | nil => exact transform4_identity q
  | cons t ts ih => rw [toMatrix_cons, transform4_mul, ih]; rfl

theorem toMatrix_affine {ts : List Transform} (h : ∀ t ∈ ts, t.value.toMatrix.Affine) : (toMatrix ts).Affine := by
  induction ts with
  | nil => exact (transform_product (a := .identity) (b := (.identity : M44 ℝ)) (by simp [M44.Affine, M44.identity, M44.set]) ⟨0, 0, 0⟩).2.2.2.1
  | cons t ts ih =>
    rw [toMatrix_cons]
    exact (transform_product (ih fun t ht => h t (List.mem_cons_of_mem _ ht)) ⟨0, 0, 0⟩).2.2.2.2 (h t (List.mem_cons_self ..))

theorem toMatrix_point {ts : List Transform} (h : ∀ t ∈ ts, t.value.toMatrix.Affine) (p : V3 ℝ) :
    (toMatrix ts).transformCoordinate p = movePoint ts p := by
  induction ts with
  | nil => simp [toMatrix_nil, M44.transformCoordinate, M44.identity, M44.set, movePoint]
  | cons t ts ih =>
    have h' : ∀ t ∈ ts, t.value.toMatrix.Affine := fun t ht => h t (List.mem_cons_of_mem _ ht)
    rw [toMatrix_cons, (transform_product (toMatrix_affine h') p).1, ih h']
    rfl

theorem skew_matrix (s : ℝ) (r a : V3 ℝ) : M44.set (skewArray s r a) =
    ⟨1 + s * r.x * a.x, s * r.y * a.x, s * r.z * a.x, 0, s * r.x * a.y, 1 + s * r.y * a.y, s * r.z * a.y, 0,
      s * r.x * a.z, s * r.y * a.z, 1 + s * r.z * a.z, 0, 0, 0, 0, 1⟩ := by
  simp [M44.set, skewArray, comp]

theorem value_affine (v : Value) (h : ∀ m, v = .matrix m → m.Affine) : v.toMatrix.Affine := by
  cases v with
  | translation t => simp [Value.toMatrix, M44.translation, M44.Affine]
  | rotation a x => simp [Value.toMatrix, axisRotationMatrix, M44.axisRotation, M44.Affine]
  | scale s => simp [Value.toMatrix, M44.scale, M44.identity, M44.set, M44.Affine]
  | skew r a x => rw [Value.toMatrix, skew_matrix]; simp [M44.Affine]
  | matrix m => exact h m rfl
  | lookAt p t u => simp [Value.toMatrix, lookAtMatrix, M44.Affine]

theorem cloneTransforms_eq (ts old : List Transform) : cloneTransforms ts old = old ++ ts.map fun t => ⟨[], t.value⟩ := by
  induction ts generalizing old with
  | nil => simp [cloneTransforms]
  | cons t ts ih =>
    have e : cloneInto t (create t.value.kind) = ⟨[], t.value⟩ := by
      obtain ⟨i, v⟩ := t
      cases v <;> rfl
    have := ih (old ++ [⟨[], t.value⟩])
    rw [cloneTransforms] at this ⊢
    rw [List.foldl_cons, e, this]
    simp

/-- The measure that falls towards the roots. -/
theorem world_ends {w : FScene.World} (hg : FScene.Good w) (tf : Nat → List Transform) (x : Nat) (hx : (w.nodes x).isSome) :
    ∃ m l, Chain w l x ∧ m = toMatrix (l.flatMap tf) ∧ ∃ N, ∀ n ≥ N, worldTransform w tf n x = some m := by
  have hm := FScene.good_mirror hg
  obtain ⟨rk, hi, L, hL⟩ := id hg
  obtain ⟨B, hB⟩ : ∃ B, ∀ y ∈ L, rk y ≤ B := by
    clear hL
    induction L with
    | nil => exact ⟨0, by simp⟩
    | cons z L ih =>
      obtain ⟨B, hB⟩ := ih
      refine ⟨max B (rk z), fun y hy => ?_⟩
      rcases List.mem_cons.mp hy with rfl | hy
      · exact Nat.le_max_right ..
      · exact le_trans (hB y hy) (Nat.le_max_left ..)
  suffices H : ∀ k x, (w.nodes x).isSome → B - rk x ≤ k → ∃ m l, Chain w l x ∧ m = toMatrix (l.flatMap tf) ∧
      ∀ n ≥ k + 1, worldTransform w tf n x = some m by
    obtain ⟨m, l, h1, h2, h3⟩ := H _ x hx le_rfl
    exact ⟨m, l, h1, h2, _, h3⟩
  intro k
  induction k with
  | zero =>
    intro x hx hk
    obtain ⟨a, ha⟩ := Option.isSome_iff_exists.mp hx
    cases hp : a.parents with
    | nil =>
      refine ⟨toMatrix (tf x), [x], .root ha hp, by simp, fun n hn => ?_⟩
      obtain ⟨n, rfl⟩ := Nat.exists_eq_succ_of_ne_zero (by omega : n ≠ 0)
      simp [worldTransform, ha, hp]
    | cons p ps =>
      have hc : FScene.Child w p x := (hm p x).mpr ⟨a, ha, by simp [hp]⟩
      have h1 := hi.rank p x hc
      have h2 : (w.nodes p).isSome := by obtain ⟨b, hb, _⟩ := hc; simp [hb]
      have := hB p (hL p h2)
      omega
  | succ k ih =>
    intro x hx hk
    obtain ⟨a, ha⟩ := Option.isSome_iff_exists.mp hx
    cases hp : a.parents with
    | nil =>
      refine ⟨toMatrix (tf x), [x], .root ha hp, by simp, fun n hn => ?_⟩
      obtain ⟨n, rfl⟩ := Nat.exists_eq_succ_of_ne_zero (by omega : n ≠ 0)
      simp [worldTransform, ha, hp]
    | cons p ps =>
      have hc : FScene.Child w p x := (hm p x).mpr ⟨a, ha, by simp [hp]⟩
      have h1 := hi.rank p x hc
      have h2 : (w.nodes p).isSome := by obtain ⟨b, hb, _⟩ := hc; simp [hb]
      obtain ⟨m, l, c1, c2, c3⟩ := ih p h2 (by omega)
      refine ⟨m.mul (toMatrix (tf x)), l ++ [x], .step ha hp c1, ?_, fun n hn => ?_⟩
      · rw [List.flatMap_append, toMatrix_append, c2]
        simp
      · obtain ⟨n, rfl⟩ := Nat.exists_eq_succ_of_ne_zero (by omega : n ≠ 0)
        simp only [worldTransform, ha, hp]
        rw [c3 n (by omega)]
        rfl

theorem degToRad_neg (x : ℝ) : degToRad (-x) = -degToRad x := by
  rw [degToRad, degToRad]; ring

theorem degToRad_add (x y : ℝ) : degToRad (x + y) = degToRad x + degToRad y := by
  rw [degToRad, degToRad, degToRad]; ring

theorem lengthSquared_neg (a : V3 ℝ) : a.neg.lengthSquared = a.lengthSquared := by
  simp [V3.neg, V3.lengthSquared]

/-- The opposite axis is the rotation back. -/
theorem rotation_neg {a : V3 ℝ} (h : a.lengthSquared ≠ 0) (t : ℝ) : axisRotationMatrix a.neg t = axisRotationMatrix a (-t) := by
  have hn : a.neg.normalize = a.normalize.neg := by
    have hl : a.neg.length = a.length := by simp [V3.length, V3.neg]
    rw [normalize_eq h, normalize_eq (by rwa [lengthSquared_neg]), hl]
    simp [V3.neg, neg_div]
  rw [axisRotationMatrix, axisRotationMatrix, lengthSquared_neg, Real.cos_neg, Real.sin_neg]
  split
  · ext <;> simp [M44.axisRotation, V3.neg] <;> ring
  · rw [hn]
    ext <;> simp [M44.axisRotation, V3.neg] <;> ring

theorem rotation_cancel {a : V3 ℝ} (h : a.lengthSquared = 1 ∨ 1 / 10000 ≤ |a.lengthSquared - 1|) (t : ℝ) :
    Cancel (axisRotationMatrix a t) (axisRotationMatrix a (-t)) := by
  have h1 := axis_rotation_partial h t (-t) ⟨0, 0, 0⟩
  have h2 := axis_rotation_partial h (-t) t ⟨0, 0, 0⟩
  refine ⟨?_, ?_⟩
  · rw [h1.2.2.2.1, add_neg_cancel, h1.2.2.2.2]
  · rw [h2.2.2.2.1, neg_add_cancel, h1.2.2.2.2]

theorem equivalent_comm (a b : ℝ) : equivalent a b = equivalent b a := by
  rw [equivalent, equivalent, Bool.and_comm]

theorem equivalent_neg (a b : ℝ) : equivalent (-a) b = equivalent (-b) a := by
  rw [Bool.eq_iff_iff, equivalent_true, equivalent_true, show -a - b = -b - a by ring]

theorem equivalent3_comm (a b : V3 ℝ) : equivalent3 a b = equivalent3 b a := by
  simp only [equivalent3, equivalent_comm]

theorem equivalent3_neg (a b : V3 ℝ) : equivalent3 a.neg b = equivalent3 b.neg a := by
  simp only [equivalent3, V3.neg]
  rw [equivalent_neg a.x, equivalent_neg a.y, equivalent_neg a.z]

theorem equivalent3_refl (a : V3 ℝ) : equivalent3 a a = true := by
  simp [equivalent3, equivalent_refl]

theorem smul_neg_one (a : V3 ℝ) : a.smul (-1) = a.neg := by
  simp [V3.smul, V3.neg]

end Verif.FXform
