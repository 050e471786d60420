import Verif.BoundLemmas
import Mathlib.Algebra.Order.Field.Rat

/-!
# Properties of bounding boxes (C38)
-/

namespace Verif.Geo

section Box
variable {K : Type} [Field K] [LinearOrder K]

/-- C38: a point is contained in a box if it lies in it; a box is valid if it has points. -/
theorem box_contains (b : Box K) : (∀ p, b.contains p = true ↔ b.Has p) ∧ (b.isValid = true ↔ ∃ p, b.Has p) := ⟨b.contains_iff, b.valid_iff_has⟩

example : (⟨⟨0, 0, 0⟩, ⟨1, 1, 1⟩⟩ : Box ℚ).contains ⟨1, 0, 1 / 2⟩ = true := by decide +kernel

/-- C38: including only grows a box. -/
theorem box_grows (b : Box K) (i : Item K) (p : V3 K) (h : b.Has p) : (b.includeItem i).Has p := by
  have e : b.includeItem i = [i].foldl Box.includeItem b := rfl
  obtain ⟨x1, x2⟩ := pair_eq (fold_x [i] b)
  obtain ⟨y1, y2⟩ := pair_eq (fold_y [i] b)
  obtain ⟨z1, z2⟩ := pair_eq (fold_z [i] b)
  obtain ⟨hx, hy, hz⟩ := h
  rw [e]
  refine ⟨⟨?_, ?_⟩, ⟨?_, ?_⟩, ⟨?_, ?_⟩⟩
  · rw [x1]; exact (fold1_fst_le _ _).1.trans hx.1
  · rw [x2]; exact hx.2.trans (fold1_snd_le _ (b.min.x, b.max.x))
  · rw [y1]; exact (fold1_fst_le _ _).1.trans hy.1
  · rw [y2]; exact hy.2.trans (fold1_snd_le _ (b.min.y, b.max.y))
  · rw [z1]; exact (fold1_fst_le _ _).1.trans hz.1
  · rw [z2]; exact hz.2.trans (fold1_snd_le _ (b.min.z, b.max.z))

/-- C38: after points and boxes are included in a valid box, the box is the smallest one that contains all of it. -/
theorem box_include (b : Box K) (hb : b.isValid = true) (is : List (Item K)) (h : ∀ i ∈ is, ∃ p, i.Has p) :
    (is.foldl Box.includeItem b).Smallest (fun p => b.Has p ∨ ∃ i ∈ is, i.Has p) := items_valid b hb is h

example : [Item.point ⟨5, -1, 0⟩, Item.box ⟨⟨0, 0, 0⟩, ⟨1, 1, 9⟩⟩].foldl Box.includeItem (⟨⟨0, 0, 0⟩, ⟨1, 1, 1⟩⟩ : Box ℚ) =
    ⟨⟨0, -1, 0⟩, ⟨5, 1, 9⟩⟩ := by decide +kernel

/-- C38: a reset box in which a box and then other points and boxes are included is the smallest one that contains all of them. -/
theorem box_reset_box (big : K) (c : Box K) (hc : c.isValid = true) (h1 : Within big c.min) (h2 : Within big c.max) (is : List (Item K))
    (h : ∀ i ∈ is, ∃ p, i.Has p) :
    ((Item.box c :: is).foldl Box.includeItem (Box.reset big)).Smallest (fun p => ∃ i ∈ Item.box c :: is, i.Has p) := by
  have e : (Item.box c :: is).foldl Box.includeItem (Box.reset big) = is.foldl Box.includeItem c := by
    rw [List.foldl_cons]
    congr 1
    exact reset_box big c h1 h2
  rw [e]
  have := items_valid c hc is h
  simpa [Item.Has] using this

example : Within 10 (⟨0, 0, 0⟩ : V3 ℚ) ∧ Within 10 (⟨1, 2, 3⟩ : V3 ℚ) := by unfold Within; decide +kernel

/-- C38, in part: a reset box in which a point and then other points and boxes are included is the smallest one that contains all of them exactly when in no
direction the first point is above all the others. -/
theorem box_reset_partial (big : K) (p : V3 K) (hp : Within big p) (is : List (Item K)) (h : ∀ i ∈ is, ∃ q, i.Has q) :
    ((Item.point p :: is).foldl Box.includeItem (Box.reset big)).Smallest (fun q => ∃ i ∈ Item.point p :: is, i.Has q) ↔
      (∃ q, (∃ i ∈ is, i.Has q) ∧ p.x ≤ q.x) ∧ (∃ q, (∃ i ∈ is, i.Has q) ∧ p.y ≤ q.y) ∧ ∃ q, (∃ i ∈ is, i.Has q) ∧ p.z ≤ q.z := by
  have e : (fun q => ∃ i ∈ Item.point p :: is, i.Has q) = fun q => q = p ∨ ∃ i ∈ is, i.Has q := by
    funext q
    simp [Item.Has]
  rw [e]
  constructor
  · intro hs
    exact items_point_lost big p hp is h (hs.1 p (Or.inl rfl))
  · rintro ⟨hx, hy, hz⟩
    exact items_point big p hp is h hx hy hz

example : [Item.point ⟨0, 0, 3⟩, Item.point ⟨1, 0, 0⟩, Item.point ⟨0, 2, 4⟩].foldl Box.includeItem (Box.reset (10 : ℚ)) =
    ⟨⟨0, 0, 0⟩, ⟨1, 2, 4⟩⟩ := by decide +kernel

/-- C38 fails for the first point: a reset box in which one point is included is not valid and does not contain it; and with points in falling order, the
first one is left out. -/
theorem box_reset_violated :
    ((Box.reset (10 : ℚ)).includePoint ⟨1, 2, 3⟩).isValid = false ∧ ((Box.reset (10 : ℚ)).includePoint ⟨1, 2, 3⟩).contains ⟨1, 2, 3⟩ = false ∧
    (((Box.reset (10 : ℚ)).includePoint ⟨5, 5, 5⟩).includePoint ⟨0, 0, 0⟩).isValid = false ∧
    ((((Box.reset (10 : ℚ)).includePoint ⟨5, 5, 5⟩).includePoint ⟨0, 0, 0⟩).includePoint ⟨1, 1, 1⟩).isValid = true ∧
    ((((Box.reset (10 : ℚ)).includePoint ⟨5, 5, 5⟩).includePoint ⟨0, 0, 0⟩).includePoint ⟨1, 1, 1⟩).contains ⟨5, 5, 5⟩ = false := by
  decide +kernel

omit [Field K] in
/-- C38: `Equals` is equality of the corners. -/
theorem box_equals (a b : Box K) : a.equals b = true ↔ a = b := by
  constructor
  · intro hc
    simp only [Box.equals, Bool.and_eq_true, decide_eq_true_eq] at hc
    ext
    exacts [hc.1.1.1.1.1, hc.1.1.1.2, hc.1.2, hc.1.1.1.1.2, hc.1.1.2, hc.2]
  · rintro rfl
    simp [Box.equals]

omit [Field K] in
/-- C38: overlap is symmetric. -/
theorem box_overlaps_symm (a b : Box K) : a.overlaps b = b.overlaps a := by
  rw [Bool.eq_iff_iff]
  simp only [Box.overlaps, Bool.and_eq_true, decide_eq_true_eq]
  tauto

end Box

section Ordered
variable {K : Type} [Field K] [LinearOrder K] [IsStrictOrderedRing K]

/-- C38: valid boxes overlap exactly when they have a common point; the centre is a common point, around which the common part is symmetric. -/
theorem box_overlaps_partial (a b : Box K) (ha : a.isValid = true) (hb : b.isValid = true) :
    (a.overlaps b = true ↔ ∃ p, a.Has p ∧ b.Has p) ∧
    (a.overlaps b = true → (a.Has (a.overlapCenter b) ∧ b.Has (a.overlapCenter b)) ∧
      ∀ p, a.Has p → b.Has p → a.Has ((V3.smul 2 (a.overlapCenter b)).sub p) ∧ b.Has ((V3.smul 2 (a.overlapCenter b)).sub p)) := by
  refine ⟨overlaps_iff a b ha hb, fun h => ⟨overlapCenter_has a b ha hb h, ?_⟩⟩
  intro p h1 h2
  have mx := mid_reflect h1.1 h2.1
  have my := mid_reflect h1.2.1 h2.2.1
  have mz := mid_reflect h1.2.2 h2.2.2
  exact ⟨⟨mx.1, my.1, mz.1⟩, ⟨mx.2, my.2, mz.2⟩⟩

example : (⟨⟨0, 0, 0⟩, ⟨4, 4, 4⟩⟩ : Box ℚ).overlaps ⟨⟨2, 3, 1⟩, ⟨9, 9, 2⟩⟩ = true ∧
    (⟨⟨0, 0, 0⟩, ⟨4, 4, 4⟩⟩ : Box ℚ).overlapCenter ⟨⟨2, 3, 1⟩, ⟨9, 9, 2⟩⟩ = ⟨3, 7 / 2, 3 / 2⟩ := by decide +kernel

/-- C38 fails for boxes that are not valid: a reset box, which contains nothing, overlaps the infinite one. -/
theorem box_overlaps_violated : (Box.reset (10 : ℚ)).overlaps (Box.infinity 10) = true ∧ (Box.reset (10 : ℚ)).isValid = false := by decide +kernel

/-- C38, in part: a transformed box is the smallest one that contains the images of all points of the box, if each row of the transformation has an entry that is
not negative in the first or third column or not positive in the second: so for all translations, scales, and rotations around one of the axes. -/
theorem box_transform_partial (big : K) (b : Box K) (hb : b.isValid = true) (hinf : b ≠ Box.infinity big) (m : M44 K)
    (hw : ∀ p, b.Has p → Within big (m.transformCoordinate p))
    (hx : 0 ≤ m.m00 ∨ m.m10 ≤ 0 ∨ 0 ≤ m.m20) (hy : 0 ≤ m.m01 ∨ m.m11 ≤ 0 ∨ 0 ≤ m.m21) (hz : 0 ≤ m.m02 ∨ m.m12 ≤ 0 ∨ 0 ≤ m.m22) :
    (b.transform big m).Smallest (fun q => ∃ p, b.Has p ∧ q = m.transformCoordinate p) := transform_smallest big b hb hinf m hw hx hy hz

example : (⟨⟨0, 0, 0⟩, ⟨1, 2, 3⟩⟩ : Box ℚ).transform 100 (M44.zRotation (3 / 5) (4 / 5)) = ⟨⟨-8 / 5, 0, 0⟩, ⟨3 / 5, 2, 3⟩⟩ := by decide +kernel

/-- A rotation by half a turn around the diagonal axis (1, 1, -1). -/
def halfTurn : M44 ℚ :=
  ⟨-1 / 3, 2 / 3, -2 / 3, 0, 2 / 3, -1 / 3, -2 / 3, 0, -2 / 3, -2 / 3, -1 / 3, 0, 0, 0, 0, 1⟩

/-- C38 fails for other rotations: under a rotation by half a turn around a diagonal axis, the transformed box does not contain the image of a corner. -/
theorem box_transform_violated :
    (halfTurn.mul halfTurn.transposed = M44.identity ∧ halfTurn.determinant = 1) ∧
    (⟨⟨0, 0, 0⟩, ⟨1, 1, 1⟩⟩ : Box ℚ).contains ⟨0, 1, 0⟩ = true ∧
    ((⟨⟨0, 0, 0⟩, ⟨1, 1, 1⟩⟩ : Box ℚ).transform 100 halfTurn).contains (halfTurn.transformCoordinate ⟨0, 1, 0⟩) = false := by
  decide +kernel

end Ordered

end Verif.Geo
