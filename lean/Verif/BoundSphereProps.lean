import Verif.BoundSphereLemmas
import Mathlib.Tactic.NormNum

/-!
# Properties of bounding spheres (C39)
-/

namespace Verif.Geo

/-- C39: all points of a sphere are contained in it, and no point further away than the tolerance of 0.0001, on squared distances, is. -/
theorem sphere_contains (s : Sphere) (p : V3 ℝ) :
    (s.Has p → s.contains p) ∧ (s.contains p → 0 ≤ s.radius ∧ distance s.center p ^ 2 < s.radius ^ 2 + 1 / 10000) := by
  unfold Sphere.contains
  rw [s.has_iff, lengthSquared_sub]
  refine ⟨?_, ?_⟩
  · rintro ⟨h0, h⟩
    refine ⟨h0, ?_⟩
    rcases lt_or_eq_of_le h with h | h
    · exact Or.inl h
    · right; rw [h]; simp [equivalent, tolerance]
  · rintro ⟨h0, h | h⟩
    · exact ⟨h0, by nlinarith⟩
    · simp only [equivalent, tolerance, Bool.and_eq_true] at h
      have h1 := of_decide_eq_true h.1
      exact ⟨h0, by linarith [sq s.radius]⟩

example : Sphere.Has ⟨⟨0, 0, 0⟩, 5⟩ ⟨3, 0, 4⟩ := by
  unfold Sphere.Has distance
  rw [show ((0 : ℝ) - 3) ^ 2 + (0 - 0) ^ 2 + (0 - 4) ^ 2 = 5 ^ 2 by norm_num, Real.sqrt_sq (by norm_num)]

/-- C39: a sphere in which a point is included has the point and all that it had, and is not larger than that needs with its centre. -/
theorem sphere_include_point (s : Sphere) (p : V3 ℝ) : (s.includePoint p).Tight (fun q => s.Has q ∨ q = p) := by
  by_cases hs : 0 ≤ s.radius
  · obtain ⟨e1, e2⟩ := includePoint_valid s hs p
    refine ⟨?_, ?_⟩
    · rintro q (hq | rfl)
      · unfold Sphere.Has; rw [e1, e2]; exact (show distance s.center q ≤ s.radius from hq).trans (le_max_left _ _)
      · unfold Sphere.Has; rw [e1, e2]; exact le_max_right _ _
    · intro r hr
      rw [e2]
      rw [e1] at hr
      exact max_le (radius_le s hs r (fun q hq => hr q (Or.inl hq))) (hr p (Or.inr rfl))
  · have e : s.includePoint p = ⟨p, 0⟩ := by unfold Sphere.includePoint; rw [if_neg hs]
    rw [e]
    refine ⟨?_, ?_⟩
    · rintro q (hq | rfl)
      · exact absurd (Sphere.valid_of_has hq) hs
      · unfold Sphere.Has; rw [distance_self]
    · intro r hr
      exact Sphere.valid_of_has (hr p (Or.inr rfl))

/-- C39: a sphere in which a valid box is included has all points of the box and all that it had, and is not larger than that needs with its centre. -/
theorem sphere_include_box (s : Sphere) (b : Box ℝ) (hb : b.isValid = true) : (s.includeBox b).Tight (fun q => s.Has q ∨ b.Has q) := by
  unfold Sphere.includeBox
  by_cases hs : 0 ≤ s.radius
  · rw [if_pos hs]
    obtain ⟨e1, e2, e3, e4⟩ := includePoints_valid b.coordinates s hs
    refine ⟨?_, ?_⟩
    · rintro q (hq | hq)
      · unfold Sphere.Has; rw [e1]; exact (show distance s.center q ≤ s.radius from hq).trans e2
      · unfold Sphere.Has; rw [e1]; exact box_in_sphere s.center b _ e3 q hq
    · intro r hr
      rw [e1] at hr
      exact e4 r (radius_le s hs r (fun q hq => hr q (Or.inl hq))) (fun p hp => hr p (Or.inr (coordinates_has b hb p hp)))
  · rw [if_neg hs, length_sub]
    obtain ⟨hx, hy, hz⟩ := b.isValid_iff.1 hb
    refine ⟨?_, ?_⟩
    · rintro q (hq | hq)
      · exact absurd (Sphere.valid_of_has hq) hs
      · obtain ⟨qx, qy, qz⟩ := hq
        unfold Sphere.Has distance
        apply Real.sqrt_le_sqrt
        simp only [Box.center]
        have half : ∀ lo hi x : ℝ, lo ≤ x → x ≤ hi → ((lo + hi) / 2 - x) ^ 2 ≤ (hi - (lo + hi) / 2) ^ 2 := by
          intro lo hi x h1 h2; nlinarith
        exact add_le_add (add_le_add (half _ _ _ qx.1 qx.2) (half _ _ _ qy.1 qy.2)) (half _ _ _ qz.1 qz.2)
    · intro r hr
      have h := hr b.max (Or.inr ⟨⟨hx, le_rfl⟩, ⟨hy, le_rfl⟩, ⟨hz, le_rfl⟩⟩)
      unfold Sphere.Has at h
      rw [distance_comm]; exact h

example : (⟨⟨0, 0, 0⟩, ⟨1, 2, 3⟩⟩ : Box ℝ).isValid = true := by simp [Box.isValid_iff]

/-- C39, in part: a valid sphere in which another is included has all points of both exactly when it had them already or both have the same radius; in these
cases it is the smallest such sphere. -/
theorem sphere_include_sphere_partial (s o : Sphere) (hs : 0 ≤ s.radius) (ho : 0 ≤ o.radius) :
    ((∀ p, s.Has p ∨ o.Has p → (s.includeSphere o).Has p) ↔ distance s.center o.center + o.radius ≤ s.radius ∨ o.radius = s.radius) ∧
    (distance s.center o.center + o.radius ≤ s.radius ∨ o.radius = s.radius → (s.includeSphere o).Least (fun p => s.Has p ∨ o.Has p)) := by
  have suff : distance s.center o.center + o.radius ≤ s.radius ∨ o.radius = s.radius → (s.includeSphere o).Least (fun p => s.Has p ∨ o.Has p) := by
    intro h
    by_cases near : distance s.center o.center + o.radius ≤ s.radius
    · rw [includeSphere_near s o hs near]
      refine ⟨?_, fun u hu => radius_le' s hs u (fun p hp => hu p (Or.inl hp))⟩
      rintro q (hq | hq)
      · exact hq
      · have t := distance_triangle s.center o.center q
        unfold Sphere.Has at hq ⊢
        linarith
    · have e : o.radius = s.radius := h.resolve_left near
      push Not at near
      have hd : 0 < distance s.center o.center := by linarith
      rw [includeSphere_far s o hs near]
      refine ⟨?_, fun u hu => far_radius_le s o hs ho hd u hu⟩
      have hk : (o.radius + distance s.center o.center / 2) / (s.radius + o.radius + distance s.center o.center) = 1 / 2 := by
        rw [e, div_eq_div_iff (by linarith) (by norm_num)]; ring
      rw [hk]
      rintro q (hq | hq)
      · have t := distance_triangle (along s.center o.center (1 / 2)) s.center q
        rw [distance_comm _ s.center, distance_along_left, abs_of_pos (by norm_num)] at t
        unfold Sphere.Has at hq ⊢
        dsimp only
        linarith
      · have t := distance_triangle (along s.center o.center (1 / 2)) o.center q
        rw [distance_comm _ o.center, distance_along_right, abs_of_pos (by norm_num)] at t
        unfold Sphere.Has at hq ⊢
        dsimp only
        linarith
  refine ⟨⟨?_, fun h => (suff h).1⟩, suff⟩
  intro h
  by_contra hc
  push Not at hc
  obtain ⟨far, ne⟩ := hc
  rw [includeSphere_far s o hs far] at h
  rcases (distance_nonneg s.center o.center).eq_or_lt with hd | hd
  · have l := radius_le' o ho _ (fun p hp => h p (Or.inr hp))
    dsimp only at l
    rw [← hd] at l far
    linarith
  · set d := distance s.center o.center with hd'
    set t := (o.radius + d / 2) / (s.radius + o.radius + d) with ht
    have pos : 0 < s.radius + o.radius + d := by linarith
    have htm : t * (s.radius + o.radius + d) = o.radius + d / 2 := div_mul_cancel₀ _ pos.ne'
    have ht0 : 0 ≤ t := by positivity
    have ht1 : t ≤ 1 := by rw [ht, div_le_one pos]; linarith
    have h1 := h (along s.center o.center (-(s.radius / d))) (by
      left; unfold Sphere.Has
      rw [distance_along_left, abs_neg, abs_of_nonneg (by positivity), ← hd', div_mul_cancel₀ _ hd.ne'])
    have h2 := h (along s.center o.center (1 + o.radius / d)) (by
      right; unfold Sphere.Has
      rw [distance_along_right, show (1 - (1 + o.radius / d)) = -(o.radius / d) by ring, abs_neg, abs_of_nonneg (by positivity), ← hd',
        div_mul_cancel₀ _ hd.ne'])
    unfold Sphere.Has at h1 h2
    dsimp only at h1 h2
    have p1 : 0 ≤ s.radius / d := by positivity
    have p2 : 0 ≤ o.radius / d := by positivity
    have e1 : s.radius / d * d = s.radius := div_mul_cancel₀ _ hd.ne'
    have e2 : o.radius / d * d = o.radius := div_mul_cancel₀ _ hd.ne'
    rw [distance_along, ← hd', abs_of_nonneg (by linarith)] at h1
    rw [distance_along, ← hd', abs_of_nonpos (by linarith)] at h2
    have g1 : t * d + s.radius ≤ (s.radius + o.radius + d) / 2 := by linarith [show (t - -(s.radius / d)) * d = t * d + s.radius by linear_combination e1]
    have g2 : d + o.radius - t * d ≤ (s.radius + o.radius + d) / 2 := by
      linarith [show -(t - (1 + o.radius / d)) * d = d + o.radius - t * d by linear_combination e2]
    have g3 : t * d = (o.radius + d - s.radius) / 2 := by linarith
    have g4 : (o.radius - s.radius) * (o.radius + s.radius) = 0 := by
      have : t * (s.radius + o.radius + d) * d = (o.radius + d / 2) * d := by rw [htm]
      have k : t * d * (s.radius + o.radius + d) = (o.radius + d / 2) * d := by linarith
      rw [g3] at k
      linear_combination 2 * k
    rcases mul_eq_zero.1 g4 with g | g
    · exact ne (by linarith)
    · exact ne (by linarith)

/-- C39: including a sphere in one that is not valid gives the sphere. -/
theorem sphere_include_sphere_reset (s o : Sphere) (hs : ¬ s.isValid) : s.includeSphere o = o := by
  unfold Sphere.includeSphere; exact if_neg hs

example : ¬ Sphere.reset.isValid := by unfold Sphere.isValid Sphere.reset; norm_num

/-- C39 fails for spheres of different radius. Including the point-like sphere at (4, 0, 0) in the sphere of radius 3 around the origin leaves points of the latter
out; including the sphere of radius 10 around (1, 0, 0) in the point-like sphere at the origin gives one of radius 5.5. -/
theorem sphere_include_sphere_violated :
    (Sphere.Has ⟨⟨0, 0, 0⟩, 3⟩ ⟨-3, 0, 0⟩ ∧ ¬ (Sphere.includeSphere ⟨⟨0, 0, 0⟩, 3⟩ ⟨⟨4, 0, 0⟩, 0⟩).Has ⟨-3, 0, 0⟩) ∧
    (Sphere.includeSphere ⟨⟨0, 0, 0⟩, 0⟩ ⟨⟨1, 0, 0⟩, 10⟩).radius = 11 / 2 := by
  refine ⟨⟨?_, ?_⟩, ?_⟩
  · unfold Sphere.Has; rw [distance_on_x]; norm_num
  · have hd : distance (⟨0, 0, 0⟩ : V3 ℝ) ⟨4, 0, 0⟩ = 4 := by rw [distance_on_x]; norm_num
    rw [includeSphere_far _ _ (by norm_num) (by dsimp only; rw [hd]; norm_num)]
    unfold Sphere.Has
    dsimp only
    rw [hd]
    have e : along (⟨0, 0, 0⟩ : V3 ℝ) ⟨4, 0, 0⟩ ((0 + 4 / 2) / (3 + 0 + 4)) = ⟨8 / 7, 0, 0⟩ := by ext <;> norm_num [along]
    rw [e, distance_on_x]
    norm_num
  · have hd : distance (⟨0, 0, 0⟩ : V3 ℝ) ⟨1, 0, 0⟩ = 1 := by rw [distance_on_x]; norm_num
    rw [includeSphere_far _ _ (by norm_num) (by dsimp only; rw [hd]; norm_num)]
    dsimp only
    rw [hd]; norm_num

/-- C39 fails for a sphere that is not valid: including one, of radius -1 and 5 away, in a sphere of radius 3 leaves points of the latter out. -/
theorem sphere_include_invalid_violated : (Sphere.includeSphere ⟨⟨5, 0, 0⟩, 3⟩ Sphere.reset).Has ⟨8, 0, 0⟩ → False := by
  have hd : distance (⟨5, 0, 0⟩ : V3 ℝ) ⟨0, 0, 0⟩ = 5 := by rw [distance_on_x]; norm_num
  unfold Sphere.reset
  rw [includeSphere_far _ _ (by norm_num) (by dsimp only; rw [hd]; norm_num)]
  unfold Sphere.Has
  dsimp only
  rw [hd]
  have e : along (⟨5, 0, 0⟩ : V3 ℝ) ⟨0, 0, 0⟩ ((-1 + 5 / 2) / (3 + -1 + 5)) = ⟨55 / 14, 0, 0⟩ := by ext <;> norm_num [along]
  rw [e, distance_on_x]
  norm_num [abs_of_neg]

/-- C39: valid spheres overlap exactly when they have a common point and do not merely touch. -/
theorem sphere_overlaps_partial (s o : Sphere) (hs : 0 ≤ s.radius) (ho : 0 ≤ o.radius) :
    (s.overlaps o ↔ (∃ p, s.Has p ∧ o.Has p) ∧ distance s.center o.center ≠ s.radius + o.radius) ∧ (s.overlaps o ↔ o.overlaps s) := by
  have key : ∀ s o : Sphere, 0 ≤ s.radius → 0 ≤ o.radius → (s.overlaps o ↔ distance s.center o.center < s.radius + o.radius) := by
    intro s o hs ho
    unfold Sphere.overlaps
    rw [lengthSquared_sub]
    constructor
    · rintro ⟨-, h⟩
      exact lt_of_pow_lt_pow_left₀ 2 (by linarith) (by linarith [sq (s.radius + o.radius)])
    · intro h
      exact ⟨hs, by nlinarith [distance_nonneg s.center o.center]⟩
  refine ⟨?_, ?_⟩
  · rw [key s o hs ho]
    constructor
    · intro h
      refine ⟨?_, h.ne⟩
      have hp : 0 < s.radius + o.radius := (distance_nonneg _ _).trans_lt h
      have hk : s.radius / (s.radius + o.radius) * (s.radius + o.radius) = s.radius := div_mul_cancel₀ _ hp.ne'
      have k0 : 0 ≤ s.radius / (s.radius + o.radius) := by positivity
      have k1 : s.radius / (s.radius + o.radius) ≤ 1 := by rw [div_le_one hp]; linarith
      refine ⟨along s.center o.center (s.radius / (s.radius + o.radius)), ?_, ?_⟩
      · unfold Sphere.Has
        rw [distance_along_left, abs_of_nonneg k0]
        have := mul_le_mul_of_nonneg_left h.le k0
        linarith
      · unfold Sphere.Has
        rw [distance_along_right, abs_of_nonneg (by linarith)]
        have := mul_le_mul_of_nonneg_left h.le (sub_nonneg.2 k1)
        linarith
    · rintro ⟨⟨p, h1, h2⟩, hne⟩
      refine lt_of_le_of_ne ?_ hne
      have t := distance_triangle s.center p o.center
      rw [distance_comm p] at t
      unfold Sphere.Has at h1 h2
      linarith
  · rw [key s o hs ho, key o s ho hs, distance_comm, add_comm]

/-- C39 fails for the overlap centre of two spheres: it lies away from the other sphere, and is not a number for spheres around the same centre; and a
sphere that is not valid overlaps. -/
theorem sphere_overlaps_violated :
    (Sphere.overlaps ⟨⟨0, 0, 0⟩, 1⟩ ⟨⟨1, 0, 0⟩, 1⟩ ∧ Sphere.overlapCenter ⟨⟨0, 0, 0⟩, 1⟩ ⟨⟨1, 0, 0⟩, 1⟩ = some ⟨-1 / 2, 0, 0⟩ ∧
      ¬ Sphere.Has ⟨⟨1, 0, 0⟩, 1⟩ ⟨-1 / 2, 0, 0⟩) ∧
    (Sphere.overlaps ⟨⟨0, 0, 0⟩, 1⟩ ⟨⟨0, 0, 0⟩, 1⟩ ∧ Sphere.overlapCenter ⟨⟨0, 0, 0⟩, 1⟩ ⟨⟨0, 0, 0⟩, 1⟩ = none) ∧
    (Sphere.overlaps ⟨⟨0, 0, 0⟩, 3⟩ Sphere.reset ∧ ∀ p, ¬ Sphere.reset.Has p) := by
  refine ⟨⟨?_, ?_, ?_⟩, ⟨?_, ?_⟩, ?_, ?_⟩
  · unfold Sphere.overlaps V3.sub V3.lengthSquared; norm_num
  · have hd : √((⟨0, 0, 0⟩ : V3 ℝ).sub ⟨1, 0, 0⟩).lengthSquared = 1 := by rw [sqrt_lengthSquared_sub, distance_on_x]; norm_num
    unfold Sphere.overlapCenter
    simp only [hd]
    norm_num [V3.add, V3.sub, V3.smul]
  · unfold Sphere.Has; rw [distance_on_x]; norm_num [abs_of_pos]
  · unfold Sphere.overlaps V3.sub V3.lengthSquared; norm_num
  · unfold Sphere.overlapCenter
    simp [sqrt_lengthSquared_sub, distance_self]
  · unfold Sphere.overlaps V3.sub V3.lengthSquared Sphere.reset; norm_num
  · intro p hp
    have := Sphere.valid_of_has hp
    unfold Sphere.reset at this
    norm_num at this

/-- C39: a sphere overlaps a valid box exactly when a point of the box lies inside it; the centre stored is the point of the box nearest to the centre of the
sphere. -/
theorem sphere_overlaps_box (s : Sphere) (b : Box ℝ) (hb : b.isValid = true) :
    (s.overlapsBox b ↔ ∃ p, b.Has p ∧ distance s.center p < s.radius) ∧
    b.Has (s.overlapCenterBox b) ∧ ∀ p, b.Has p → distance s.center (s.overlapCenterBox b) ≤ distance s.center p := by
  obtain ⟨hx, hy, hz⟩ := b.isValid_iff.1 hb
  obtain ⟨nx, mx⟩ := nearest1_spec b.min.x b.max.x s.center.x hx
  obtain ⟨ny, my⟩ := nearest1_spec b.min.y b.max.y s.center.y hy
  obtain ⟨nz, mz⟩ := nearest1_spec b.min.z b.max.z s.center.z hz
  have has : b.Has (s.overlapCenterBox b) := ⟨nx, ny, nz⟩
  have dc : distance s.center (s.overlapCenterBox b) ^ 2 = (s.toBox b).lengthSquared := by
    rw [distance_sq]; simp only [Sphere.overlapCenterBox, V3.add, V3.lengthSquared]; ring
  have near : ∀ p, b.Has p → distance s.center (s.overlapCenterBox b) ≤ distance s.center p := by
    intro p hp
    apply le_of_sq_le_sq _ (distance_nonneg _ _)
    rw [dc, distance_sq]
    have h1 := mx p.x hp.1.1 hp.1.2
    have h2 := my p.y hp.2.1.1 hp.2.1.2
    have h3 := mz p.z hp.2.2.1 hp.2.2.2
    simp only [V3.lengthSquared, Sphere.toBox]
    linarith
  refine ⟨?_, has, near⟩
  unfold Sphere.overlapsBox
  rw [← dc]
  constructor
  · rintro ⟨h0, h⟩
    exact ⟨_, has, lt_of_pow_lt_pow_left₀ 2 h0 (by linarith [sq s.radius])⟩
  · rintro ⟨p, hp, h⟩
    have h1 := near p hp
    have h2 := distance_nonneg s.center (s.overlapCenterBox b)
    exact ⟨by linarith, by nlinarith⟩

/-- C39, in part: a transformed valid sphere has the images of all points of the sphere, and is not larger than that needs with its centre, if the images of
the axes are at right angles to each other. -/
theorem sphere_transform_partial (s : Sphere) (hs : 0 ≤ s.radius) (m : M44 ℝ) (h01 : m.m00 * m.m10 + m.m01 * m.m11 + m.m02 * m.m12 = 0)
    (h02 : m.m00 * m.m20 + m.m01 * m.m21 + m.m02 * m.m22 = 0) (h12 : m.m10 * m.m20 + m.m11 * m.m21 + m.m12 * m.m22 = 0) :
    (s.transform m).Tight (fun q => ∃ p, s.Has p ∧ q = m.transformCoordinate p) := by
  unfold Sphere.transform
  rw [if_pos hs]
  obtain ⟨a, b, c⟩ := transformRadius_spec m [⟨s.radius, 0, 0⟩, ⟨0, s.radius, 0⟩, ⟨0, 0, s.radius⟩] 0 le_rfl
  set T := transformRadius m 0 [⟨s.radius, 0, 0⟩, ⟨0, s.radius, 0⟩, ⟨0, 0, s.radius⟩] with hT
  have dist_eq : ∀ p : V3 ℝ, distance (m.transformCoordinate s.center) (m.transformCoordinate p) ^ 2 = (m.transformVector (s.center.sub p)).lengthSquared := by
    intro p
    rw [distance_sq]; simp only [M44.transformCoordinate, M44.transformVector, V3.sub, V3.lengthSquared]; ring
  simp only [List.mem_cons, List.not_mem_nil, or_false, forall_eq_or_imp, forall_eq] at b
  obtain ⟨b1, b2, b3⟩ := b
  simp only [M44.transformVector, V3.lengthSquared, mul_zero, add_zero, zero_add] at b1 b2 b3
  refine ⟨?_, ?_⟩
  · rintro q ⟨p, hp, rfl⟩
    unfold Sphere.Has
    apply le_of_sq_le_sq _ a
    rw [dist_eq]
    obtain ⟨-, hv⟩ := (s.has_iff p).1 hp
    set v := s.center.sub p with hvd
    have e : (m.transformVector v).lengthSquared = (m.m00 ^ 2 + m.m01 ^ 2 + m.m02 ^ 2) * v.x ^ 2 + (m.m10 ^ 2 + m.m11 ^ 2 + m.m12 ^ 2) * v.y ^ 2 +
        (m.m20 ^ 2 + m.m21 ^ 2 + m.m22 ^ 2) * v.z ^ 2 := by
      simp only [M44.transformVector, V3.lengthSquared]
      linear_combination 2 * v.x * v.y * h01 + 2 * v.x * v.z * h02 + 2 * v.y * v.z * h12
    rw [e]
    simp only [V3.lengthSquared] at hv
    rcases hs.eq_or_lt with h0 | h0
    · rw [← h0] at hv
      obtain ⟨x0, y0, z0⟩ := sum_zero v.x v.y v.z (by linarith)
      rw [x0, y0, z0, show (m.m00 ^ 2 + m.m01 ^ 2 + m.m02 ^ 2) * (0 : ℝ) ^ 2 + (m.m10 ^ 2 + m.m11 ^ 2 + m.m12 ^ 2) * 0 ^ 2 +
        (m.m20 ^ 2 + m.m21 ^ 2 + m.m22 ^ 2) * 0 ^ 2 = 0 by ring]
      exact sq_nonneg T
    · have r2 : 0 < s.radius ^ 2 := by positivity
      have c1 : (m.m00 ^ 2 + m.m01 ^ 2 + m.m02 ^ 2) * s.radius ^ 2 ≤ T ^ 2 := by linarith
      have c2 : (m.m10 ^ 2 + m.m11 ^ 2 + m.m12 ^ 2) * s.radius ^ 2 ≤ T ^ 2 := by linarith
      have c3 : (m.m20 ^ 2 + m.m21 ^ 2 + m.m22 ^ 2) * s.radius ^ 2 ≤ T ^ 2 := by linarith
      have d1 := mul_le_mul_of_nonneg_right c1 (sq_nonneg v.x)
      have d2 := mul_le_mul_of_nonneg_right c2 (sq_nonneg v.y)
      have d3 := mul_le_mul_of_nonneg_right c3 (sq_nonneg v.z)
      have d4 := mul_le_mul_of_nonneg_left hv (sq_nonneg T)
      refine le_of_mul_le_mul_right ?_ r2
      linarith
  · intro r hr
    have h0 : 0 ≤ r := Sphere.valid_of_has (hr _ ⟨s.center, has_center s hs, rfl⟩)
    dsimp only at hr ⊢
    rcases c with c | ⟨p, hp, e⟩
    · rw [c]; exact h0
    · have lp : p.lengthSquared = s.radius ^ 2 := by
        simp only [List.mem_cons, List.not_mem_nil, or_false] at hp
        rcases hp with rfl | rfl | rfl <;> simp [V3.lengthSquared, sq]
      have hq : s.Has (s.center.sub p) := by
        rw [s.has_iff]
        refine ⟨hs, ?_⟩
        have : (s.center.sub (s.center.sub p)).lengthSquared = p.lengthSquared := by simp [V3.sub, V3.lengthSquared]
        rw [this, lp, sq]
      have := hr _ ⟨_, hq, rfl⟩
      unfold Sphere.Has at this
      dsimp only at this
      have k := pow_le_pow_left₀ (distance_nonneg _ _) this 2
      rw [dist_eq, show s.center.sub (s.center.sub p) = p by ext <;> simp [V3.sub], ← e] at k
      exact le_of_sq_le_sq k h0

example : let m := M44.scale (K := ℝ) ⟨1, 2, 3⟩; m.m00 * m.m10 + m.m01 * m.m11 + m.m02 * m.m12 = 0 ∧ m.m00 * m.m20 + m.m01 * m.m21 + m.m02 * m.m22 = 0 ∧
    m.m10 * m.m20 + m.m11 * m.m21 + m.m12 * m.m22 = 0 := by simp [M44.scale, M44.identity, M44.set]

/-- The shear x' = x + y. -/
def shear : M44 ℝ := { M44.identity with m10 := 1 }

/-- C39 fails for other transformations: after a shear, the transformed sphere does not have the image of a point of the sphere. -/
theorem sphere_transform_violated : Sphere.Has ⟨⟨0, 0, 0⟩, 1⟩ ⟨3 / 5, 4 / 5, 0⟩ ∧
    ¬ (Sphere.transform ⟨⟨0, 0, 0⟩, 1⟩ shear).Has (shear.transformCoordinate ⟨3 / 5, 4 / 5, 0⟩) := by
  refine ⟨?_, ?_⟩
  · rw [Sphere.has_iff]; norm_num [V3.sub, V3.lengthSquared]
  · rw [Sphere.has_iff]
    rintro ⟨-, h⟩
    unfold Sphere.transform at h
    rw [if_pos (by norm_num)] at h
    dsimp only at h
    obtain ⟨-, -, c⟩ := transformRadius_spec shear [⟨1, 0, 0⟩, ⟨0, 1, 0⟩, ⟨0, 0, 1⟩] 0 le_rfl
    set T := transformRadius shear 0 [⟨1, 0, 0⟩, ⟨0, 1, 0⟩, ⟨0, 0, 1⟩]
    have hT : T ^ 2 ≤ 2 := by
      rcases c with c | ⟨p, hp, e⟩
      · rw [c]; norm_num
      · simp only [List.mem_cons, List.not_mem_nil, or_false] at hp
        rw [e]
        rcases hp with rfl | rfl | rfl <;> norm_num [M44.transformVector, V3.lengthSquared, shear, M44.identity, M44.set]
    norm_num [M44.transformCoordinate, V3.sub, V3.lengthSquared, shear, M44.identity, M44.set] at h
    nlinarith

end Verif.Geo
