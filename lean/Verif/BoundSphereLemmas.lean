import Verif.BoundLemmas
import Mathlib.Tactic.Linarith
import Mathlib.Tactic.LinearCombination
import Mathlib.Tactic.FieldSimp

/-!
# Lemmas about spheres
-/

namespace Verif.Geo

theorem distance_nonneg (p q : V3 ℝ) : 0 ≤ distance p q := Real.sqrt_nonneg _

theorem distance_sq (p q : V3 ℝ) : distance p q ^ 2 = (p.x - q.x) ^ 2 + (p.y - q.y) ^ 2 + (p.z - q.z) ^ 2 :=
  Real.sq_sqrt (by positivity)

theorem distance_comm (p q : V3 ℝ) : distance p q = distance q p := by
  unfold distance; congr 1; ring

theorem lengthSquared_sub (p q : V3 ℝ) : (p.sub q).lengthSquared = distance p q ^ 2 := by
  rw [distance_sq]; simp only [V3.sub, V3.lengthSquared]; ring

theorem length_sub (p q : V3 ℝ) : (p.sub q).length = distance p q := by
  unfold V3.length distance; simp only [V3.sub]; congr 1; ring

theorem sqrt_lengthSquared_sub (p q : V3 ℝ) : √(p.sub q).lengthSquared = distance p q := by
  rw [lengthSquared_sub, Real.sqrt_sq (distance_nonneg p q)]

theorem cauchy (a b c x y z : ℝ) : (a * x + b * y + c * z) ^ 2 ≤ (a ^ 2 + b ^ 2 + c ^ 2) * (x ^ 2 + y ^ 2 + z ^ 2) := by
  have e : (a ^ 2 + b ^ 2 + c ^ 2) * (x ^ 2 + y ^ 2 + z ^ 2) - (a * x + b * y + c * z) ^ 2
      = (a * y - b * x) ^ 2 + (a * z - c * x) ^ 2 + (b * z - c * y) ^ 2 := by ring
  have := sq_nonneg (a * y - b * x)
  have := sq_nonneg (a * z - c * x)
  have := sq_nonneg (b * z - c * y)
  linarith

theorem distance_triangle (p q r : V3 ℝ) : distance p r ≤ distance p q + distance q r := by
  have h1 := distance_nonneg p q
  have h2 := distance_nonneg q r
  apply le_of_sq_le_sq _ (by linarith)
  have c := cauchy (p.x - q.x) (p.y - q.y) (p.z - q.z) (q.x - r.x) (q.y - r.y) (q.z - r.z)
  rw [← distance_sq, ← distance_sq, ← mul_pow] at c
  have c2 := abs_le_of_sq_le_sq' c (by positivity)
  have e := distance_sq p r
  have e1 := distance_sq p q
  have e2 := distance_sq q r
  nlinarith [c2.2]

theorem distance_self (p : V3 ℝ) : distance p p = 0 := by
  unfold distance; simp

theorem distance_eq_zero {p q : V3 ℝ} (h : distance p q = 0) : p = q := by
  have e := distance_sq p q
  rw [h] at e
  ext <;> nlinarith [sq_nonneg (p.x - q.x), sq_nonneg (p.y - q.y), sq_nonneg (p.z - q.z)]

/-- The point at `k` times the way from `p` to `q`. -/
def along (p q : V3 ℝ) (k : ℝ) : V3 ℝ := ⟨p.x + k * (q.x - p.x), p.y + k * (q.y - p.y), p.z + k * (q.z - p.z)⟩

theorem distance_along (p q : V3 ℝ) (j k : ℝ) : distance (along p q j) (along p q k) = |j - k| * distance p q := by
  apply (sq_eq_sq₀ (distance_nonneg _ _) (mul_nonneg (abs_nonneg _) (distance_nonneg _ _))).1
  rw [mul_pow, sq_abs, distance_sq, distance_sq]
  simp only [along]; ring

theorem along_zero (p q : V3 ℝ) : along p q 0 = p := by ext <;> simp [along]

theorem along_one (p q : V3 ℝ) : along p q 1 = q := by ext <;> simp [along]

theorem distance_along_left (p q : V3 ℝ) (k : ℝ) : distance p (along p q k) = |k| * distance p q := by
  have := distance_along p q 0 k
  rw [along_zero] at this
  rw [this]; simp

theorem distance_along_right (p q : V3 ℝ) (k : ℝ) : distance q (along p q k) = |1 - k| * distance p q := by
  have := distance_along p q 1 k
  rwa [along_one] at this

theorem Sphere.has_iff (s : Sphere) (p : V3 ℝ) : s.Has p ↔ 0 ≤ s.radius ∧ (s.center.sub p).lengthSquared ≤ s.radius * s.radius := by
  unfold Sphere.Has
  rw [lengthSquared_sub]
  constructor
  · intro h
    have := distance_nonneg s.center p
    exact ⟨this.trans h, by nlinarith⟩
  · rintro ⟨h0, h⟩
    exact le_of_sq_le_sq (by linarith [sq s.radius]) h0

theorem Sphere.valid_of_has {s : Sphere} {p : V3 ℝ} (h : s.Has p) : 0 ≤ s.radius := (distance_nonneg _ _).trans h

theorem includePoint_valid (s : Sphere) (hs : 0 ≤ s.radius) (p : V3 ℝ) :
    (s.includePoint p).center = s.center ∧ (s.includePoint p).radius = max s.radius (distance s.center p) := by
  unfold Sphere.includePoint
  rw [if_pos hs, lengthSquared_sub, Real.sqrt_sq (distance_nonneg _ _)]
  have := distance_nonneg s.center p
  split_ifs with h
  · refine ⟨rfl, (max_eq_right ?_).symm⟩
    by_contra hc
    push Not at hc
    nlinarith
  · refine ⟨rfl, (max_eq_left ?_).symm⟩
    apply le_of_sq_le_sq _ hs
    push Not at h
    linarith [sq s.radius]

theorem includePoints_valid (ps : List (V3 ℝ)) (s : Sphere) (hs : 0 ≤ s.radius) :
    (ps.foldl Sphere.includePoint s).center = s.center ∧ s.radius ≤ (ps.foldl Sphere.includePoint s).radius ∧
      (∀ p ∈ ps, distance s.center p ≤ (ps.foldl Sphere.includePoint s).radius) ∧
      ∀ r, s.radius ≤ r → (∀ p ∈ ps, distance s.center p ≤ r) → (ps.foldl Sphere.includePoint s).radius ≤ r := by
  induction ps generalizing s with
  | nil => simp
  | cons p ps ih =>
    obtain ⟨e1, e2⟩ := includePoint_valid s hs p
    have hs' : 0 ≤ (s.includePoint p).radius := by rw [e2]; exact hs.trans (le_max_left _ _)
    obtain ⟨a, b, c, d⟩ := ih (s.includePoint p) hs'
    rw [e1] at a c d
    rw [e2] at b d
    rw [List.foldl_cons]
    refine ⟨a, (le_max_left _ _).trans b, ?_, ?_⟩
    · intro q hq
      rcases List.mem_cons.1 hq with rfl | hq
      · exact (le_max_right _ _).trans b
      · exact c q hq
    · intro r hr h
      exact d r (max_le hr (h p (by simp))) (fun q hq => h q (by simp [hq]))

theorem sq_le_of_between {c lo hi x D : ℝ} (h0 : (c - lo) ^ 2 ≤ D) (h1 : (c - hi) ^ 2 ≤ D) (hx : lo ≤ x ∧ x ≤ hi) : (c - x) ^ 2 ≤ D := by
  rcases le_total x c with h | h
  · have : (c - x) ^ 2 ≤ (c - lo) ^ 2 := by apply pow_le_pow_left₀ <;> linarith [hx.1]
    linarith
  · have : (c - x) ^ 2 ≤ (c - hi) ^ 2 := by
      have : (x - c) ^ 2 ≤ (hi - c) ^ 2 := by apply pow_le_pow_left₀ <;> linarith [hx.2]
      nlinarith
    linarith

/-- The corners decide whether a box is in a sphere. -/
theorem box_in_sphere (c : V3 ℝ) (b : Box ℝ) (r : ℝ) (h : ∀ p ∈ b.coordinates, distance c p ≤ r) (p : V3 ℝ) (hp : b.Has p) : distance c p ≤ r := by
  simp only [Box.coordinates, List.mem_cons, List.not_mem_nil, or_false, forall_eq_or_imp, forall_eq] at h
  have hr : 0 ≤ r := (distance_nonneg _ _).trans h.1
  have sq : ∀ q, distance c q ≤ r ↔ (c.x - q.x) ^ 2 + (c.y - q.y) ^ 2 + (c.z - q.z) ^ 2 ≤ r ^ 2 := by
    intro q
    rw [← distance_sq]
    constructor
    · intro h; exact pow_le_pow_left₀ (distance_nonneg _ _) h 2
    · intro h; exact le_of_sq_le_sq h hr
  rw [sq]
  simp only [sq] at h
  obtain ⟨h1, h2, h3, h4, h5, h6, h7, h8⟩ := h
  obtain ⟨hx, hy, hz⟩ := hp
  have gx : ∀ y z, (c.x - b.min.x) ^ 2 + (c.y - y) ^ 2 + (c.z - z) ^ 2 ≤ r ^ 2 → (c.x - b.max.x) ^ 2 + (c.y - y) ^ 2 + (c.z - z) ^ 2 ≤ r ^ 2 →
      (c.x - p.x) ^ 2 + (c.y - y) ^ 2 + (c.z - z) ^ 2 ≤ r ^ 2 := by
    intro y z u v
    have := sq_le_of_between (D := r ^ 2 - (c.y - y) ^ 2 - (c.z - z) ^ 2) (c := c.x) (lo := b.min.x) (hi := b.max.x) (by linarith) (by linarith) hx
    linarith
  have gy : ∀ x z, (c.x - x) ^ 2 + (c.y - b.min.y) ^ 2 + (c.z - z) ^ 2 ≤ r ^ 2 → (c.x - x) ^ 2 + (c.y - b.max.y) ^ 2 + (c.z - z) ^ 2 ≤ r ^ 2 →
      (c.x - x) ^ 2 + (c.y - p.y) ^ 2 + (c.z - z) ^ 2 ≤ r ^ 2 := by
    intro x z u v
    have := sq_le_of_between (D := r ^ 2 - (c.x - x) ^ 2 - (c.z - z) ^ 2) (c := c.y) (lo := b.min.y) (hi := b.max.y) (by linarith) (by linarith) hy
    linarith
  have gz : ∀ x y, (c.x - x) ^ 2 + (c.y - y) ^ 2 + (c.z - b.min.z) ^ 2 ≤ r ^ 2 → (c.x - x) ^ 2 + (c.y - y) ^ 2 + (c.z - b.max.z) ^ 2 ≤ r ^ 2 →
      (c.x - x) ^ 2 + (c.y - y) ^ 2 + (c.z - p.z) ^ 2 ≤ r ^ 2 := by
    intro x y u v
    have := sq_le_of_between (D := r ^ 2 - (c.x - x) ^ 2 - (c.y - y) ^ 2) (c := c.z) (lo := b.min.z) (hi := b.max.z) (by linarith) (by linarith) hz
    linarith
  exact gz _ _ (gy _ _ (gx _ _ h1 h4) (gx _ _ h3 h7)) (gy _ _ (gx _ _ h2 h6) (gx _ _ h5 h8))

theorem coordinates_has (b : Box ℝ) (hb : b.isValid = true) (c : V3 ℝ) (hc : c ∈ b.coordinates) : b.Has c := by
  obtain ⟨hx, hy, hz⟩ := b.isValid_iff.1 hb
  simp only [Box.coordinates, List.mem_cons, List.not_mem_nil, or_false] at hc
  rcases hc with rfl | rfl | rfl | rfl | rfl | rfl | rfl | rfl <;> simp [Box.Has, hx, hy, hz]

/-- The radius of a valid sphere is no larger than that of another around the same centre that has all its points. -/
theorem radius_le (s : Sphere) (hs : 0 ≤ s.radius) (r : ℝ) (h : ∀ p, s.Has p → Sphere.Has ⟨s.center, r⟩ p) : s.radius ≤ r := by
  let q : V3 ℝ := ⟨s.center.x + s.radius, s.center.y, s.center.z⟩
  have e : distance s.center q = s.radius := by
    unfold distance
    simp only [q]
    rw [show (s.center.x - (s.center.x + s.radius)) ^ 2 + (s.center.y - s.center.y) ^ 2 + (s.center.z - s.center.z) ^ 2 = s.radius ^ 2 by ring]
    exact Real.sqrt_sq hs
  have := h q (by unfold Sphere.Has; rw [e])
  unfold Sphere.Has at this
  rwa [e] at this

theorem has_center (s : Sphere) (hs : 0 ≤ s.radius) : s.Has s.center := by
  unfold Sphere.Has; rwa [distance_self]

/-- Every sphere that has all points of a valid sphere is as large. -/
theorem radius_le' (s : Sphere) (hs : 0 ≤ s.radius) (o : Sphere) (h : ∀ p, s.Has p → o.Has p) : s.radius ≤ o.radius := by
  let q1 : V3 ℝ := ⟨s.center.x + s.radius, s.center.y, s.center.z⟩
  let q2 : V3 ℝ := ⟨s.center.x - s.radius, s.center.y, s.center.z⟩
  have e1 : distance s.center q1 = s.radius := by
    unfold distance
    simp only [q1]
    rw [show (s.center.x - (s.center.x + s.radius)) ^ 2 + (s.center.y - s.center.y) ^ 2 + (s.center.z - s.center.z) ^ 2 = s.radius ^ 2 by ring]
    exact Real.sqrt_sq hs
  have e2 : distance s.center q2 = s.radius := by
    unfold distance
    simp only [q2]
    rw [show (s.center.x - (s.center.x - s.radius)) ^ 2 + (s.center.y - s.center.y) ^ 2 + (s.center.z - s.center.z) ^ 2 = s.radius ^ 2 by ring]
    exact Real.sqrt_sq hs
  have e3 : distance q1 q2 = 2 * s.radius := by
    unfold distance
    simp only [q1, q2]
    rw [show (s.center.x + s.radius - (s.center.x - s.radius)) ^ 2 + (s.center.y - s.center.y) ^ 2 + (s.center.z - s.center.z) ^ 2
      = (2 * s.radius) ^ 2 by ring]
    exact Real.sqrt_sq (by linarith)
  have h1 : distance o.center q1 ≤ o.radius := h q1 (by unfold Sphere.Has; rw [e1])
  have h2 : distance o.center q2 ≤ o.radius := h q2 (by unfold Sphere.Has; rw [e2])
  have t := distance_triangle q1 o.center q2
  rw [distance_comm q1 o.center] at t
  linarith

theorem includeSphere_far (s o : Sphere) (hs : 0 ≤ s.radius) (hfar : s.radius < distance s.center o.center + o.radius) :
    s.includeSphere o = ⟨along s.center o.center ((o.radius + distance s.center o.center / 2) / (s.radius + o.radius + distance s.center o.center)),
      (s.radius + o.radius + distance s.center o.center) / 2⟩ := by
  unfold Sphere.includeSphere
  rw [if_pos hs, length_sub]
  dsimp only
  rw [if_pos hfar]
  have hp : s.radius + o.radius + distance s.center o.center ≠ 0 := by linarith
  congr 1
  ext <;> (simp only [along, V3.smul, V3.add]; field_simp; ring)

theorem includeSphere_near (s o : Sphere) (hs : 0 ≤ s.radius) (h : distance s.center o.center + o.radius ≤ s.radius) : s.includeSphere o = s := by
  unfold Sphere.includeSphere
  rw [if_pos hs, length_sub]
  dsimp only
  rw [if_neg (not_lt.2 h)]

/-- A sphere that has two others is at least as large as half the sum of their radii and the distance of their centres. -/
theorem far_radius_le (s o : Sphere) (hs : 0 ≤ s.radius) (ho : 0 ≤ o.radius) (hd : 0 < distance s.center o.center) (u : Sphere)
    (h : ∀ p, s.Has p ∨ o.Has p → u.Has p) : (s.radius + o.radius + distance s.center o.center) / 2 ≤ u.radius := by
  set d := distance s.center o.center with hd'
  have h1 : u.Has (along s.center o.center (-(s.radius / d))) := by
    apply h; left; unfold Sphere.Has
    rw [distance_along_left, abs_neg, abs_of_nonneg (by positivity), ← hd', div_mul_cancel₀ _ hd.ne']
  have h2 : u.Has (along s.center o.center (1 + o.radius / d)) := by
    apply h; right; unfold Sphere.Has
    rw [distance_along_right, show (1 - (1 + o.radius / d)) = -(o.radius / d) by ring, abs_neg, abs_of_nonneg (by positivity), ← hd',
      div_mul_cancel₀ _ hd.ne']
  have t := distance_triangle (along s.center o.center (-(s.radius / d))) u.center (along s.center o.center (1 + o.radius / d))
  rw [distance_comm _ u.center, distance_along, ← hd', show -(s.radius / d) - (1 + o.radius / d) = -((s.radius + o.radius + d) / d) by field_simp; ring,
    abs_neg, abs_of_nonneg (by positivity), div_mul_cancel₀ _ hd.ne'] at t
  unfold Sphere.Has at h1 h2
  linarith

theorem transformRadius_spec (m : M44 ℝ) (ps : List (V3 ℝ)) (r : ℝ) (hr : 0 ≤ r) :
    r ≤ transformRadius m r ps ∧ (∀ p ∈ ps, (m.transformVector p).lengthSquared ≤ transformRadius m r ps ^ 2) ∧
      (transformRadius m r ps = r ∨ ∃ p ∈ ps, transformRadius m r ps ^ 2 = (m.transformVector p).lengthSquared) := by
  induction ps generalizing r with
  | nil => simp [transformRadius]
  | cons p ps ih =>
    unfold transformRadius
    dsimp only
    have hl : 0 ≤ (m.transformVector p).lengthSquared := by unfold V3.lengthSquared; nlinarith [sq_nonneg (m.transformVector p).x, sq_nonneg (m.transformVector p).y, sq_nonneg (m.transformVector p).z]
    split_ifs with h
    · obtain ⟨a, b, c⟩ := ih (√(m.transformVector p).lengthSquared) (Real.sqrt_nonneg _)
      have hs := Real.sq_sqrt hl
      have hs0 := Real.sqrt_nonneg (m.transformVector p).lengthSquared
      refine ⟨?_, ?_, ?_⟩
      · have : r ≤ √(m.transformVector p).lengthSquared := by
          apply Real.le_sqrt_of_sq_le; nlinarith
        exact this.trans a
      · intro q hq
        rcases List.mem_cons.1 hq with rfl | hq
        · have := pow_le_pow_left₀ hs0 a 2
          rwa [hs] at this
        · exact b q hq
      · rcases c with c | ⟨q, hq, e⟩
        · right; exact ⟨p, by simp, by rw [c, hs]⟩
        · right; exact ⟨q, by simp [hq], e⟩
    · obtain ⟨a, b, c⟩ := ih r hr
      refine ⟨a, ?_, ?_⟩
      · intro q hq
        rcases List.mem_cons.1 hq with rfl | hq
        · have := pow_le_pow_left₀ hr a 2
          push Not at h
          nlinarith
        · exact b q hq
      · rcases c with c | ⟨q, hq, e⟩
        · exact Or.inl c
        · exact Or.inr ⟨q, by simp [hq], e⟩

theorem nearest1_spec (lo hi c : ℝ) (h : lo ≤ hi) : (lo ≤ c + nearest1 lo hi c ∧ c + nearest1 lo hi c ≤ hi) ∧
    ∀ x, lo ≤ x → x ≤ hi → nearest1 lo hi c ^ 2 ≤ (c - x) ^ 2 := by
  unfold nearest1
  split_ifs with h1 h2
  · refine ⟨⟨by linarith, by linarith⟩, fun x hx1 hx2 => ?_⟩
    nlinarith
  · exact ⟨⟨by linarith, by linarith⟩, fun x hx1 hx2 => by nlinarith [sq_nonneg (c - x)]⟩
  · refine ⟨⟨by linarith, by linarith⟩, fun x hx1 hx2 => ?_⟩
    nlinarith

theorem distance_on_x (a b : ℝ) : distance ⟨a, 0, 0⟩ ⟨b, 0, 0⟩ = |a - b| := by
  unfold distance; simp [Real.sqrt_sq_eq_abs]

theorem sum_zero (x y z : ℝ) (h : x * x + y * y + z * z ≤ 0) : x = 0 ∧ y = 0 ∧ z = 0 := by
  have hx := mul_self_nonneg x
  have hy := mul_self_nonneg y
  have hz := mul_self_nonneg z
  exact ⟨mul_self_eq_zero.1 (by linarith), mul_self_eq_zero.1 (by linarith), mul_self_eq_zero.1 (by linarith)⟩

end Verif.Geo
