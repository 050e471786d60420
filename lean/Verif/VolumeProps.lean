import Verif.VolumeLemmas

/-!
# Volumes of analytical shapes: properties (C98)
-/

namespace Verif.FPhys

open Verif.Geo (V3)

/-- **C98, partial.** `CalculateVolume` gives the volume of the solid: for a box, a sphere, a cylinder and a capsule whose sizes are not negative, and for a
tapered cylinder or capsule whose radii at both ends are the same or differ by the tolerance at least. Missing: radii that differ by less
(`volume_close_partial`, `volume_violated`). -/
theorem volume_exact_partial (a : Anal ℝ) (hn : a.Nonneg) (hc : a.Clear) {S : Set Space} (hS : a.solid = some S) : HasVolume S a.volume := by
  cases a with
  | box h =>
    obtain rfl := Option.some.inj hS
    exact box_volume hn.1 hn.2.1 hn.2.2
  | plane n d => simp [Anal.solid] at hS
  | sphere r =>
    obtain rfl := Option.some.inj hS
    rw [sphere_eq hn]
    exact ellipsoid_volume hn hn hn
  | cylinder r h =>
    obtain rfl := Option.some.inj hS
    rw [cylinder_eq]
    have := tapered_volume hn.1 hn.1 hn.2
    rwa [tapered_self] at this
  | capsule r h =>
    obtain rfl := Option.some.inj hS
    have := capsule_volume hn.1 hn.1 hn.2
    rwa [tapered_self, add_assoc, add_halves] at this
  | taperedCylinder r r2 h =>
    obtain rfl := Option.some.inj hS
    have := tapered_volume hn.1 hn.2.1 hn.2.2
    unfold Anal.volume
    dsimp only
    split_ifs with he
    · rcases hc with rfl | hc
      · rwa [tapered_self] at this
      · exact absurd he hc
    · exact this
  | taperedCapsule r r2 h =>
    obtain rfl := Option.some.inj hS
    have := capsule_volume hn.1 hn.2.1 hn.2.2
    unfold Anal.volume
    dsimp only
    split_ifs with he
    · rcases hc with rfl | hc
      · rwa [tapered_self, add_assoc, add_halves] at this
      · exact absurd he hc
    · exact this

/-- A tapered capsule that meets the conditions. -/
example : (Anal.taperedCapsule ⟨1, 2⟩ ⟨3, 1⟩ 5).Nonneg ∧ (Anal.taperedCapsule ⟨1, 2⟩ ⟨3, 1⟩ 5).Clear ∧ ((Anal.taperedCapsule ⟨1, 2⟩ ⟨3, 1⟩ 5).solid).isSome := by
  refine ⟨⟨⟨by norm_num, by norm_num⟩, ⟨by norm_num, by norm_num⟩, by norm_num⟩, .inr ?_, rfl⟩
  rintro ⟨⟨_, h⟩, _⟩
  norm_num at h

/-- **C98** (planes). A plane is given the volume 1, and a plane is the only shape without a solid. -/
theorem volume_plane (a : Anal ℝ) : (a.solid = none ↔ ∃ n d, a = .plane n d) ∧ ∀ n d, (Anal.plane n d).volume = 1 := by
  refine ⟨?_, fun _ _ => rfl⟩
  cases a <;> simp [Anal.solid]

/-- **C98** (cones). The volume of a cone: a tapered cylinder that ends in a point. -/
theorem volume_cone {r : V2 ℝ} (hr : r.Nonneg) {h : ℝ} (hh : 0 ≤ h) : HasVolume (taperedSolid r ⟨0, 0⟩ h) (coneVolume r h) := by
  have := tapered_volume hr (⟨le_rfl, le_rfl⟩ : (⟨0, 0⟩ : V2 ℝ).Nonneg) hh
  rwa [show taperedCylinderVolume r ⟨0, 0⟩ h = coneVolume r h by unfold taperedCylinderVolume coneVolume; simp; ring] at this

example : (⟨2, 3⟩ : V2 ℝ).Nonneg := ⟨by norm_num, by norm_num⟩

/-- **C98** (ellipsoids). -/
theorem volume_ellipsoid {a b c : ℝ} (ha : 0 ≤ a) (hb : 0 ≤ b) (hc : 0 ≤ c) : HasVolume (ellipsoidSolid c a b) (ellipsoidVolume a b c) := ellipsoid_volume hc ha hb

/-- **C98** (the tolerance). The volume given for a tapered cylinder or capsule of height `h` with radii up to `M` differs from that of the solid by at most
`2π M (h + M) / 10000`. -/
theorem volume_close_partial (a : Anal ℝ) (hn : a.Nonneg) {S : Set Space} (hS : a.solid = some S) {h M : ℝ} (hs : a.Sizes h M) :
    ∃ v, HasVolume S v ∧ |a.volume - v| ≤ 2 * Real.pi * M * (h + M) * (1 / 10000) := by
  obtain ⟨r, r2, hc, m1, m2, m3, m4⟩ := hs
  have hpi := Real.pi_pos
  rcases hc with rfl | rfl
  · obtain rfl := Option.some.inj hS
    have hM : 0 ≤ M := hn.1.1.trans m1
    have hh := hn.2.2
    refine ⟨_, tapered_volume hn.1 hn.2.1 hn.2.2, ?_⟩
    unfold Anal.volume
    dsimp only
    split_ifs with he
    · refine (tapered_close hn.1 hn.2.2 he hn.2.1 m1 m2 m3).trans ?_
      have : 0 ≤ Real.pi * (M * M) := by positivity
      nlinarith
    · rw [sub_self, abs_zero]; positivity
  · obtain rfl := Option.some.inj hS
    have hM : 0 ≤ M := hn.1.1.trans m1
    have hh := hn.2.2
    refine ⟨_, capsule_volume hn.1 hn.2.1 hn.2.2, ?_⟩
    unfold Anal.volume
    dsimp only
    split_ifs with he
    · have k1 := tapered_close hn.1 hn.2.2 he hn.2.1 m1 m2 m3
      have k2 := end_close hn.1 he hn.2.1 m1 m2 m3 m4
      have e : capsuleVolume r h - (taperedCylinderVolume r r2 h + ellipsoidEndVolume r / 2 + ellipsoidEndVolume r2 / 2) =
          (cylinderVolume r h - taperedCylinderVolume r r2 h) + (ellipsoidEndVolume r / 2 - ellipsoidEndVolume r2 / 2) := by
        unfold capsuleVolume; ring
      rw [e]
      refine ((abs_add_le _ _).trans (add_le_add k1 k2)).trans ?_
      nlinarith
    · rw [sub_self, abs_zero]; positivity

example : (Anal.taperedCylinder ⟨1, 2⟩ ⟨1, 2 + 1 / 20000⟩ 5).Sizes 5 3 := ⟨_, _, .inl rfl, by norm_num, by norm_num, by norm_num, by norm_num⟩

/-- **C98, violated.** A tapered cylinder of height 1 with the radii 1 and 1 + 1/20000 is given another volume than its own. -/
theorem volume_violated : ∃ (a : Anal ℝ) (S : Set Space), a.Nonneg ∧ a.solid = some S ∧ ¬ HasVolume S a.volume := by
  refine ⟨.taperedCylinder ⟨1, 1⟩ ⟨1 + 1 / 20000, 1⟩ 1, _, ⟨⟨by norm_num, by norm_num⟩, ⟨by norm_num, by norm_num⟩, by norm_num⟩, rfl, fun hv => ?_⟩
  have := volume_unique hv (tapered_volume ⟨by norm_num, by norm_num⟩ ⟨by norm_num, by norm_num⟩ (by norm_num))
  unfold Anal.volume at this
  dsimp only at this
  rw [if_pos (by refine ⟨⟨?_, ?_⟩, ⟨?_, ?_⟩⟩ <;> norm_num)] at this
  unfold cylinderVolume taperedCylinderVolume at this
  have hpi := Real.pi_pos
  norm_num at this
  nlinarith

end Verif.FPhys
