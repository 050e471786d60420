import Verif.ArcSolidLemmas
import Verif.ArcTransProps

/-!
# C173: analytical shapes are the same after saving and loading

Wanted: `loadSolid ov (writeSolid fmt s) = some (some (shownSolid rnd s))` for every shape.
-/

namespace Verif.FArc

open Verif.FEff (Text text)
open Verif.FConv (Ov Formats shown)

/-- **C173, partial.** Every analytical shape but a plane is loaded as it was saved, with each number as it is shown. Missing: planes (`plane_violated`). -/
theorem solid_roundtrip_partial (ov : Ov) {fmt rnd} (hf : Formats fmt rnd) (s : Solid) (h : ¬ s.isPlane) : loadSolid ov (writeSolid fmt s) = some (some (shownSolid rnd s)) := by
  cases s with
  | plane n d => exact absurd trivial h
  | box v =>
    simp [loadSolid, writeSolid, kids_elem, newSolid, solidStep, name_textChild, direct_vec hf, shownSolid, readTriple_text ov hf]
  | sphere r =>
    simp [loadSolid, writeSolid, kids_elem, newSolid, solidStep, name_value, direct_value, text_inj, shownSolid, readNum_numText ov hf]
  | _ =>
    simp [loadSolid, writeSolid, kids_elem, newSolid, solidStep, name_textChild, name_value, direct_value, direct_pair hf, text_inj, shownSolid, readPair_text ov hf,
      readNum_numText ov hf]

/-- **C173, violated.** Every plane is loaded with its numbers moved by one place: the first number of the normal becomes the distance. -/
theorem plane_violated (ov : Ov) {fmt rnd} (hf : Formats fmt rnd) (n : V3) (d : ℚ) :
    loadSolid ov (writeSolid fmt (.plane n d)) = some (some (.plane (shown rnd n.2.1, shown rnd n.2.2, shown rnd d) (shown rnd n.1))) := by
  simp [loadSolid, writeSolid, kids_elem, newSolid, solidStep, name_textChild, direct_nums hf, text_inj, readPlane_text ov hf]

/-- A plane is loaded as it was saved just if its four numbers are shown as the same number. -/
theorem plane_kept_iff (ov : Ov) {fmt rnd} (hf : Formats fmt rnd) (n : V3) (d : ℚ) :
    loadSolid ov (writeSolid fmt (.plane n d)) = some (some (shownSolid rnd (.plane n d))) ↔ shown rnd n.1 = shown rnd d ∧ shown rnd n.2.1 = shown rnd d ∧ shown rnd n.2.2 = shown rnd d := by
  rw [plane_violated ov hf]
  simp only [shownSolid, shownVec, Option.some.injEq, Solid.plane.injEq, Prod.mk.injEq]
  constructor
  · rintro ⟨⟨h1, h2, h3⟩, h4⟩
    exact ⟨h4, h1.trans h4, h3.symm⟩
  · rintro ⟨h1, h2, h3⟩
    exact ⟨⟨by rw [h2, h1], by rw [h3, h2], h3.symm⟩, h1⟩

/-- The element of a shape is that of no other kind of shape. -/
theorem solid_kind (ov : Ov) {fmt rnd} (hf : Formats fmt rnd) (s : Solid) : ∃ s', loadSolid ov (writeSolid fmt s) = some (some s') ∧ newSolid (writeSolid fmt s').name = newSolid (writeSolid fmt s).name := by
  by_cases h : s.isPlane
  · cases s with
    | plane n d => exact ⟨_, plane_violated ov hf n d, rfl⟩
    | _ => exact absurd h (by simp [Solid.isPlane])
  · refine ⟨_, solid_roundtrip_partial ov hf s h, ?_⟩
    cases s <;> rfl

/-- A tapered cylinder and the ground are saved and loaded: the ground, of which the normal is the third axis, is turned. -/
example : loadSolid .wrap (writeSolid fmt02 (.taperedCylinder 2 (2, 0) (0, 2))) = some (some (.taperedCylinder 2 (2, 0) (0, 2))) ∧
    loadSolid .wrap (writeSolid fmt02 (.plane (0, 0, 2) 0)) = some (some (.plane (0, 2, 0) 0)) := by
  constructor <;> decide +kernel

end Verif.FArc
