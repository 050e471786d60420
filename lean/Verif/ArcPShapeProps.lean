import Verif.ArcPShapeLemmas
import Verif.ArcCamProps

/-!
# C174: physics materials and shapes are the same after saving and loading

Wanted: every shape is loaded as it was saved, with its numbers as they are shown. That is not so: see the theorems that end in `violated`.
-/

namespace Verif.FArc

open Verif.FEff (Text text)
open Verif.FConv (Ov DateTime Formats shown)

/-- **C174.** What is written for a physics material in its library is read back: its common part and its three values. Saving leaves the material as it was, as in C145. -/
theorem physics_material_roundtrip (ov : Ov) {fmt rnd} (hf : Formats fmt rnd) (now now' : DateTime) (hn : GoodDate now) (m : PMat) (ts : List FExtra.Tech) (es : List FExtra.EType)
    (hx : m.ent.extra = ⟨[], ts⟩ :: es) (h : GoodEnt ov rnd m.ent) (ht : m.ent.target = []) :
    ∃ k m', writePMat ov fmt now m = some (k, m') ∧
      m' = { m with ent := { m.ent with asset := m.ent.asset.map fun a => { a with modified := now }, extra := if m.ent.note = [] then ⟨[], ts⟩ :: es else ⟨[], withoutTech ts⟩ :: es } } ∧
      loadPMat ov now' {} k = some ⟨entAfter ov rnd now m.ent (extraAfter m.ent ts es), shown rnd m.staticFriction, shown rnd m.dynamicFriction, shown rnd m.restitution⟩ := by
  obtain ⟨as, ns, h1, h2, h3, h4⟩ := ent_back ov hf now now' hn (text "physics_material") m.ent ts es hx h ht
  refine ⟨_, _, by unfold writePMat; rw [h3, Option.map_some], rfl, ?_⟩
  have hname : (pmatValues fmt m).name = text "technique_common" := rfl
  have hl := h4 [pmatValues fmt m] [] (fun k hk => by rw [List.mem_singleton.1 hk, hname]; simp [text_inj]) (by simp)
  rw [List.append_nil] at hl
  have hc : (Node.elem (text "physics_material") (entAttrs true m.ent) [] (as ++ [pmatValues fmt m] ++ ns)).child (text "technique_common") = some (pmatValues fmt m) := by
    unfold Node.child
    rw [kids_elem, List.find?_append, List.find?_append]
    have e1 : as.find? (fun c => decide (c.name = text "technique_common")) = none := by
      rw [List.find?_eq_none]; intro k hk; simp [h1 k hk, text_inj]
    rw [e1, Option.none_or, List.find?_cons_of_pos (by simp [hname]), Option.some_or]
  obtain ⟨v1, v2, v3⟩ := pmatValues_read ov hf m 0
  unfold loadPMat
  rw [hl, Option.bind_some, if_neg (by simp), hc, v1, Option.bind_some, v2, Option.bind_some, v3, Option.map_some]

/-- **C174, partial.** A shape with a density that is not zero, and with a mass that is not zero unless the density is said to be more accurate, is loaded as it was saved: whether it is hollow, its density, which of mass and
density is more accurate, its analytical shape, and its rotations and translations in their order. The mass is that of the shape, or follows from the density if that is more accurate. Missing: planes (C173), other transforms
and materials (`shape_loaded_violated`), shapes without mass or density (`shape_mass_violated`). -/
theorem shape_roundtrip_partial (ov : Ov) (len : V3 → ℚ) (vol : Solid → ℚ) (now now' : DateTime) {fmt rnd} (hf : Formats fmt rnd) (s : PShape) (hp : NoPlane s) (hm : GoodMass s)
    (hmat : s.material = none) (hr : ∀ t ∈ s.transforms, IsRigid t) :
    ∃ k, writePShape ov fmt now s = some (k, s) ∧
      loadPShape ov len vol now' {} k = some ({ s with
        mass := if s.accurate then s.density.map fun d => shown rnd d * volOf vol (s.solid.map (shownSolid rnd)) else s.mass.map (shown rnd), density := s.density.map (shown rnd),
        solid := s.solid.map (shownSolid rnd), transforms := s.transforms.map (shownTrans rnd len) }, true) := by
  have hk : materialKid ov fmt now s.material = some ([], none) := by rw [hmat]; rfl
  refine ⟨_, by unfold writePShape; rw [hk, Option.map_some]; simp only [← hmat]; rfl, ?_⟩
  obtain ⟨⟨d, hd, hd0⟩, hacc⟩ := hm
  have hfilter : s.transforms.filter rigid = s.transforms := by
    rw [List.filter_eq_self]
    intro t ht
    rcases hr t ht with ⟨x, rfl⟩ | ⟨x, a, rfl⟩ <;> rfl
  have hdk : densityKid fmt s = ((some d).map fun q => textChild (text "density") (numText fmt q)).toList := by simp [densityKid, hd, hd0]
  unfold loadPShape
  rw [elem_name, if_neg (by simp), kids_elem]
  cases ha : s.accurate with
  | true =>
    have hmk : massKid fmt s = ((none : Option ℚ).map fun q => textChild (text "mass") (numText fmt q)).toList := by simp [massKid, ha]
    have := shape_fold ov len now now' hf s hp _ hk none (some d) hmk hdk
    simp only [this, Option.bind_some, finishShape, Option.map_none, Option.map_some, hfilter, hmat, hd, Option.isSome_some, Option.isNone_none, Bool.and_true, if_true]
  | false =>
    obtain ⟨m, hm, hm0⟩ := hacc ha
    have hmk : massKid fmt s = ((some m).map fun q => textChild (text "mass") (numText fmt q)).toList := by simp [massKid, ha, hm, hm0]
    have := shape_fold ov len now now' hf s hp _ hk (some m) (some d) hmk hdk
    simp only [this, Option.bind_some, finishShape, Option.map_none, Option.map_some, hfilter, hmat, hd, hm, Option.isSome_some, Option.isNone_some, Bool.and_false, Bool.false_eq_true, if_false]

/-- **C174, violated.** For every shape with a mass and a density that are not zero: the values, the name and the id of the material that it owns are lost, and so are all transforms that are neither rotations nor
translations. -/
theorem shape_loaded_violated (ov : Ov) (len : V3 → ℚ) (vol : Solid → ℚ) (now now' : DateTime) {fmt rnd} (hf : Formats fmt rnd) (s : PShape) (hp : NoPlane s) (m d : ℚ) (hm : s.mass = some m) (hd : s.density = some d)
    (hm0 : m ≠ 0) (hd0 : d ≠ 0) (ha : s.accurate = false) (k : Node) (s' : PShape) (hw : writePShape ov fmt now s = some (k, s')) :
    loadPShape ov len vol now' {} k = some (⟨s.hollow, some (shown rnd m), some (shown rnd d), false, s.material.map fun _ => {}, s.solid.map (shownSolid rnd), (s.transforms.filter rigid).map (shownTrans rnd len)⟩, true) := by
  unfold writePShape at hw
  obtain ⟨r, hr, e⟩ := Option.map_eq_some_iff.1 hw
  cases e
  have hmk : massKid fmt s = ((some m).map fun q => textChild (text "mass") (numText fmt q)).toList := by simp [massKid, ha, hm, hm0]
  have hdk : densityKid fmt s = ((some d).map fun q => textChild (text "density") (numText fmt q)).toList := by simp [densityKid, hd, hd0]
  have := shape_fold ov len now now' hf s hp _ hr (some m) (some d) hmk hdk
  unfold loadPShape
  rw [elem_name, if_neg (by simp), kids_elem, this]
  rfl

/-- **C174, violated.** A shape of mass zero, such as a fixed one, is given a mass by loading: what follows from its density, or from the density 1 if its density is zero too. A shape of density zero is given the density that
follows from its mass; if its volume is zero as well, this is a division by zero. -/
theorem shape_mass_violated (ov : Ov) (len : V3 → ℚ) (vol : Solid → ℚ) (now now' : DateTime) {fmt rnd} (hf : Formats fmt rnd) (x : Solid) (hx : ¬ x.isPlane) (q : ℚ) (hq : q ≠ 0) (k1 k2 k3 : Node) (s1 s2 s3 : PShape)
    (h1 : writePShape ov fmt now { mass := some 0, density := some q, solid := some x } = some (k1, s1)) (h2 : writePShape ov fmt now { mass := some 0, density := some 0, solid := some x } = some (k2, s2))
    (h3 : writePShape ov fmt now { mass := some q, density := some 0, solid := some x } = some (k3, s3)) :
    loadPShape ov len vol now' {} k1 = some ({ mass := some (shown rnd q * vol (shownSolid rnd x)), density := some (shown rnd q), accurate := true, solid := some (shownSolid rnd x) }, true) ∧
    loadPShape ov len vol now' {} k2 = some ({ mass := some (1 * vol (shownSolid rnd x)), density := some 1, accurate := true, solid := some (shownSolid rnd x) }, true) ∧
    loadPShape ov len vol now' {} k3 = if vol (shownSolid rnd x) = 0 then none else
      some ({ mass := some (shown rnd q), density := some (shown rnd q / vol (shownSolid rnd x)), accurate := false, solid := some (shownSolid rnd x) }, true) := by
  have core : ∀ (a b : ℚ) (k : Node) (s' : PShape), writePShape ov fmt now { mass := some a, density := some b, solid := some x } = some (k, s') →
      loadPShape ov len vol now' {} k = (finishShape vol ⟨true, if a = 0 then none else some (shown rnd a), if b = 0 then none else some (shown rnd b), decide (b ≠ 0 ∧ a = 0), none, some (shownSolid rnd x), []⟩).map
        fun s => (s, true) := by
    intro a b k s' hw
    unfold writePShape at hw
    obtain ⟨r, hr, e⟩ := Option.map_eq_some_iff.1 hw
    cases e
    have := shape_fold ov len now now' hf { mass := some a, density := some b, solid := some x } (fun y hy => by cases hy; exact hx) _ hr (if a = 0 then none else some a) (if b = 0 then none else some b)
      (by by_cases h : a = 0 <;> simp [massKid, h]) (by by_cases h : b = 0 <;> simp [densityKid, h])
    unfold loadPShape
    rw [elem_name, if_neg (by simp), kids_elem, this, Option.bind_some]
    by_cases ha : a = 0 <;> by_cases hb : b = 0 <;> simp [ha, hb]
  rw [core _ _ _ _ h1, core _ _ _ _ h2, core _ _ _ _ h3]
  refine ⟨by simp [hq, finishShape, volOf], by simp [finishShape, volOf], ?_⟩
  simp only [hq, if_false, if_true, finishShape, volOf]
  split <;> simp

/-- A box with a mass and a rotation before a translation. -/
def sampleShape : PShape := { hollow := false, mass := some 2, density := some 2, solid := some (.box (2, 2, 0)), transforms := [.rotation (0, 0, 2) 2, .translation (2, 0, 0)] }

example : NoPlane sampleShape ∧ GoodMass sampleShape ∧ sampleShape.material = none ∧ ∀ t ∈ sampleShape.transforms, IsRigid t := by
  refine ⟨fun x hx => by cases hx; exact id, ⟨⟨2, rfl, by decide⟩, fun _ => ⟨2, rfl, by decide⟩⟩, rfl, ?_⟩
  intro t ht
  simp only [sampleShape, List.mem_cons, List.not_mem_nil, or_false] at ht
  rcases ht with rfl | rfl
  · exact .inr ⟨_, _, rfl⟩
  · exact .inl ⟨_, rfl⟩

/-- The sample with a material of its own and a scale: both are lost. -/
example : ((writePShape .wrap fmt02 sampleDate { sampleShape with material := some { staticFriction := 2 }, transforms := [.scale (2, 2, 2)] }).bind fun r =>
    (loadPShape .wrap lenAxis (fun _ => 2) sampleDate {} r.1).map fun q => (q.1.material.map PMat.staticFriction, q.1.transforms, q.2)) = some (some 0, [], true) := by
  decide +kernel

end Verif.FArc
