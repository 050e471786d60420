import Verif.ArcCamLemmas
import Verif.ArcMeshParts
import Verif.ArcTransProps

/-!
# Cameras are saved and loaded (C151)
-/

namespace Verif.FArc

open Verif.FEff (Text text)
open Verif.FConv (Ov DateTime Formats shown)

/-- **C151, partial.** What is written for a camera is read back: projection, the views in use, aspect ratio, near and far plane, and its common part with the address of its target. Missing: an aspect
ratio set beside both views is replaced by their quotient, and a vertical view of zero makes it infinite (`camera_violated`); what C145 leaves out. -/
theorem camera_roundtrip_partial (ov : Ov) {fmt rnd} (hf : Formats fmt rnd) (now now' : DateTime) (hn : GoodDate now) (c : Cam) (ts : List FExtra.Tech) (es : List FExtra.EType)
    (hx : c.ent.extra = ⟨[], ts⟩ :: es) (h : GoodEnt ov rnd c.ent) (hz : c.view.hasX = true → c.view.hasY = true → shown rnd c.view.y = 0 → |shown rnd c.view.x| < tolerance) :
    ∃ k c', writeCamera ov fmt now c = some (k, c') ∧
      c' = { c with ent := { c.ent with
              asset := c.ent.asset.map fun a => { a with modified := now }
              extra := if c.ent.note = [] ∧ c.ent.target = [] then ⟨[], ts⟩ :: es else ⟨[], withoutTech ts⟩ :: es } } ∧
      loadCamera ov now' {} k = some
        ({ ent := entAfter ov rnd now c.ent (extraAfter c.ent ts es), ortho := c.ortho, view := viewAfter rnd c.view, near := shown rnd c.near, far := shown rnd c.far }, addressOf c.ent.target) := by
  obtain ⟨k, w1, w2⟩ := entity_roundtrip_partial ov hf now now' hn (text "camera") (by simp [text_inj]) c.ent ts es hx h [opticsNode fmt c] (by simp [opticsNode, Node.name, text_inj])
  obtain ⟨s1, s2⟩ := writeEnt_shape w1
  refine ⟨k, _, by rw [writeCamera, w1, Option.map_some], rfl, ?_⟩
  have ho : k.child (text "optics") = some (opticsNode fmt c) := by
    rw [s2 _ (by simp [text_inj]) (by simp [text_inj])]
    rfl
  obtain ⟨us, es', he⟩ : ∃ us es', extraAfter c.ent ts es = ⟨[], us⟩ :: es' := by
    unfold extraAfter
    split
    · split
      · exact ⟨_, _, rfl⟩
      · exact ⟨_, _, rfl⟩
    · exact ⟨_, _, rfl⟩
  have hne : (opticsNode fmt c).name ≠ text "extra" := by simp [opticsNode, Node.name, text_inj]
  have hte : (opticsNode fmt c).children (text "technique") = [] := by simp [opticsNode, Node.children, Node.kids, Node.name, text_inj]
  unfold loadCamera
  rw [w2, Option.bind_some, if_neg (by rw [s1]; simp), ho]
  simp only [he, loadExtra_none _ _ _ hne hte, Option.bind_some]
  have hv := fun d hd n => camValues_load ov hf c d hd hz n
  have hc : (opticsNode fmt c).child (text "technique_common") = some (.elem (text "technique_common") [] [] [.elem (camNames c.ortho).1 [] [] (camValues fmt c)]) := by
    simp [opticsNode, Node.child, Node.kids, Node.name]
  rw [hc]
  unfold loadProjection
  cases ho : c.ortho
  · have e1 : (Node.elem (text "technique_common") [] [] [.elem (camNames false).1 [] [] (camValues fmt c)]).child (text "orthographic") = none := by
      simp [Node.child, Node.kids, Node.name, camNames, text_inj]
    have e2 : (Node.elem (text "technique_common") [] [] [.elem (camNames false).1 [] [] (camValues fmt c)]).child (text "perspective") = some (.elem (camNames false).1 [] [] (camValues fmt c)) := by
      simp [Node.child, Node.kids, Node.name, camNames]
    simp only [Option.bind_some, e1, e2]
    rw [hv _ rfl]
    rfl
  · have e1 : (Node.elem (text "technique_common") [] [] [.elem (camNames true).1 [] [] (camValues fmt c)]).child (text "orthographic") = some (.elem (camNames true).1 [] [] (camValues fmt c)) := by
      simp [Node.child, Node.kids, Node.name, camNames]
    have e2 : (Node.elem (text "technique_common") [] [] [.elem (camNames true).1 [] [] (camValues fmt c)]).child (text "perspective") = none := by
      simp [Node.child, Node.kids, Node.name, camNames, text_inj]
    simp only [Option.bind_some, e1, e2]
    rw [hv _ rfl]
    rfl

/-- **C151: a second time.** Once read back, the views stay as they are when saved and loaded again, for numbers that are printed exactly after having been printed once. -/
theorem camera_views_stable (rnd : ℚ → ℚ) (hs : ∀ q, shown rnd (shown rnd q) = shown rnd q) (v : FEnt.View ℚ) :
    (viewAfter rnd (viewAfter rnd v)).hasX = (viewAfter rnd v).hasX ∧ (viewAfter rnd (viewAfter rnd v)).hasY = (viewAfter rnd v).hasY ∧
      (viewAfter rnd (viewAfter rnd v)).x = (viewAfter rnd v).x ∧ (viewAfter rnd (viewAfter rnd v)).y = (viewAfter rnd v).y ∧
      (viewAfter rnd (viewAfter rnd v)).aspect = (viewAfter rnd v).aspect := by
  unfold viewAfter
  cases v.hasX <;> cases v.hasY <;> simp [hs]

/-- A camera with a target. -/
def sampleCam : Cam := { ent := { id := text "cam", target := text "aim" }, ortho := true, view := ⟨2, 4, 7, true, true⟩, near := 3, far := 30 }

example : GoodEnt .wrap (fun _ => 3 / 2) sampleCam.ent ∧ sampleCam.ent.extra = ⟨[], []⟩ :: [] ∧
    (sampleCam.view.hasX = true → sampleCam.view.hasY = true → shown (fun _ => 3 / 2) sampleCam.view.y = 0 → |shown (fun _ => 3 / 2) sampleCam.view.x| < tolerance) := by
  refine ⟨⟨hplain _ (by decide +kernel), trivial, hplain _ (by decide), hplain _ (by decide +kernel), by simp [sampleCam], ⟨⟨_, rfl, rfl⟩, by decide +kernel, ?_⟩, ?_⟩, rfl, ?_⟩
  · intro t ht
    simp only [sampleCam, FExtra.newExtra, List.mem_singleton] at ht
    subst ht
    exact ⟨plain_nil, by decide, by simp⟩
  · intro t ht _
    simp only [sampleCam, FExtra.newExtra, List.mem_singleton] at ht
    subst ht
    simp [NoParams]
  · intro _ _ h
    exact absurd h (by decide +kernel)

/-- The projection, views and planes of a camera after saving and loading. -/
def reloadedCam (c : Cam) : Option (Bool × FEnt.View ℚ × ℚ × ℚ) :=
  (writeCamera .wrap fmt02 sampleDate c).bind fun k => (loadCamera .wrap sampleDate {} k.1).map fun r => (r.1.ortho, r.1.view, r.1.near, r.1.far)

/-- **C151, violated.** An aspect ratio set beside both views is replaced by their quotient; with a horizontal view of zero it is that of a new camera; with a vertical view of zero it is not finite. -/
theorem camera_violated :
    (((FEnt.newView.set tolerance (.fovX 2)).bind fun v => (v.set tolerance (.fovY 2)).bind fun v => v.set tolerance (.aspect 2)) = some ⟨2, 2, 2, true, true⟩ ∧
      reloadedCam { view := ⟨2, 2, 2, true, true⟩, near := 2, far := 2 } = some (false, ⟨2, 2, 1, true, true⟩, 2, 2)) ∧
    reloadedCam { view := ⟨0, 2, 2, true, true⟩, near := 2, far := 2 } = some (false, ⟨0, 2, 1, true, true⟩, 2, 2) ∧
    reloadedCam { view := ⟨2, 0, 2, true, true⟩, near := 2, far := 2 } = none ∧
    reloadedCam { near := 2, far := 2, view := ⟨2, 2, 2, false, false⟩ } = some (false, ⟨60, 2, 2, false, true⟩, 2, 2) := by
  refine ⟨⟨?_, ?_⟩, ?_, ?_, ?_⟩ <;> decide +kernel

end Verif.FArc
