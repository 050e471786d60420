import Verif.ArcBodySpec
import Verif.ArcPShapeProps
import Verif.ArcRigidProps
import Verif.ArcStdLemmas

/-! # Lemmas for the saving and loading of rigid body parameters -/

namespace Verif.FArc

open Verif.FEff (Text text)
open Verif.FConv (Ov DateTime Formats shown)

theorem shape_back (ov : Ov) (len : V3 → ℚ) (vol : Solid → ℚ) (now now' : DateTime) {fmt rnd} (hf : Formats fmt rnd) (s : PShape) (h : GoodShape s) :
    ∃ k, writePShape ov fmt now s = some (k, s) ∧ k.name = text "shape" ∧ loadPShape ov len vol now' {} k = some (shapeAfter rnd len vol s, true) := by
  obtain ⟨k, h1, h2⟩ := shape_roundtrip_partial ov len vol now now' hf s h.1 h.2.1 h.2.2.1 h.2.2.2
  refine ⟨k, h1, ?_, h2⟩
  unfold writePShape at h1
  obtain ⟨r, -, e⟩ := Option.map_eq_some_iff.1 h1
  rw [← (Prod.mk.inj e).1]
  rfl

theorem shapes_back (ov : Ov) (len : V3 → ℚ) (vol : Solid → ℚ) (now now' : DateTime) {fmt rnd} (hf : Formats fmt rnd) (ss : List PShape) (h : ∀ s ∈ ss, GoodShape s) :
    ∃ ks : List Node, ss.mapM (writePShape ov fmt now) = some (ks.zip ss) ∧ ks.length = ss.length ∧ (∀ k ∈ ks, k.name = text "shape") ∧
      ∀ acc, ks.foldlM (fun (s : List PShape × Bool) k => (loadPShape ov len vol now' {} k).map fun r => (s.1 ++ [r.1], s.2 && r.2)) (acc, true) = some (acc ++ ss.map (shapeAfter rnd len vol), true) := by
  induction ss with
  | nil => exact ⟨[], rfl, rfl, by simp, by simp⟩
  | cons s ss ih =>
    obtain ⟨ks, h1, h2, h3, h4⟩ := ih fun x hx => h x (by simp [hx])
    obtain ⟨k, k1, k2, k3⟩ := shape_back ov len vol now now' hf s (h s (by simp))
    refine ⟨k :: ks, ?_, by simp [h2], ?_, ?_⟩
    · rw [List.mapM_cons, k1, h1]; rfl
    · intro x hx
      rcases List.mem_cons.1 hx with rfl | hx
      · exact k2
      · exact h3 x hx
    · intro acc
      rw [List.foldlM_cons, k3]
      simp only [Option.map_some, Option.bind_eq_bind, Option.bind_some, Bool.and_self]
      rw [h4]
      simp

theorem pmat_back (ov : Ov) {fmt rnd} (hf : Formats fmt rnd) (now now' : DateTime) (hn : GoodDate now) (m : PMat) (h : GoodPMat ov rnd m) :
    ∃ k m', writePMat ov fmt now m = some (k, m') ∧ k.name = text "physics_material" ∧ loadPMat ov now' {} k = some (pmatAfter ov rnd now m) := by
  obtain ⟨⟨ts, es, hx⟩, h1, h2⟩ := h
  obtain ⟨k, m', w, -, l⟩ := physics_material_roundtrip ov hf now now' hn m ts es hx h1 h2
  refine ⟨k, m', w, ?_, ?_⟩
  · unfold writePMat writeEnt at w
    obtain ⟨e, he, x⟩ := Option.map_eq_some_iff.1 w
    cases x
    obtain ⟨a, -, he⟩ := Option.bind_eq_some_iff.1 he
    obtain ⟨y, -, rfl⟩ := Option.map_eq_some_iff.1 he
    rfl
  · rw [l]; simp [pmatAfter, pmatExtra, hx]

theorem flagIn_text {fmt : ℚ → Text} {rnd} (hf : Formats fmt rnd) (h1 : fmt 1 = text "1") {q : ℚ} (hq : IsFlag q) {n : Node} {name : Text} (h : n.child name = some (textChild name (numText fmt q))) (old : ℚ) :
    flagIn n name old = some q := by
  have e := flagIn_num h1 hq (n := .elem [] [] [] [valueChild name (numText fmt q)]) (name := name) (by simp [Node.child, kids_elem, name_value]) old
  unfold flagIn at e ⊢
  rw [h]
  rw [show (Node.elem [] [] [] [valueChild name (numText fmt q)]).child name = some (valueChild name (numText fmt q)) by simp [Node.child, kids_elem, name_value]] at e
  simp only [direct_value] at e
  simp only [direct_num hf]
  exact e

/-- The children that are always written. -/
def headKids (fmt : ℚ → Text) (p : BodyParms) : List Node := [textChild (text "dynamic") (numText fmt p.dynamic), textChild (text "mass") (numText fmt p.mass), frameElem fmt p]

theorem head_find {fmt : ℚ → Text} (p : BodyParms) (rest : List Node) (nm : Text) (as : List (Text × Text)) (c : Text) :
    (Node.elem nm as c (headKids fmt p ++ rest)).child (text "dynamic") = some (textChild (text "dynamic") (numText fmt p.dynamic)) ∧
    (Node.elem nm as c (headKids fmt p ++ rest)).child (text "mass") = some (textChild (text "mass") (numText fmt p.mass)) ∧
    (Node.elem nm as c (headKids fmt p ++ rest)).child (text "mass_frame") = some (frameElem fmt p) := by
  have hn : (frameElem fmt p).name = text "mass_frame" := rfl
  refine ⟨?_, ?_, ?_⟩ <;> simp [Node.child, kids_elem, headKids, name_textChild, hn, text_inj]

theorem head_skip {fmt : ℚ → Text} (p : BodyParms) (rest : List Node) (nm : Text) (as : List (Text × Text)) (c t : Text) (h1 : t ≠ text "dynamic") (h2 : t ≠ text "mass") (h3 : t ≠ text "mass_frame") :
    (Node.elem nm as c (headKids fmt p ++ rest)).child t = rest.find? (fun k => decide (k.name = t)) ∧ (Node.elem nm as c (headKids fmt p ++ rest)).children t = rest.filter (fun k => decide (k.name = t)) := by
  have hn : (frameElem fmt p).name = text "mass_frame" := rfl
  constructor <;> simp [Node.child, Node.children, kids_elem, headKids, name_textChild, hn, h1.symm, h2.symm, h3.symm]

theorem frame_read (ov : Ov) {fmt rnd} (hf : Formats fmt rnd) (p : BodyParms) (old : V3) :
    vecIn ov (some (frameElem fmt p)) (text "translate") old = some (shownVec rnd p.translate) ∧
    (frameElem fmt p).child (text "rotate") = some (valueChild (text "rotate") (numsText fmt [p.axis.1, p.axis.2.1, p.axis.2.2, p.angle])) := by
  constructor
  · unfold vecIn
    rw [Option.bind_some, show (frameElem fmt p).child (text "translate") = some (textChild (text "translate") (vecText fmt p.translate)) by simp [Node.child, kids_elem, frameElem, name_textChild]]
    simp only [direct_vec hf]
    exact readV3_vecText ov hf _
  · simp [Node.child, kids_elem, frameElem, name_textChild, name_value, text_inj]

end Verif.FArc
