import Verif.ArcRigidLemmas
import Verif.ArcTransProps

/-!
# C175: rigid constraints are the same after saving and loading

Wanted: a rigid constraint has the ends, the transforms of its ends, the flags, the limits and the springs it had. That is not so for springs and for the order of the transforms.
-/

namespace Verif.FArc

open Verif.FEff (Text text)
open Verif.FConv (Ov Formats shown)

/-- **C175, partial.** What is written for a rigid constraint, among any other elements, is read as a constraint with the ends, the flags and the limits it had. Of the transforms of each end the rotations are read first, and
then the translations. Every spring is read as the default spring. Missing: springs (`spring_violated`), other orders and kinds of transforms (`places_kept_iff`), flags that are neither 0 nor 1 (`flag_violated`) and ends that
cannot be found (`attach_violated`). -/
theorem constraint_roundtrip_partial (ov : Ov) (len : V3 → ℚ) {fmt rnd} (hf : Formats fmt rnd) (h1 : fmt 1 = text "1") (bodies nodes : List Text) (c : Constraint) (he : IsFlag c.enabled) (hi : IsFlag c.interpenetrate)
    (hr : GoodAttach bodies nodes c.ref) (ht : GoodAttach bodies nodes c.tar) (name : Text) (attrs : List (Text × Text)) (pre post : List Node) (hpre : ∀ k ∈ pre, k.name ∉ constraintNames)
    (hpost : ∀ k ∈ post, k.name ∉ constraintNames) :
    loadConstraint ov len bodies nodes (.elem name attrs [] (pre ++ constraintKids fmt bodies c ++ post)) =
      some ({ c with
        refPlaces := (sortedPlaces c.refPlaces).map (shownTrans rnd len), tarPlaces := (sortedPlaces c.tarPlaces).map (shownTrans rnd len), linearMin := shownVec rnd c.linearMin, linearMax := shownVec rnd c.linearMax,
        sctMin := shownVec rnd c.sctMin, sctMax := shownVec rnd c.sctMax, linearSpring := {}, angularSpring := {} }, true) := by
  have hc : ∀ t ∈ constraintNames, (Node.elem name attrs [] (pre ++ constraintKids fmt bodies c ++ post)).child t = (constraintKids fmt bodies c).find? (fun k => decide (k.name = t)) := by
    intro t ht
    have e : ∀ l : List Node, (∀ k ∈ l, k.name ∉ constraintNames) → l.find? (fun k => decide (k.name = t)) = none := by
      intro l hl
      rw [List.find?_eq_none]
      intro k hk
      simp only [decide_eq_true_eq]
      rintro rfl
      exact hl k hk ht
    unfold Node.child
    rw [kids_elem, List.find?_append, List.find?_append, e pre hpre, e post hpost, Option.none_or, Option.or_none]
  have n1 : (attachElem fmt bodies (text "ref_attachment") c.ref c.refPlaces).name = text "ref_attachment" := rfl
  have n2 : (attachElem fmt bodies (text "attachment") c.tar c.tarPlaces).name = text "attachment" := rfl
  have n3 : (constraintValues fmt c).name = text "technique_common" := rfl
  have c1 : (Node.elem name attrs [] (pre ++ constraintKids fmt bodies c ++ post)).child (text "ref_attachment") = some (attachElem fmt bodies (text "ref_attachment") c.ref c.refPlaces) := by
    rw [hc _ (by simp [constraintNames])]; simp [constraintKids, n1]
  have c2 : (Node.elem name attrs [] (pre ++ constraintKids fmt bodies c ++ post)).child (text "attachment") = some (attachElem fmt bodies (text "attachment") c.tar c.tarPlaces) := by
    rw [hc _ (by simp [constraintNames])]; simp [constraintKids, n1, n2, text_inj]
  have c3 : (Node.elem name attrs [] (pre ++ constraintKids fmt bodies c ++ post)).child (text "technique_common") = some (constraintValues fmt c) := by
    rw [hc _ (by simp [constraintNames])]; simp [constraintKids, n1, n2, n3, text_inj]
  have c4 : (Node.elem name attrs [] (pre ++ constraintKids fmt bodies c ++ post)).child (text "spring") = none := by
    rw [hc _ (by simp [constraintNames])]; simp [constraintKids, n1, n2, n3, text_inj]
  have l1 : (constraintValues fmt c).child (text "limits") = some (.elem (text "limits") [] [] [limitElem fmt (text "swing_cone_and_twist") c.sctMin c.sctMax, limitElem fmt (text "linear") c.linearMin c.linearMax]) := by
    simp [constraintValues, Node.child, kids_elem, name_value, text_inj]
  have l2 : ((constraintValues fmt c).child (text "limits")).bind (·.child (text "linear")) = some (limitElem fmt (text "linear") c.linearMin c.linearMax) := by
    rw [l1]; simp [Node.child, kids_elem, limitElem, text_inj]
  have l3 : ((constraintValues fmt c).child (text "limits")).bind (·.child (text "swing_cone_and_twist")) = some (limitElem fmt (text "swing_cone_and_twist") c.sctMin c.sctMax) := by
    rw [l1]; simp [Node.child, kids_elem, limitElem]
  have f1 := flagIn_num h1 he (n := constraintValues fmt c) (name := text "enabled") (by simp [constraintValues, Node.child, kids_elem, name_value]) 1
  have f2 := flagIn_num h1 hi (n := constraintValues fmt c) (name := text "interpenetrate") (by simp [constraintValues, Node.child, kids_elem, name_value, text_inj]) 0
  obtain ⟨v1, v2⟩ := vecIn_elem ov hf (text "linear") c.linearMin c.linearMax (0, 0, 0)
  obtain ⟨v3, v4⟩ := vecIn_elem ov hf (text "swing_cone_and_twist") c.sctMin c.sctMax (0, 0, 0)
  unfold loadConstraint
  rw [c1, loadEnd_elem ov len hf hr, Option.bind_some, c2, loadEnd_elem ov len hf ht, Option.bind_some, c3]
  simp only [loadValues, l2, l3, c4, f1, f2, v1, v2, v3, v4, Option.bind_some, Option.bind_none, loadSpring, Option.map_some]

/-- **C175, violated.** Whatever the springs of a constraint are, after saving and loading they are the default ones: they are written into the technique and looked for beside it. -/
theorem spring_violated (ov : Ov) (len : V3 → ℚ) {fmt rnd} (hf : Formats fmt rnd) (h1 : fmt 1 = text "1") (s t : Spring) (name : Text) :
    (loadConstraint ov len [] [] (.elem name [] [] (constraintKids fmt [] { linearSpring := s, angularSpring := t }))).map (fun r => (r.1.linearSpring, r.1.angularSpring, r.2)) = some ({}, {}, true) := by
  have h := constraint_roundtrip_partial ov len hf h1 [] [] { linearSpring := s, angularSpring := t } (.inr rfl) (.inl rfl) ⟨by simp, by simp⟩ ⟨by simp, by simp⟩ name [] [] [] (by simp) (by simp)
  rw [List.nil_append, List.append_nil] at h
  rw [h]
  rfl

/-- A spring beside the technique, as in other files, is read, and its target may be given by the name of an older version. -/
theorem spring_read (ov : Ov) {fmt rnd} (hf : Formats fmt rnd) (s old : Spring) (name : Text) (attrs : List (Text × Text)) :
    loadSpring ov (some (springElem fmt name s)) old = some ⟨shown rnd s.stiffness, shown rnd s.damping, shown rnd s.target⟩ ∧
    loadSpring ov (some (.elem name attrs [] [valueChild (text "rest_length") (numText fmt s.target)])) old = some { old with target := shown rnd s.target } := by
  constructor
  · have e1 : (springElem fmt name s).child (text "damping") = some (valueChild (text "damping") (numText fmt s.damping)) := by simp [springElem, Node.child, kids_elem, name_value, text_inj]
    have e2 : (springElem fmt name s).child (text "stiffness") = some (valueChild (text "stiffness") (numText fmt s.stiffness)) := by simp [springElem, Node.child, kids_elem, name_value]
    have e3 : (springElem fmt name s).child (text "target_value") = some (valueChild (text "target_value") (numText fmt s.target)) := by simp [springElem, Node.child, kids_elem, name_value, text_inj]
    simp only [loadSpring, e1, e2, e3, numIn, direct_value, readNum_numText ov hf, Option.bind_some, Option.map_some, Option.some_or]
  · have e : ∀ t, t ≠ text "rest_length" → (Node.elem name attrs [] [valueChild (text "rest_length") (numText fmt s.target)]).child t = none := by
      intro t ht
      simp [Node.child, kids_elem, name_value, Ne.symm ht]
    have e4 : (Node.elem name attrs [] [valueChild (text "rest_length") (numText fmt s.target)]).child (text "rest_length") = some (valueChild (text "rest_length") (numText fmt s.target)) := by
      simp [Node.child, kids_elem, name_value]
    simp only [loadSpring, e _ (show text "damping" ≠ text "rest_length" by simp [text_inj]), e _ (show text "stiffness" ≠ text "rest_length" by simp [text_inj]),
      e _ (show text "target_value" ≠ text "rest_length" by simp [text_inj]), e4, numIn, direct_value, readNum_numText ov hf, Option.bind_some, Option.map_some, Option.none_or]

/-- **C175.** The transforms of an end are kept just if they are rotations followed by translations. -/
theorem places_kept_iff (ts : List Trans) : sortedPlaces ts = ts ↔ ∃ rs qs, ts = rs ++ qs ∧ (∀ t ∈ rs, isRotation t = true) ∧ ∀ t ∈ qs, isTranslation t = true := by
  constructor
  · intro h
    exact ⟨ts.filter isRotation, ts.filter isTranslation, h.symm, fun t ht => (List.mem_filter.1 ht).2, fun t ht => (List.mem_filter.1 ht).2⟩
  · rintro ⟨rs, qs, rfl, h1, h2⟩
    have a1 : rs.filter isRotation = rs := List.filter_eq_self.2 h1
    have a2 : qs.filter isTranslation = qs := List.filter_eq_self.2 h2
    have a3 : rs.filter isTranslation = [] := by
      rw [List.filter_eq_nil_iff]; intro t ht; have := h1 t ht; cases t <;> simp_all [isRotation, isTranslation]
    have a4 : qs.filter isRotation = [] := by
      rw [List.filter_eq_nil_iff]; intro t ht; have := h2 t ht; cases t <;> simp_all [isRotation, isTranslation]
    rw [sortedPlaces, List.filter_append, List.filter_append, a1, a2, a3, a4, List.append_nil, List.nil_append]

/-- **C175, violated.** A flag between 0 and 1, whose text starts with the digit 0, is read as 0, and a negative one as 1. -/
theorem flag_violated (n : Node) (name rest : Text) (old : ℚ) : (n.child name = some (valueChild name (48 :: rest)) → flagIn n name old = some 0) ∧ (n.child name = some (valueChild name (45 :: rest)) → flagIn n name old = some 1) := by
  constructor <;> intro h <;> unfold flagIn <;> rw [h] <;> rfl

/-- **C175, violated.** An end that is not fixed to anything is fixed, by saving and loading, to the first rigid body without a sub-id; an end fixed to a scene node is fixed to the rigid body that has the id of the node as
sub-id; and an end fixed to the second of two rigid bodies of the same sub-id is fixed to the first. -/
theorem attach_violated (nodes : List Text) (t : Text) :
    findAttach [[]] nodes (attachText [[]] .nothing) = .body 0 ∧ findAttach [t] nodes (attachText [t] (.node t)) = .body 0 ∧ findAttach [t, t] nodes (attachText [t, t] (.body 1)) = .body 0 := by
  simp [findAttach, attachText, List.findIdx?_cons]

/-- **C175, violated.** A transform that cannot be read is a failure only if it is the last one that is read. -/
theorem places_status_violated : (loadEnd .wrap lenAxis [] [] (some (.elem (text "attachment") [] [] [valueChild (text "rotate") (text "1"), valueChild (text "translate") (text "1 2 3")])) true) =
      some (.nothing, [.rotation (1, 0, 0) 0, .translation (1, 2, 3)], true) ∧
    (loadEnd .wrap lenAxis [] [] (some (.elem (text "attachment") [] [] [valueChild (text "translate") (text "1 2 3"), valueChild (text "translate") (text "1")])) true) =
      some (.nothing, [.translation (1, 2, 3), .translation (0, 0, 0)], false) := by
  constructor <;> decide +kernel

/-- A format that shows 1 as it is. -/
def fmt01 : ℚ → Text := fun _ => text "1"

/-- A hinge between a rigid body and a scene node. -/
def sampleHinge : Constraint := { interpenetrate := 1, ref := .body 1, tar := .node (text "door"), refPlaces := [.translation (1, 0, 0), .rotation (0, 1, 0) 1], linearMax := (0, 1, 0), linearSpring := { target := 1 } }

example : Formats fmt01 (fun _ => 1) ∧ fmt01 1 = text "1" ∧ IsFlag sampleHinge.enabled ∧ IsFlag sampleHinge.interpenetrate ∧ GoodAttach [text "wall", text "frame"] [text "door"] sampleHinge.ref ∧
    GoodAttach [text "wall", text "frame"] [text "door"] sampleHinge.tar := by
  refine ⟨fun q _ => ⟨⟨false, text "1", none, none⟩, ⟨by unfold FConv.IsDigit; decide +kernel, by decide, by decide, by simp, by simp⟩, rfl, by simp [FConv.GText.value, FConv.fracVal]; decide +kernel⟩, rfl, .inr rfl, .inr rfl,
    ⟨text "frame", rfl, hplain _ (by decide +kernel), ?_⟩, hplain _ (by decide +kernel), by simp, by simp [text_inj]⟩
  intro j hj
  obtain rfl : j = 0 := by omega
  simp [text_inj]

example : (loadConstraint .wrap lenAxis [text "wall", text "frame"] [text "door"] (.elem (text "rigid_constraint") [] [] (constraintKids fmt01 [text "wall", text "frame"] sampleHinge))) =
    some ({ sampleHinge with refPlaces := [.rotation (0, 1, 0) 1, .translation (1, 0, 0)], linearSpring := {} }, true) := by
  decide +kernel

end Verif.FArc
