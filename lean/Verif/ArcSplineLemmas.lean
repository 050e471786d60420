import Verif.ArcSplineSpec
import Verif.ArcSkinParts
import Verif.ArcSourceProps
import Verif.ArcAssetAux
import Verif.ArcSurfLemmas
import Verif.ArcPassLemmas

/-!
# Lemmas for the saving and loading of splines
-/

namespace Verif.FArc

open Verif.FEff (Text text)
open Verif.FConv (Ov Formats shown)
open Verif.FSpline (Spline Geo)

theorem plain_id3 {id : Text} (h : Plain id) (a : String) (ha : ∀ c ∈ text a, (1 ≤ c ∧ c ≤ 127) ∧ c ≠ 37) (i : Nat) : Plain (id ++ (text a ++ natText i)) :=
  plain_append h (plain_append (hplain _ ha) (natText_plain i))

theorem encode_natText (n : Nat) : encode (natText n) = natText n :=
  encode_ok (fun c hc => (natText_plain n c hc).1) fun c hc => digit_contentOk (of_decide_eq_true (FConv.digit_iff c ▸ FConv.decimal_digits _ c hc))

theorem id3_ne_nil (id : Text) {a : String} (h : a ≠ "") (t : Text) : id ++ (text a ++ t) ≠ [] := fun e =>
  h (text_inj.1 (List.append_eq_nil_iff.1 (List.append_eq_nil_iff.1 e).2).1)

theorem id3_ne (id : Text) {a b : String} (i : Nat) (h : a ≠ b) : id ++ (text a ++ natText i) ≠ id ++ (text b ++ natText i) := fun e =>
  h (text_inj.1 (List.append_cancel_right (List.append_cancel_left e)))

theorem content_type (t : Text) (h : Plain t) : content (textChild (text "type") t) = some t := content_textChild h

theorem closed_back (b : Bool) (t : Text) (ks : List Node) :
    ((prop (some (Node.elem (text "spline") [(text "closed", text (if b then "1" else "0"))] t ks)) (text "closed")).bind readBool) = some b := by
  have : prop (some (Node.elem (text "spline") [(text "closed", text (if b then "1" else "0"))] t ks)) (text "closed") = some (text (if b then "1" else "0")) := by
    unfold prop
    simp only [Option.bind_some, raw_cons, if_true]
    exact decode_plain (hplain _ (by cases b <;> decide))
  rw [this, Option.bind_some]
  cases b <;> decide +kernel

theorem splineTech_back (as : List (Text × Text)) (t : Text) (ks xs : List Node) (h : ∀ k ∈ ks, k.name ≠ text "extra") :
    splineTech (.elem (text "spline") as t (ks ++ [splineExtra xs])) = some (.elem (text "technique") [(text "profile", text "FCOLLADA")] [] xs) := by
  unfold splineTech
  have h1 : (Node.elem (text "spline") as t (ks ++ [splineExtra xs])).child (text "extra") = some (splineExtra xs) := by
    rw [child_append]
    have : (Node.elem (text "spline") as t ks).child (text "extra") = none := by
      unfold Node.child
      rw [List.find?_eq_none]
      intro k hk
      simpa using h k hk
    rw [this, Option.none_or, child_cons, if_pos (show (splineExtra xs).name = text "extra" from rfl)]
  rw [h1, Option.bind_some]
  have h2 : findTech (splineExtra xs).kids (text "FCOLLADA") = some 0 := by
    have : prop (some (Node.elem (text "technique") [(text "profile", text "FCOLLADA")] [] xs)) (text "profile") = some (text "FCOLLADA") := by
      unfold prop
      simp only [Option.bind_some, raw_cons, if_true]
      exact decode_plain (hplain _ (by decide))
    unfold findTech splineExtra Node.kids
    simp only [List.findIdx?_cons, Node.name, decide_true, Bool.true_and, this]
    rfl
  rw [h2]
  rfl

theorem splineType_back (k : FSpline.Kind ℚ) : splineTypeOf (splineTypeText k) = k.type := by
  cases k with
  | linear => decide +kernel
  | bezier => decide +kernel
  | nurbs d ws ks =>
    show splineTypeOf (text "NURBS") = 2
    decide +kernel

theorem splineType_plain (k : FSpline.Kind ℚ) : Plain (splineTypeText k) := by
  cases k with
  | linear => exact hplain (text "LINEAR") (by decide +kernel)
  | bezier => exact hplain (text "BEZIER") (by decide +kernel)
  | nurbs d ws ks => exact hplain (text "NURBS") (by decide +kernel)

/-- The new spline of the class of `k`. -/
def blankSpline : FSpline.Kind ℚ → QSpline
  | .linear => { kind := .linear }
  | .bezier => { kind := .bezier }
  | .nurbs _ _ _ => { kind := .nurbs none [] [] }

theorem add_blank (k : FSpline.Kind ℚ) (g : QGeo) :
    ∃ g', FSpline.addSpline (FSpline.setType g k.type) FSpline.unknown = (g', some (blankSpline k)) := by
  cases k <;> exact ⟨_, rfl⟩

/-- Whether a spline is valid does not depend on its values. -/
theorem valid_shown (fatal : Bool) (f : ℚ → ℚ) (s : QSpline) : validSpline fatal (shownSpline f s) = validSpline fatal s := by
  unfold validSpline shownSpline
  cases s.kind with
  | linear => simp [FSpline.linearValid]
  | bezier => simp [FSpline.bezierValid]
  | nurbs d ws ks =>
    unfold FSpline.nurbsValid
    simp only [List.length_map]

/-- What is loaded from the element of a spline. -/
def afterSpline (fatal : Bool) (f : ℚ → ℚ) (s : QSpline) (r : SplineLoad) : SplineLoad :=
  if validSpline fatal s then { geo := { type := s.kind.type, splines := [shownSpline f s] }, status := r.status } else { geo := { type := s.kind.type, splines := [] }, status := false }

/-- An element of a type that is known is loaded by the class of the type. -/
theorem node_typed (ov : Ov) (fatal : Bool) (r : SplineLoad) (k : FSpline.Kind ℚ) (as : List (Text × Text)) (ks xs : List Node) (h : ∀ k ∈ ks, k.name ≠ text "extra") :
    loadSplineNode ov fatal r (.elem (text "spline") as [] (ks ++ [splineExtra (textChild (text "type") (splineTypeText k) :: xs)])) =
      (loadTyped ov fatal (.elem (text "spline") as [] (ks ++ [splineExtra (textChild (text "type") (splineTypeText k) :: xs)]))
        (.elem (text "technique") [(text "profile", text "FCOLLADA")] [] (textChild (text "type") (splineTypeText k) :: xs)) (blankSpline k)).map fun x =>
          if x.2 then { geo := { type := k.type, splines := [x.1] }, status := r.status } else { geo := { type := k.type, splines := [] }, status := false } := by
  obtain ⟨g', hg⟩ := add_blank k r.geo
  unfold loadSplineNode
  rw [if_neg (by simp [Node.name]), splineTech_back _ _ _ _ h]
  simp only
  rw [child_cons, if_pos (name_textChild _ _)]
  simp only
  rw [content_type _ (splineType_plain k), Option.bind_some, splineType_back]
  simp only [hg]
  rfl

theorem input_props {id sem : Text} (h1 : Plain id) (h2 : Plain sem) : prop (some (inputElem id sem [])) (text "semantic") = some sem ∧ prop (some (inputElem id sem [])) (text "source") = some (35 :: id) :=
  ⟨(inputElem_props h1 h2 none).1, (inputElem_props h1 h2 none).2.1⟩

/-- An input of control vertices. -/
theorem loadCVs_position (ov : Ov) (n : Node) {id : Text} (h : Plain id) (src : Node) (hs : findById n (35 :: id) = some (some src)) (ks : List Node) (cvs cvs' : List (List ℚ))
    (hr : readPoints ov src cvs = some cvs') : loadCVs ov n (inputElem id (text "POSITION") [] :: ks) cvs = loadCVs ov n ks cvs' := by
  obtain ⟨p1, p2⟩ := input_props h (sem := text "POSITION") (hplain _ (by decide))
  rw [loadCVs, p2, Option.bind_some, if_neg (by simp), hs, Option.bind_some]
  simp only
  rw [p1, Option.bind_some, if_pos rfl, hr, Option.bind_some]

/-- Another input. -/
theorem loadCVs_other (ov : Ov) (n : Node) {id sem : Text} (h : Plain id) (h2 : Plain sem) (hn : sem ≠ text "POSITION") (src : Node) (hs : findById n (35 :: id) = some (some src)) (ks : List Node)
    (cvs : List (List ℚ)) : loadCVs ov n (inputElem id sem [] :: ks) cvs = loadCVs ov n ks cvs := by
  obtain ⟨p1, p2⟩ := input_props h h2
  rw [loadCVs, p2, Option.bind_some, if_neg (by simp), hs, Option.bind_some]
  simp only
  rw [p1, Option.bind_some, if_neg hn]

theorem position_id {fmt : ℚ → Text} {id : Text} (h : Plain id) (vs : List (List ℚ)) (ps : Option (List Text)) : prop (some (sourceVectors fmt id vs 3 ps)) (text "id") = some id :=
  (source_ids _ _ _ _ _ _ _ _ h).1

theorem floats_id {fmt : ℚ → Text} {id : Text} (h : Plain id) (vs : List ℚ) (ps : Option (List Text)) : prop (some (sourceFloats fmt id vs 1 ps)) (text "id") = some id :=
  (source_ids _ _ _ _ _ _ _ _ h).1

theorem vectors_name (fmt : ℚ → Text) (id : Text) (vs : List (List ℚ)) (ps : Option (List Text)) : (sourceVectors fmt id vs 3 ps).name ≠ text "control_vertices" :=
  show text "source" ≠ text "control_vertices" from text_ne (by decide)

theorem floats_name (fmt : ℚ → Text) (id : Text) (vs : List ℚ) (ps : Option (List Text)) : (sourceFloats fmt id vs 1 ps).name ≠ text "control_vertices" :=
  show text "source" ≠ text "control_vertices" from text_ne (by decide)

theorem inputElem_name (id sem : Text) (as : List (Text × Text)) : (inputElem id sem as).name = text "input" := rfl

/-- A linear or Bezier spline is loaded. -/
theorem plain_spline (ov : Ov) (fatal : Bool) {fmt rnd} (hf : Formats fmt rnd) (id : Text) (hid : Plain id) (i : Nat) (s : QSpline) (hs : GoodSpline s) (r : SplineLoad)
    (hk : s.kind = .linear ∨ s.kind = .bezier) :
    ∃ n, writeSpline fmt id i s = some n ∧ n.name = text "spline" ∧ loadSplineNode ov fatal r n = some (afterSpline fatal (shown rnd) s r) := by
  have pid := plain_id3 hid "-cvs-" (by decide) i
  have hin := inputNode_eq (id3_ne_nil id (a := "-cvs-") (by decide) (natText i)) (semantic := text "POSITION") (by decide) (-1)
  rw [if_neg (by decide)] at hin
  have hw : writeSpline fmt id i s = some (.elem (text "spline") [(text "closed", text (if s.closed then "1" else "0"))] []
      ([sourceVectors fmt (id ++ (text "-cvs-" ++ natText i)) s.cvs 3 (some splineAxes),
        .elem (text "control_vertices") [] [] [inputElem (id ++ (text "-cvs-" ++ natText i)) (text "POSITION") []]] ++ [splineExtra [textChild (text "type") (splineTypeText s.kind)]])) := by
    unfold writeSpline
    rcases hk with e | e <;> simp only [e, hin, List.cons_append, List.nil_append]
  refine ⟨_, hw, rfl, ?_⟩
  rw [node_typed ov fatal r s.kind _ _ [] (by
    intro k hk
    simp only [List.mem_cons, List.not_mem_nil, or_false] at hk
    rcases hk with rfl | rfl
    · exact text_ne (by decide)
    · exact text_ne (by decide))]
  generalize hn : Node.elem (text "spline") [(text "closed", text (if s.closed then "1" else "0"))] [] _ = n
  have hc : (prop (some n) (text "closed")).bind readBool = some s.closed := by rw [← hn]; exact closed_back _ _ _
  obtain ⟨c, hc1, hc2⟩ := Option.bind_eq_some_iff.1 hc
  have hfind : findById n (35 :: (id ++ (text "-cvs-" ++ natText i))) = some (some (sourceVectors fmt (id ++ (text "-cvs-" ++ natText i)) s.cvs 3 (some splineAxes))) := by
    rw [findById_hash, ← hn]
    exact firstWithId_cons_of_eq (position_id pid _ _)
  have hv : n.child (text "control_vertices") = some (.elem (text "control_vertices") [] [] [inputElem (id ++ (text "-cvs-" ++ natText i)) (text "POSITION") []]) := by
    rw [← hn, List.cons_append, child_cons, if_neg (vectors_name _ _ _ _), List.cons_append, child_cons]
    exact if_pos rfl
  have hl : loadSpline ov n (blankSpline s.kind) = some ({ (blankSpline s.kind) with form := if s.closed then 1 else 0, cvs := s.cvs.map (·.map (shown rnd)) }, true) := by
    unfold loadSpline
    rw [hc1, Option.bind_some, hc2, Option.bind_some]
    simp only [hv]
    have : (Node.elem (text "control_vertices") [] [] [inputElem (id ++ (text "-cvs-" ++ natText i)) (text "POSITION") []]).children (text "input") =
        [inputElem (id ++ (text "-cvs-" ++ natText i)) (text "POSITION") []] := by
      rw [children_cons, if_pos (inputElem_name _ _ _), children_nil]
    rw [this, loadCVs_position ov n pid _ hfind [] _ _ (point_source_roundtrip ov hf _ s.cvs hs.three hs.count _ _), loadCVs]
    rfl
  have hform : (if s.closed = true then 1 else 0) = if s.form = 1 then 1 else 0 := by
    unfold Spline.closed
    by_cases e : s.form = 1 <;> simp [e]
  rw [hform] at hl
  have hsh : ({ (blankSpline s.kind) with form := if s.form = 1 then 1 else 0, cvs := s.cvs.map (·.map (shown rnd)) } : QSpline) = shownSpline (shown rnd) s := by
    unfold shownSpline
    rcases hk with e | e <;> rw [e] <;> rfl
  rw [hsh] at hl
  unfold loadTyped
  rw [hl, Option.bind_some]
  simp only [Bool.not_true, Bool.false_eq_true, if_false]
  unfold afterSpline
  rw [← valid_shown fatal (shown rnd) s]
  rcases hk with e | e
  · have h1 : (shownSpline (shown rnd) s).kind = .linear := by unfold shownSpline; rw [e]
    have h2 : validSpline fatal (shownSpline (shown rnd) s) = FSpline.linearValid (shownSpline (shown rnd) s) := by unfold validSpline; rw [h1]
    rw [h2, e]
    rfl
  · have h1 : (shownSpline (shown rnd) s).kind = .bezier := by unfold shownSpline; rw [e]
    have h2 : validSpline fatal (shownSpline (shown rnd) s) = FSpline.bezierValid fatal (shownSpline (shown rnd) s) := by unfold validSpline; rw [h1]
    rw [h2, e]
    rfl

theorem nurbs_skip (ov : Ov) (n : Node) {id sem : Text} (h : Plain id) (hne : id ≠ []) (h2 : Plain sem) (h3 : sem ≠ text "KNOTS") (h4 : sem ≠ text "WEIGHTS") (src : Node)
    (hs : findById n id = some (some src)) (r : List Node) (ws ks : List ℚ) : loadNurbsInputs ov n (inputElem id sem [] :: r) ws ks = loadNurbsInputs ov n r ws ks := by
  obtain ⟨p1, p2⟩ := input_props h h2
  rw [loadNurbsInputs, p2, Option.bind_some]
  simp only
  rw [if_neg hne, hs, Option.bind_some]
  simp only
  rw [p1, Option.bind_some, if_neg h3, if_neg h4]

theorem nurbs_knots (ov : Ov) (n : Node) {id : Text} (h : Plain id) (hne : id ≠ []) (src : Node)
    (hs : findById n id = some (some src)) (r : List Node) (ws ks ks' : List ℚ) (st : Nat) (hr : readFloats ov src ks = some (st, ks')) :
    loadNurbsInputs ov n (inputElem id (text "KNOTS") [] :: r) ws ks = loadNurbsInputs ov n r ws ks' := by
  obtain ⟨p1, p2⟩ := input_props h (sem := text "KNOTS") (hplain _ (by decide))
  rw [loadNurbsInputs, p2, Option.bind_some]
  simp only
  rw [if_neg hne, hs, Option.bind_some]
  simp only
  rw [p1, Option.bind_some, if_pos rfl, hr, Option.bind_some]

theorem nurbs_weights (ov : Ov) (n : Node) {id : Text} (h : Plain id) (hne : id ≠ []) (src : Node)
    (hs : findById n id = some (some src)) (r : List Node) (ws ws' ks : List ℚ) (st : Nat) (hr : readFloats ov src ws = some (st, ws')) :
    loadNurbsInputs ov n (inputElem id (text "WEIGHTS") [] :: r) ws ks = loadNurbsInputs ov n r ws' ks := by
  obtain ⟨p1, p2⟩ := input_props h (sem := text "WEIGHTS") (hplain _ (by decide))
  rw [loadNurbsInputs, p2, Option.bind_some]
  simp only
  rw [if_neg hne, hs, Option.bind_some]
  simp only
  rw [p1, Option.bind_some, if_neg (text_ne (by decide)), if_pos rfl, hr, Option.bind_some]

/-- The id of a source of a geometry, whose id does not begin with `#`. -/
theorem findById_id (n : Node) {id : Text} (hne : id ≠ []) (h : id.head? ≠ some 35) : findById n id = findById n (35 :: id) := by
  rw [findById_hash]
  unfold findById
  rw [if_neg hne]
  cases id with
  | nil => exact absurd rfl hne
  | cons c t =>
    unfold stripHash
    simp only
    rw [if_neg (fun e : c = 35 => h (by rw [e]; rfl))]

theorem head_id3 {id : Text} (h : id.head? ≠ some 35) {a : String} (ha : (text a).head? ≠ some 35) (hn : text a ≠ []) (t : Text) : (id ++ (text a ++ t)).head? ≠ some 35 := by
  cases id with
  | nil =>
    cases e : text a with
    | nil => exact absurd e hn
    | cons c r => rw [e] at ha; exact ha
  | cons c r => exact h

/-- A NURBS spline is loaded. -/
theorem nurbs_spline (ov : Ov) (fatal : Bool) {fmt rnd} (hf : Formats fmt rnd) (id : Text) (hid : Plain id) (hh : id.head? ≠ some 35) (i : Nat) (s : QSpline) (hs : GoodSpline s) (r : SplineLoad)
    (d : Option Nat) (ws ks : List ℚ) (hk : s.kind = .nurbs d ws ks) :
    ∃ n, writeSpline fmt id i s = some n ∧ n.name = text "spline" ∧ loadSplineNode ov fatal r n = some (afterSpline fatal (shown rnd) s r) := by
  obtain ⟨hws, hks, e, rfl, he⟩ := hs.nurbs d ws ks hk
  have p1 := plain_id3 hid "-cvs-" (by decide) i
  have p2 := plain_id3 hid "-weights-" (by decide) i
  have p3 := plain_id3 hid "-knots-" (by decide) i
  have e1 := id3_ne_nil id (a := "-cvs-") (by decide) (natText i)
  have e2 := id3_ne_nil id (a := "-weights-") (by decide) (natText i)
  have e3 := id3_ne_nil id (a := "-knots-") (by decide) (natText i)
  have n12 := id3_ne id (a := "-cvs-") (b := "-weights-") i (by decide)
  have n13 := id3_ne id (a := "-cvs-") (b := "-knots-") i (by decide)
  have n23 := id3_ne id (a := "-weights-") (b := "-knots-") i (by decide)
  have h1 := head_id3 hh (a := "-cvs-") (by decide) (by decide) (natText i)
  have h2 := head_id3 hh (a := "-weights-") (by decide) (by decide) (natText i)
  have h3 := head_id3 hh (a := "-knots-") (by decide) (by decide) (natText i)
  have hw : writeSpline fmt id i s = some (.elem (text "spline") [(text "closed", text (if s.closed then "1" else "0"))] []
      ([sourceVectors fmt (id ++ (text "-cvs-" ++ natText i)) s.cvs 3 (some splineAxes), sourceFloats fmt (id ++ (text "-weights-" ++ natText i)) ws 1 (some [text "WEIGHT"]),
        sourceFloats fmt (id ++ (text "-knots-" ++ natText i)) ks 1 (some [text "KNOT"]),
        .elem (text "control_vertices") [] [] [inputElem (id ++ (text "-cvs-" ++ natText i)) (text "POSITION") [], inputElem (id ++ (text "-weights-" ++ natText i)) (text "WEIGHTS") [],
          inputElem (id ++ (text "-knots-" ++ natText i)) (text "KNOTS") []]] ++
        [splineExtra [textChild (text "type") (splineTypeText s.kind), textChild (text "degree") (natText e)]])) := by
    have i1 := inputNode_eq e1 (semantic := text "POSITION") (by decide) (-1)
    have i2 := inputNode_eq e2 (semantic := text "WEIGHTS") (by decide) (-1)
    have i3 := inputNode_eq e3 (semantic := text "KNOTS") (by decide) (-1)
    rw [if_neg (by decide)] at i1 i2 i3
    unfold writeSpline
    simp only [hk, i1, i2, i3, List.cons_append, List.nil_append]
  generalize id ++ (text "-cvs-" ++ natText i) = a at *
  generalize id ++ (text "-weights-" ++ natText i) = b at *
  generalize id ++ (text "-knots-" ++ natText i) = c at *
  refine ⟨_, hw, rfl, ?_⟩
  rw [node_typed ov fatal r s.kind _ _ [textChild (text "degree") (natText e)] (by
    intro k hk
    simp only [List.mem_cons, List.not_mem_nil, or_false] at hk
    rcases hk with rfl | rfl | rfl | rfl <;> exact text_ne (by decide))]
  generalize hn : Node.elem (text "spline") [(text "closed", text (if s.closed then "1" else "0"))] [] _ = n
  have hc : (prop (some n) (text "closed")).bind readBool = some s.closed := by rw [← hn]; exact closed_back _ _ _
  obtain ⟨cl, hc1, hc2⟩ := Option.bind_eq_some_iff.1 hc
  have f1 : findById n (35 :: a) = some (some (sourceVectors fmt a s.cvs 3 (some splineAxes))) := by
    rw [findById_hash, ← hn]
    exact firstWithId_cons_of_eq (position_id p1 _ _)
  have f2 : findById n (35 :: b) = some (some (sourceFloats fmt b ws 1 (some [text "WEIGHT"]))) := by
    rw [findById_hash, ← hn]
    show firstWithId b (_ :: _ :: _) = _
    rw [firstWithId_cons_of_ne (position_id p1 _ _) n12, firstWithId_cons_of_eq (floats_id p2 _ _)]
  have f3 : findById n (35 :: c) = some (some (sourceFloats fmt c ks 1 (some [text "KNOT"]))) := by
    rw [findById_hash, ← hn]
    show firstWithId c (_ :: _ :: _ :: _) = _
    rw [firstWithId_cons_of_ne (position_id p1 _ _) n13, firstWithId_cons_of_ne (floats_id p2 _ _) n23, firstWithId_cons_of_eq (floats_id p3 _ _)]
  have hv : n.child (text "control_vertices") = some (.elem (text "control_vertices") [] [] [inputElem a (text "POSITION") [], inputElem b (text "WEIGHTS") [], inputElem c (text "KNOTS") []]) := by
    rw [← hn, List.cons_append, child_cons, if_neg (vectors_name _ _ _ _), List.cons_append, child_cons, if_neg (floats_name _ _ _ _), List.cons_append, child_cons, if_neg (floats_name _ _ _ _),
      List.cons_append, child_cons]
    exact if_pos rfl
  have hch : (Node.elem (text "control_vertices") [] [] [inputElem a (text "POSITION") [], inputElem b (text "WEIGHTS") [], inputElem c (text "KNOTS") []]).children (text "input") =
      [inputElem a (text "POSITION") [], inputElem b (text "WEIGHTS") [], inputElem c (text "KNOTS") []] := by
    rw [children_cons, if_pos (inputElem_name _ _ _), children_cons, if_pos (inputElem_name _ _ _), children_cons, if_pos (inputElem_name _ _ _), children_nil]
  have hb : blankSpline s.kind = { kind := .nurbs none [] [] } := by rw [hk]; rfl
  have hform : (if s.closed = true then 1 else 0) = if s.form = 1 then 1 else 0 := by
    unfold Spline.closed
    by_cases e : s.form = 1 <;> simp [e]
  have hl : loadSpline ov n (blankSpline s.kind) = some (⟨.nurbs none [] [], if s.form = 1 then 1 else 0, [], s.cvs.map (·.map (shown rnd))⟩, true) := by
    unfold loadSpline
    rw [hc1, Option.bind_some, hc2, Option.bind_some]
    simp only [hv]
    rw [hch, loadCVs_position ov n p1 _ f1 _ _ _ (point_source_roundtrip ov hf _ s.cvs hs.three hs.count _ _),
      loadCVs_other ov n p2 (hplain _ (by decide)) (text_ne (by decide)) _ f2, loadCVs_other ov n p3 (hplain _ (by decide)) (text_ne (by decide)) _ f3, loadCVs, hb]
    rw [← hform]
    rfl
  have hd : loadDegree (.elem (text "technique") [(text "profile", text "FCOLLADA")] [] [textChild (text "type") (splineTypeText s.kind), textChild (text "degree") (natText e)]) = some e := by
    unfold loadDegree
    rw [child_cons, if_neg (by rw [name_textChild]; exact text_ne (by decide)), child_cons, if_pos (name_textChild _ _)]
    simp only
    rw [show (textChild (text "degree") (natText e)).direct = encode (natText e) from rfl, encode_natText, readNat_natText _ he]
  have r2 := float_source_roundtrip ov hf b ws 1 (some [text "WEIGHT"]) (by decide) hws []
  have r3 := float_source_roundtrip ov hf c ks 1 (some [text "KNOT"]) (by decide) hks []
  have hi : loadNurbsInputs ov n [inputElem a (text "POSITION") [], inputElem b (text "WEIGHTS") [], inputElem c (text "KNOTS") []] [] [] = some (ws.map (shown rnd), ks.map (shown rnd), true) := by
    rw [nurbs_skip ov n p1 e1 (hplain _ (by decide)) (text_ne (by decide)) (text_ne (by decide)) _ (by rw [findById_id n e1 h1]; exact f1),
      nurbs_weights ov n p2 e2 _ (by rw [findById_id n e2 h2]; exact f2) _ _ _ _ _ r2, nurbs_knots ov n p3 e3 _ (by rw [findById_id n e3 h3]; exact f3) _ _ _ _ _ r3, loadNurbsInputs]
  have hsh : shownSpline (shown rnd) s = ⟨.nurbs (some e) (ws.map (shown rnd)) (ks.map (shown rnd)), if s.form = 1 then 1 else 0, [], s.cvs.map (·.map (shown rnd))⟩ := by
    unfold shownSpline
    rw [hk]
  have hval : FSpline.nurbsValid (some e) (ws.map (shown rnd)) (ks.map (shown rnd)) (s.cvs.map (·.map (shown rnd))) = some (validSpline fatal s) := by
    rw [← valid_shown fatal (shown rnd) s]
    unfold validSpline
    rw [hsh]
    simp only
    obtain ⟨q, hq⟩ : ∃ q, FSpline.nurbsValid (some e) (ws.map (shown rnd)) (ks.map (shown rnd)) (s.cvs.map (·.map (shown rnd))) = some q := by
      unfold FSpline.nurbsValid
      exact ⟨_, Option.map_some _ _⟩
    rw [hq]
    cases q <;> rfl
  have hkind : s.kind.type = 2 := by rw [hk]; rfl
  unfold loadTyped
  rw [hl, Option.bind_some]
  simp only [Bool.not_true, Bool.false_eq_true, if_false, hb]
  unfold loadNurbs
  simp only [hd, Option.bind_some, hv, hch, hi, if_true, hval, Option.map_some]
  unfold afterSpline
  rw [hsh]

end Verif.FArc
