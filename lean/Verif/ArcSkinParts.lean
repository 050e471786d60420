import Verif.ArcSkinLemmas
import Mathlib.Tactic.NormNum

/-! # Lemmas on saved and loaded skins: the elements of a saved one -/

namespace Verif.FArc

open Verif.FStr (Ch)
open Verif.FEff (Text text)
open Verif.FConv (Ov Mat Formats shown tokens)

theorem plain_suffix {id : Text} (h : Plain id) (s : String) (hs : ∀ c ∈ text s, (1 ≤ c ∧ c ≤ 127) ∧ c ≠ 37) : Plain (id ++ text s) := plain_append h (hplain _ hs)

/-- The element of an input. -/
def inputElem (id semantic : Text) (more : List (Text × Text)) : Node := .elem (text "input") ([(text "semantic", semantic), (text "source", 35 :: id)] ++ more) [] []

theorem inputNode_eq {id semantic : Text} (h1 : id ≠ []) (h2 : semantic ≠ []) (o : Int) :
    inputNode id semantic o (-1) = [inputElem id semantic (if 0 ≤ o then [(text "offset", intText o)] else [])] := by
  unfold inputNode inputElem
  rw [if_neg (by simp [h1, h2]), if_neg (show ¬ (0 : Int) ≤ -1 by decide), List.append_nil]

theorem inputElem_props {id sem : Text} (h1 : Plain id) (h2 : Plain sem) (o : Option Int) :
    prop (some (inputElem id sem (match o with | some o => [(text "offset", intText o)] | none => []))) (text "semantic") = some sem ∧
    prop (some (inputElem id sem (match o with | some o => [(text "offset", intText o)] | none => []))) (text "source") = some (35 :: id) ∧
    prop (some (inputElem id sem (match o with | some o => [(text "offset", intText o)] | none => []))) (text "offset") =
      some (match o with | some o => intText o | none => []) := by
  have hq : Plain (35 :: id) := plain_cons (by unfold FXml.IsChar; decide) h1
  unfold inputElem prop
  refine ⟨?_, ?_, ?_⟩
  · simp only [List.cons_append, Option.bind_some, raw_cons, if_true]
    exact decode_plain h2
  · simp only [List.cons_append, Option.bind_some, raw_cons, text_inj, String.reduceEq, if_false, if_true]
    exact decode_plain hq
  · cases o with
    | none => simp [raw_cons, raw_nil, text_inj]
    | some o =>
      simp only [List.cons_append, List.nil_append, Option.bind_some, raw_cons, text_inj, String.reduceEq, if_false, if_true]
      exact decode_plain (intText_plain o)

theorem firstWithId_cons_of_ne {id : Text} {k : Node} {ks : List Node} {t : Text} (h : prop (some k) (text "id") = some t) (hne : t ≠ id) :
    firstWithId id (k :: ks) = firstWithId id ks := by
  rw [firstWithId, h, Option.bind_some, if_neg hne]

theorem firstWithId_cons_of_eq {id : Text} {k : Node} {ks : List Node} (h : prop (some k) (text "id") = some id) : firstWithId id (k :: ks) = some (some k) := by
  rw [firstWithId, h, Option.bind_some, if_pos rfl]

theorem offsetOr_some (ov : Ov) {k : Node} {o : Int} (h : prop (some k) (text "offset") = some (intText o)) (ho : o.natAbs + 48 < 2 ^ 31) (old : Int) : offsetOr ov k old = some o := by
  unfold offsetOr
  rw [h, Option.bind_some, if_neg (show ¬ intText o = [] from (FConv.decimalInt_nonblank o).1), readInt_intText ov o ho]

theorem offsetOr_none (ov : Ov) {k : Node} (h : prop (some k) (text "offset") = some []) (old : Int) : offsetOr ov k old = some old := by
  unfold offsetOr
  rw [h, Option.bind_some, if_pos rfl]

theorem findById_hash (n : Node) (id : Text) : findById n (35 :: id) = firstWithId id n.kids := by
  unfold findById
  rw [if_neg (by simp)]
  rfl

theorem suffix_ne (id : Text) {a b : String} (h : a ≠ b) : id ++ text a ≠ id ++ text b := fun e => h (text_inj.1 (List.append_cancel_left e))

theorem suffix_ne_nil (id : Text) {a : String} (h : a ≠ "") : id ++ text a ≠ [] := fun e => h (text_inj.1 (List.append_eq_nil_iff.1 e).2)

theorem sourceNames_isNames (id : Text) (ws : List Text) (p : Text) : ((sourceNames id ws p false).child (text "Name_array")).isSome = true := by
  simp [sourceNames, sourceNode, arrayNode, child_cons]

/-- The children of the element written for a skin. -/
def skinKids (fmt : ℚ → Text) (id : Text) (s : Skin) : List Node :=
  [.elem (text "bind_shape_matrix") [] (numsText fmt (FConv.matEntries s.bindShape)) [],
    sourceNames (id ++ text "-joints") (s.joints.map (·.1)) (text "JOINT") false,
    sourceMatrices fmt (id ++ text "-bind_poses") (s.joints.map (·.2)),
    sourceFloats fmt (id ++ text "-weights") (weightsOf s.verts) 1 (some [text "WEIGHT"]),
    .elem (text "joints") [] [] [inputElem (id ++ text "-joints") (text "JOINT") [], inputElem (id ++ text "-bind_poses") (text "INV_BIND_MATRIX") []],
    .elem (text "vertex_weights") [(text "count", natText s.verts.length)] []
      [inputElem (id ++ text "-joints") (text "JOINT") [(text "offset", intText 0)], inputElem (id ++ text "-weights") (text "WEIGHT") [(text "offset", intText 1)],
        .elem (text "vcount") [] (vcountText s.verts) [], .elem (text "v") [] (vText s.verts) []]]

theorem writeSkin_eq (ov : Ov) {fmt rnd} (hf : Formats fmt rnd) (stack : List FUri.Uri) (id : Text) (s : Skin) (t : Text) (h : FPath.cleanUri ov stack false s.target = some t) :
    writeSkin ov fmt stack id s = some (.elem (text "skin") [(text "source", t)] [] (skinKids fmt id s)) := by
  have n1 := suffix_ne_nil id (a := "-joints") (by decide)
  have n2 := suffix_ne_nil id (a := "-bind_poses") (by decide)
  have n3 := suffix_ne_nil id (a := "-weights") (by decide)
  unfold writeSkin skinKids
  rw [h, inputNode_eq n1 (by decide), inputNode_eq n2 (by decide), inputNode_eq n1 (by decide), inputNode_eq n3 (by decide)]
  simp only [textChild, encode_nums hf, encode_vcount, encode_v, Option.map_some]
  rfl

theorem skin_sources {fmt : ℚ → Text} {id : Text} {s : Skin} (hid : Plain id) (n : Text) (as : List (Text × Text)) (t : Text) :
    findById (.elem n as t (skinKids fmt id s)) (35 :: (id ++ text "-joints")) = some (some (sourceNames (id ++ text "-joints") (s.joints.map (·.1)) (text "JOINT") false)) ∧
    findById (.elem n as t (skinKids fmt id s)) (35 :: (id ++ text "-bind_poses")) = some (some (sourceMatrices fmt (id ++ text "-bind_poses") (s.joints.map (·.2)))) ∧
    findById (.elem n as t (skinKids fmt id s)) (35 :: (id ++ text "-weights")) = some (some (sourceFloats fmt (id ++ text "-weights") (weightsOf s.verts) 1 (some [text "WEIGHT"]))) := by
  have p1 : Plain (id ++ text "-joints") := plain_suffix hid _ (by decide)
  have p2 : Plain (id ++ text "-bind_poses") := plain_suffix hid _ (by decide)
  have p3 : Plain (id ++ text "-weights") := plain_suffix hid _ (by decide)
  have a0 : prop (some (Node.elem (text "bind_shape_matrix") [] (numsText fmt (FConv.matEntries s.bindShape)) [])) (text "id") = some [] := rfl
  have a1 : prop (some (sourceNames (id ++ text "-joints") (s.joints.map (·.1)) (text "JOINT") false)) (text "id") = some (id ++ text "-joints") := (source_ids _ _ _ _ _ _ _ _ p1).1
  have a2 : prop (some (sourceMatrices fmt (id ++ text "-bind_poses") (s.joints.map (·.2)))) (text "id") = some (id ++ text "-bind_poses") := (source_ids _ _ _ _ _ _ _ _ p2).1
  have a3 : prop (some (sourceFloats fmt (id ++ text "-weights") (weightsOf s.verts) 1 (some [text "WEIGHT"]))) (text "id") = some (id ++ text "-weights") := (source_ids _ _ _ _ _ _ _ _ p3).1
  rw [findById_hash, findById_hash, findById_hash]
  unfold skinKids Node.kids
  refine ⟨?_, ?_, ?_⟩
  · rw [firstWithId_cons_of_ne a0 (suffix_ne_nil id (by decide)).symm, firstWithId_cons_of_eq a1]
  · rw [firstWithId_cons_of_ne a0 (suffix_ne_nil id (by decide)).symm, firstWithId_cons_of_ne a1 (suffix_ne id (by decide)), firstWithId_cons_of_eq a2]
  · rw [firstWithId_cons_of_ne a0 (suffix_ne_nil id (by decide)).symm, firstWithId_cons_of_ne a1 (suffix_ne id (by decide)), firstWithId_cons_of_ne a2 (suffix_ne id (by decide)),
      firstWithId_cons_of_eq a3]

/-- What the inputs of a saved skin give. -/
def skinData (rnd : ℚ → ℚ) (s : Skin) : SkinData :=
  { names := s.joints.map (·.1), poses := (s.joints.map (·.2)).map (shownMat rnd), weights := (weightsOf s.verts).map (shown rnd), sids := true }

theorem skin_inputs (ov : Ov) {fmt rnd} (hf : Formats fmt rnd) {id : Text} {s : Skin} (h : GoodSkin ov id s) (n : Text) (as : List (Text × Text)) (t : Text) :
    [inputElem (id ++ text "-joints") (text "JOINT") [], inputElem (id ++ text "-bind_poses") (text "INV_BIND_MATRIX") [],
      inputElem (id ++ text "-joints") (text "JOINT") [(text "offset", intText 0)], inputElem (id ++ text "-weights") (text "WEIGHT") [(text "offset", intText 1)]].foldlM
      (skinInput ov (.elem n as t (skinKids fmt id s))) {} = some (skinData rnd s) := by
  have p1 : Plain (id ++ text "-joints") := plain_suffix h.id _ (by decide)
  have p2 : Plain (id ++ text "-bind_poses") := plain_suffix h.id _ (by decide)
  have p3 : Plain (id ++ text "-weights") := plain_suffix h.id _ (by decide)
  obtain ⟨s1, s2, s3⟩ := skin_sources (fmt := fmt) (s := s) h.id n as t
  obtain ⟨a1, a2, a3⟩ := inputElem_props p1 (hplain (text "JOINT") (by decide)) none
  obtain ⟨b1, b2, -⟩ := inputElem_props p2 (hplain (text "INV_BIND_MATRIX") (by decide)) none
  obtain ⟨c1, c2, c3⟩ := inputElem_props p1 (hplain (text "JOINT") (by decide)) (some 0)
  obtain ⟨d1, d2, d3⟩ := inputElem_props p3 (hplain (text "WEIGHT") (by decide)) (some 1)
  simp only at a1 a2 a3 b1 b2 c1 c2 c3 d1 d2 d3
  have hw : ∀ w ∈ s.joints.map (·.1), Word w := by
    intro w hw
    obtain ⟨j, hj, rfl⟩ := List.mem_map.1 hw
    exact h.joints j hj
  have hfew := h.few
  have hcount := h.weights
  have r1 := names_source_partial (id ++ text "-joints") (s.joints.map (·.1)) (text "JOINT") false hw (by simp; omega)
  have r2 := matrix_source_roundtrip ov hf (id ++ text "-bind_poses") (s.joints.map (·.2)) [] (by simp; omega)
  have hl : (weightsOf s.verts).length < 2 ^ 32 := by
    have := List.length_filter_le (fun w => !near w 1) (s.verts.flatten.map (·.2))
    simp only [weightsOf, List.length_cons, List.length_map] at this ⊢
    omega
  have r3 := float_source_roundtrip ov hf (id ++ text "-weights") (weightsOf s.verts) 1 (some [text "WEIGHT"]) (by decide) hl []
  have j1 : skinInput ov (.elem n as t (skinKids fmt id s)) {} (inputElem (id ++ text "-joints") (text "JOINT") []) = some { names := s.joints.map (·.1), sids := true } := by
    unfold skinInput
    rw [a1, Option.bind_some, a2, Option.bind_some, s1, Option.bind_some, if_pos rfl]
    unfold jointInput
    rw [offsetOr_none ov a3, Option.bind_some, if_neg (by simp)]
    simp only [r1, Option.map_some, sourceNames_isNames]
  have j2 : skinInput ov (.elem n as t (skinKids fmt id s)) { names := s.joints.map (·.1), sids := true } (inputElem (id ++ text "-bind_poses") (text "INV_BIND_MATRIX") []) =
      some { names := s.joints.map (·.1), poses := (s.joints.map (·.2)).map (shownMat rnd), sids := true } := by
    unfold skinInput
    rw [b1, Option.bind_some, b2, Option.bind_some, s2, Option.bind_some, if_neg (by rw [text_inj]; decide), if_pos rfl]
    unfold poseInput
    simp only [r2, Option.map_some]
  have j3 : skinInput ov (.elem n as t (skinKids fmt id s)) { names := s.joints.map (·.1), poses := (s.joints.map (·.2)).map (shownMat rnd), sids := true }
      (inputElem (id ++ text "-joints") (text "JOINT") [(text "offset", intText 0)]) =
      some { names := s.joints.map (·.1), poses := (s.joints.map (·.2)).map (shownMat rnd), sids := true } := by
    unfold skinInput
    rw [c1, Option.bind_some, c2, Option.bind_some, s1, Option.bind_some, if_pos rfl]
    unfold jointInput
    rw [offsetOr_some ov c3 (by decide), Option.bind_some]
    by_cases hn : s.joints.map (·.1) = []
    · rw [hn] at r1
      simp only [hn, ne_eq, not_true_eq_false, if_false, r1, Option.map_some, sourceNames_isNames]
    · rw [if_pos hn]
  have j4 : skinInput ov (.elem n as t (skinKids fmt id s)) { names := s.joints.map (·.1), poses := (s.joints.map (·.2)).map (shownMat rnd), sids := true }
      (inputElem (id ++ text "-weights") (text "WEIGHT") [(text "offset", intText 1)]) = some (skinData rnd s) := by
    unfold skinInput
    rw [d1, Option.bind_some, d2, Option.bind_some, s3, Option.bind_some, if_neg (by rw [text_inj]; decide), if_neg (by rw [text_inj]; decide), if_pos rfl]
    unfold weightInput
    rw [offsetOr_some ov d3 (by decide), Option.bind_some]
    simp only [r3, Option.map_some]
    rfl
  simp only [List.foldlM_cons, List.foldlM_nil, j1, j2, j3, j4, Option.bind_eq_bind, Option.bind_some]
  rfl

theorem skin_numbers (ov : Ov) {id : Text} {s : Skin} (h : GoodSkin ov id s) (n : Text) (as : List (Text × Text)) (t : Text) (a b : Node) (ha : isCombiner a = false) (hb : isCombiner b = false) :
    combinerNumbers ov (.elem n as t [a, b, .elem (text "vcount") [] (vcountText s.verts) [], .elem (text "v") [] (vText s.verts) []]) =
      some (s.verts.map List.length, pairNumbers 1 s.verts.flatten) := by
  unfold combinerNumbers Node.kids
  have hk : List.dropWhile (fun k => !isCombiner k) [a, b, .elem (text "vcount") [] (vcountText s.verts) [], .elem (text "v") [] (vText s.verts) []] =
      [.elem (text "vcount") [] (vcountText s.verts) [], .elem (text "v") [] (vText s.verts) []] := by
    rw [List.dropWhile_cons_of_pos (by simp [ha]), List.dropWhile_cons_of_pos (by simp [hb]), List.dropWhile_cons_of_neg (by simp [isCombiner, Node.name])]
  simp only [hk, Node.direct]
  have e1 : vcountText s.verts = (s.verts.map List.length).flatMap fun n => natText n ++ [32] := by unfold vcountText; rw [List.flatMap_map]
  have r1 := readTrail (s.verts.map List.length) (by intro n hn; obtain ⟨v, hv, rfl⟩ := List.mem_map.1 hn; exact h.counts v hv) []
  have hfew := h.few
  have hcount := h.weights
  have r2 := readInts ov (pairNumbers 1 s.verts.flatten) (by
    intro i hi
    have := pairNumbers_bound 1 s.verts.flatten s.joints.length (fun p hp => by
      obtain ⟨v, hv, hp⟩ := List.mem_flatten.1 hp
      exact h.indices v hv p hp) i hi
    omega) []
  rw [e1, r1, Option.bind_some, vText_eq, r2]
  rfl

/-! ## Loading any file -/

theorem loadPairs_range (d : SkinData) (vs : List Int) : ∀ (k offset : Nat) (r : List (Int × ℚ) × Nat), loadPairs d vs k offset = some r → ∀ p ∈ r.1, -1 ≤ p.1 ∧ p.1 < (d.names.length : Int)
  | 0, _, r, h => by
    rw [loadPairs, Option.some.injEq] at h
    subst h
    intro p hp
    cases hp
  | k + 1, offset, r, h => by
    rw [loadPairs] at h
    split at h
    · obtain ⟨q, hq, h⟩ := Option.bind_eq_some_iff.1 h
      obtain ⟨r', hr, rfl⟩ := Option.map_eq_some_iff.1 h
      intro p hp
      rcases List.mem_cons.1 hp with rfl | hp
      · unfold loadPair at hq
        obtain ⟨j, -, hq⟩ := Option.bind_eq_some_iff.1 hq
        obtain ⟨w, -, hq⟩ := Option.bind_eq_some_iff.1 hq
        obtain ⟨q', -, rfl⟩ := Option.map_eq_some_iff.1 hq
        simp only
        split <;> omega
      · exact loadPairs_range d vs k _ r' hr p hp
    · rw [Option.some.injEq] at h
      subst h
      intro p hp
      rw [List.eq_of_mem_replicate hp]
      simp only
      omega

theorem loadVerts_range (d : SkinData) (counts : List Nat) (vs : List Int) : ∀ (left j offset : Nat) (l : List (List (Int × ℚ))), loadVerts d counts vs left j offset = some l →
    l.length = left ∧ ∀ v ∈ l, ∀ p ∈ v, -1 ≤ p.1 ∧ p.1 < (d.names.length : Int)
  | 0, _, _, l, h => by
    rw [loadVerts, Option.some.injEq] at h
    subst h
    exact ⟨rfl, fun v hv => by cases hv⟩
  | left + 1, j, offset, l, h => by
    rw [loadVerts] at h
    obtain ⟨c, -, h⟩ := Option.bind_eq_some_iff.1 h
    obtain ⟨r, hr, h⟩ := Option.bind_eq_some_iff.1 h
    obtain ⟨l', hl, rfl⟩ := Option.map_eq_some_iff.1 h
    obtain ⟨e1, e2⟩ := loadVerts_range d counts vs left _ _ l' hl
    refine ⟨by simp [e1], fun v hv => ?_⟩
    rcases List.mem_cons.1 hv with rfl | hv
    · exact loadPairs_range d vs c offset r hr
    · exact e2 v hv

theorem makeJoints_names : ∀ (ts : List Text) (ms : List Mat) (js : List (Text × Mat)), makeJoints ts ms = some js → js.map (·.1) = ts
  | [], _, js, h => by
    rw [makeJoints, Option.some.injEq] at h
    subst h
    rfl
  | _ :: _, [], js, h => by cases h
  | t :: ts, m :: ms, js, h => by
    rw [makeJoints] at h
    obtain ⟨js', h', rfl⟩ := Option.map_eq_some_iff.1 h
    rw [List.map_cons, makeJoints_names ts ms js' h']

theorem sum_scaled (k : ℚ) : ∀ v : List (Int × ℚ), (v.map fun p => p.2 * k).sum = (v.map (·.2)).sum * k
  | [] => by simp
  | p :: v => by rw [List.map_cons, List.sum_cons, sum_scaled k v, List.map_cons, List.sum_cons, add_mul]

theorem normalize_sum (v : List (Int × ℚ)) : |((normalizeVert v).map (·.2)).sum| < 1 / 10000 ∨ |((normalizeVert v).map (·.2)).sum - 1| < 1 / 10000 := by
  unfold normalizeVert
  simp only [Bool.or_eq_true, near_iff, sub_zero]
  split
  · assumption
  · rename_i hn
    right
    have hs : (v.map (·.2)).sum ≠ 0 := fun e => hn (Or.inl (by rw [e]; norm_num))
    rw [List.map_map]
    have : ((v.map ((fun x : Int × ℚ => x.2) ∘ fun p => (p.1, p.2 * (1 / (v.map (·.2)).sum)))).sum) = (v.map (·.2)).sum * (1 / (v.map (·.2)).sum) := by
      rw [← sum_scaled]
      rfl
    rw [this, mul_one_div_cancel hs]
    norm_num

end Verif.FArc
