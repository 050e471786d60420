import Verif.ArcAnimLemmas
import Mathlib.Tactic.Ring

/-! # Lemmas for the properties of saved and loaded animation curves: channels -/

namespace Verif.FArc

open Verif.FStr (Ch)
open Verif.FEff (Text text)
open Verif.FConv (Ov Formats shown tokens Lit)
open Verif.Enum (Interpolation Infinity)

/-! ## Addresses -/

theorem split_pointer {p q : Text} (hp : Pointer p) (hq : q = [] ∨ ∃ r, q = 40 :: r ∨ q = 91 :: r ∨ q = 46 :: r) (hl : q.length < 2 ^ 62) : FConv.splitTarget (p ++ q) = some (p, q) := by
  obtain ⟨-, hne, hlen, hp⟩ := hp
  by_cases h2 : 2 ≤ (p ++ q).length
  · obtain ⟨p', q', h1, h3, h4, h5⟩ := FConv.split_target_partial (p ++ q) h2 (by rw [List.length_append]; omega)
    rw [h1]
    have key : ∀ a b : Text, (∀ c ∈ a, c ≠ 40 ∧ c ≠ 91 ∧ c ≠ 46) → (b = [] ∨ ∃ r, b = 40 :: r ∨ b = 91 :: r ∨ b = 46 :: r) → (a ++ b).takeWhile (fun c => decide (c ≠ 40 ∧ c ≠ 91 ∧ c ≠ 46)) = a := by
      intro a b ha hb
      rw [List.takeWhile_append_of_pos (by intro c hc; simpa using ha c hc)]
      rcases hb with rfl | ⟨r, rfl | rfl | rfl⟩ <;> simp
    have e := key p q hp hq
    rw [← h3, key p' q' h4 h5] at e
    subst e
    rw [List.append_cancel_left h3]
  · have hp1 : 0 < p.length := List.length_pos_iff.2 hne
    rw [List.length_append] at h2
    obtain ⟨c, rfl⟩ := List.length_eq_one_iff.1 (show p.length = 1 by omega)
    obtain rfl := List.length_eq_zero_iff.1 (show q.length = 0 by omega)
    rfl

theorem driver_back (ov : Ov) {d : Text × Int} (h1 : Pointer d.1) (h2 : d.2 + 48 < 2 ^ 31) : driverOf ov (35 :: driverText d) = some (some (d.1, if d.2 < 0 then 0 else d.2)) := by
  obtain ⟨p, i⟩ := d
  unfold driverOf
  rw [if_neg (by simp), List.head?_cons, if_pos rfl, List.drop_succ_cons, List.drop_zero]
  unfold driverText
  simp only at h1 h2 ⊢
  by_cases hi : 0 ≤ i
  · obtain ⟨n, rfl⟩ := Int.eq_ofNat_of_zero_le hi
    have ht : intText (n : Int) = FBld.decimal n := by
      unfold intText FBld.decimalInt
      rw [if_neg (by omega)]
      simp
    have hn : n < 2 ^ 31 := by omega
    have hlen : (FBld.decimal n).length ≤ 10 := FConv.decimal_length_le 10 n (by decide) (by omega)
    have h0 : 0 ∉ FBld.decimal n := fun hm => by have := (FConv.decimal_digits n 0 hm); exact absurd this (by decide)
    rw [if_pos hi, ht, List.append_assoc, split_pointer h1 (Or.inr ⟨_, Or.inl (List.cons_append ..)⟩) (by
      split <;> simp <;> omega), Option.bind_some]
    have hq := FConv.qualifier_index ov 40 41 (Or.inl rfl) (Or.inl rfl) n (by omega) (if (n : Int) = 0 then 40 :: (FBld.decimal n ++ [41]) else []) [] (by
      split
      · simp [h0]
      · simp)
    have e : (40 :: (FBld.decimal n ++ [41]) ++ if (n : Int) = 0 then 40 :: (FBld.decimal n ++ [41]) else []) = 40 :: (FBld.decimal n ++ 41 :: if (n : Int) = 0 then 40 :: (FBld.decimal n ++ [41]) else []) := by
      simp
    simp only
    rw [e, hq, Option.map_some]
  · rw [if_neg hi, if_neg (by omega), List.append_nil, List.append_nil, show FConv.splitTarget p = some (p, []) by simpa using split_pointer h1 (Or.inl rfl) (by simp), Option.bind_some]
    have := FConv.qualifier_none ov [] [] (by simp)
    simp only [List.nil_append] at this ⊢
    rw [this]
    simp [show i < 0 by omega]

theorem target_split {pointer : Text} {c : APlaced} (hp : Pointer pointer) (h : GoodCurve c) : FConv.splitTarget (targetText pointer c) = some (pointer, fullQual c) := by
  have : targetText pointer c = pointer ++ fullQual c := by unfold targetText fullQual; rw [List.append_assoc]
  rw [this]
  refine split_pointer hp ?_ h.fits
  unfold fullQual
  split
  · exact Or.inr ⟨_, Or.inl (List.cons_append ..)⟩
  · exact h.qual.2

/-! ## Elements found by the CRC of their ids -/

theorem found {ks around : List Node} {x : Node} {t : Text} (hx : x ∈ ks) (hid : x.raw (text "id") = some t) (hA : Apart ks) : findByCrc (ks ++ around) (35 :: t) = some x := by
  have hc : nodeCrc x = textCrc t := by unfold nodeCrc; rw [hid]
  unfold findByCrc
  rw [List.head?_cons, if_pos rfl, List.drop_succ_cons, List.drop_zero, List.find?_append]
  cases hf : ks.find? (fun n => decide (nodeCrc n = textCrc t)) with
  | none =>
    have := List.find?_eq_none.1 hf x hx
    simp [hc] at this
  | some y =>
    have h1 := List.find?_some hf
    have h2 := List.mem_of_find?_eq_some hf
    have : x = y := hA x hx (by unfold Node.has; rw [hid]; rfl) y h2 (by rw [hc]; exact (of_decide_eq_true h1).symm)
    rw [this]
    rfl

/-! ## The sources of a curve -/

/-- The source of the inputs. -/
def nIn (fmt : ℚ → Text) (id : Text) (c : APlaced) : Node :=
  .elem (text "source") [(text "id", id ++ text "-input")] [] ((sourceFloats fmt (id ++ text "-input") (c.keys.map (·.input)) 1 (some [text "TIME"])).kids ++ [infinityNode c.toACurve])
/-- The source of the outputs. -/
def nOut (fmt : ℚ → Text) (id : Text) (c : APlaced) : Node := sourceFloats fmt (id ++ text "-output") (c.keys.map (·.output)) 1 (some [curveParam c.qual])
/-- The source of the interpolations. -/
def nInt (junk : List Interpolation) (id : Text) (c : APlaced) : Node :=
  sourceNames (id ++ text "-interpolations") ((junk ++ c.keys.map fun k => k.kind.interp).map fun i => text i.toString) (text "INTERPOLATION") false
/-- The source of the tangents before the keys. -/
def nInTan (fmt : ℚ → Text) (id : Text) (c : APlaced) : Node := sourceVectors fmt (id ++ text "-intangents") (c.keys.map inTan) 2 (some [text "X", text "Y"])
/-- The source of the tangents after the keys. -/
def nOutTan (fmt : ℚ → Text) (id : Text) (c : APlaced) : Node := sourceVectors fmt (id ++ text "-outtangents") (c.keys.map outTan) 2 (some [text "X", text "Y"])
/-- The source of the tensions. -/
def nTcb (fmt : ℚ → Text) (id : Text) (c : APlaced) : Node := sourceVectors fmt (id ++ text "-tcbs") (c.keys.map tcbOf) 3 none
/-- The source of the eases. -/
def nEase (fmt : ℚ → Text) (id : Text) (c : APlaced) : Node := sourceVectors fmt (id ++ text "-eases") (c.keys.map easeOf) 2 none

theorem writeSources_eq (fmt : ℚ → Text) (junk : List Interpolation) (id : Text) (c : APlaced) : writeSources fmt junk id c = [nIn fmt id c, nOut fmt id c, nInt junk id c] ++
    (if hasBezier c.keys then [nInTan fmt id c, nOutTan fmt id c] else []) ++ (if hasTcb c.keys then [nTcb fmt id c, nEase fmt id c] else []) := rfl

theorem vecs_source (ov : Ov) {fmt rnd} (hf : Formats fmt rnd) (id : Text) (k : Nat) (hk : 2 ≤ k) (hk2 : k < 2 ^ 32) (vs : List (List ℚ)) (hv : ∀ v ∈ vs, v.length = k) (hl : vs.length < 2 ^ 32)
    (ps : Option (List Text)) : readVecs ov k 1 (sourceVectors fmt id vs k ps) = some (k, [vs.map (·.map (shown rnd))]) := by
  have := readVecs_back ov hf k 1 hk (by decide) (vs.map ([·])) (by
    intro r hr
    obtain ⟨v, hm, rfl⟩ := List.mem_map.1 hr
    exact ⟨rfl, by simpa using hv v hm⟩) (sourceVectors fmt id vs k ps)
    (by unfold sourceVectors; rw [accessorOf_floats, countOf_accessor _ _ _ _ _ hl, List.length_map])
    (by unfold sourceVectors; rw [accessorOf_floats, strideOf_accessor _ _ _ _ _ hk2, if_neg (by omega), Nat.one_mul])
    (by
      unfold sourceVectors
      rw [array_of_source]
      congr 2
      clear * -
      induction vs with
      | nil => rfl
      | cons v vs ih => simpa using ih)
  rw [this, Nat.one_mul]
  simp [Function.comp_def]

theorem readIn (ov : Ov) {fmt rnd} (hf : Formats fmt rnd) (id : Text) (c : APlaced) (h : c.keys.length < 2 ^ 32) : readFloats ov (nIn fmt id c) [] = some (1, c.keys.map fun k => shown rnd k.input) := by
  have := float_source_roundtrip ov hf (id ++ text "-input") (c.keys.map (·.input)) 1 (some [text "TIME"]) (by decide) (by simpa using h) []
  rw [List.map_map] at this
  rw [if_neg (by decide)] at this
  refine Eq.trans ?_ this
  unfold readFloats
  have h1 : accessorOf (nIn fmt id c) = accessorOf (sourceFloats fmt (id ++ text "-input") (c.keys.map (·.input)) 1 (some [text "TIME"])) := by
    unfold accessorOf nIn sourceFloats sourceNode
    simp [Node.kids, arrayNode, child_cons, text_inj]
  have h2 : (nIn fmt id c).child (text "float_array") = (sourceFloats fmt (id ++ text "-input") (c.keys.map (·.input)) 1 (some [text "TIME"])).child (text "float_array") := by
    unfold nIn sourceFloats sourceNode
    simp [Node.kids, arrayNode, child_cons]
  rw [h1, h2]

theorem infinities_back (fmt : ℚ → Text) (id : Text) (c : APlaced) (h1 : c.pre ≠ .unknown) (h2 : c.post ≠ .unknown) (d : Text) : infinitiesOf (nIn fmt id c) d = some (c.pre, c.post, d) := by
  have hk : (nIn fmt id c).kids = (sourceFloats fmt (id ++ text "-input") (c.keys.map (·.input)) 1 (some [text "TIME"])).kids ++ [infinityNode c.toACurve] := rfl
  have hp : decide (prop (some (infinityNode c.toACurve)) (text "profile") = some (text "MAYA")) = true := by
    rw [prop_raw (t := text "MAYA") rfl (hplain _ (by decide))]
    simp
  have hf : findTech (nIn fmt id c).kids (text "MAYA") = some 2 := by
    rw [hk]
    unfold findTech sourceFloats sourceNode
    simp only [Node.kids, List.cons_append, List.nil_append, List.findIdx?_cons, Node.name, arrayNode]
    rw [hp]
    simp [text_inj, infinityNode]
  unfold infinitiesOf
  rw [hf]
  simp only
  have hi : (nIn fmt id c).kids[2]? = some (infinityNode c.toACurve) := rfl
  have hps : paramsOf (infinityNode c.toACurve) = [textChild (text "pre_infinity") (text c.pre.toString), textChild (text "post_infinity") (text c.post.toString)] := by
    unfold paramsOf infinityNode
    simp [Node.kids, Node.name, textChild, text_inj]
  rw [hi, Option.map_some, Option.bind_some, hps]
  have e1 := infinity_back h1
  have e2 := infinity_back h2
  simp only [List.foldlM_cons, List.foldlM_nil, infinityParam, textChild, Node.name, Node.direct, text_inj, String.reduceEq, if_true, if_false, Option.bind_eq_bind, Option.bind_some] at e1 e2 ⊢
  rw [e1, e2]
  rfl

/-! ## Keys -/

theorem setIn_at {st n : Nat} {vs : List (List ℚ)} {j : Nat} {w : List ℚ} (h : vs[j]? = some w) (x : AKey) : setIn st n vs j x = setIn st n [w] 0 x := by
  unfold setIn; rw [h]; rfl
theorem setOut_at {st n : Nat} {vs : List (List ℚ)} {j : Nat} {w : List ℚ} (h : vs[j]? = some w) (x : AKey) : setOut st n vs j x = setOut st n [w] 0 x := by
  unfold setOut; rw [h]; rfl
theorem setTcb_at {vs : List (List ℚ)} {j : Nat} {w : List ℚ} (h : vs[j]? = some w) (x : AKey) : setTcb vs j x = setTcb [w] 0 x := by
  unfold setTcb; rw [h]; rfl
theorem setEase_at {vs : List (List ℚ)} {j : Nat} {w : List ℚ} (h : vs[j]? = some w) (x : AKey) : setEase vs j x = setEase [w] 0 x := by
  unfold setEase; rw [h]; rfl

theorem mapIdx_at (ks : List AKey) (g : Nat → AKey → AKey) (v : AKey → List ℚ) (f : List (List ℚ) → Nat → AKey → AKey) (hf : ∀ (vs : List (List ℚ)) (j : Nat) (w : List ℚ) (x : AKey), vs[j]? = some w → f vs j x = f [w] 0 x) :
    (ks.mapIdx g).mapIdx (f (ks.map v)) = ks.mapIdx fun j k => f [v k] 0 (g j k) := by
  apply List.ext_getElem
  · simp
  · intro j h1 h2
    have hj : j < ks.length := by simpa using h2
    simp only [List.getElem_mapIdx]
    exact hf _ _ _ _ (by simp [hj])

/-- A new key for `k` with the interpolation `i`. -/
def freshKey (rnd : ℚ → ℚ) (ks : List AKey) (is : List Interpolation) (j : Nat) (k : AKey) : AKey :=
  ⟨shown rnd k.input, shown rnd k.output, newKind (ks.map fun k => shown rnd k.input) j (shown rnd k.input) (shown rnd k.output) (is.getD j .bezier)⟩

theorem newKeys_eq (rnd : ℚ → ℚ) (ks : List AKey) (is : List Interpolation) :
    newKeys (ks.map fun k => shown rnd k.input) is ((ks.map (·.output)).map (shown rnd)) = ks.mapIdx (freshKey rnd ks is) := by
  unfold newKeys
  apply List.ext_getElem
  · simp
  · intro j h1 h2
    have hj : j < ks.length := by simpa using h2
    simp [freshKey, List.getD_eq_getElem?_getD, hj]

/-- All sources of vectors applied to a key. -/
def finish (rnd : ℚ → ℚ) (ks : List AKey) (k x : AKey) : AKey :=
  let x := if hasBezier ks then setOut 2 1 [(outTan k).map (shown rnd)] 0 (setIn 2 1 [(inTan k).map (shown rnd)] 0 x) else x
  if hasTcb ks then setEase [(easeOf k).map (shown rnd)] 0 (setTcb [(tcbOf k).map (shown rnd)] 0 x) else x

theorem inTan_eq (k : AKey) : ∃ a b, inTan k = [a, b] := by unfold inTan; split <;> exact ⟨_, _, rfl⟩
theorem outTan_eq (k : AKey) : ∃ a b, outTan k = [a, b] := by unfold outTan; split <;> exact ⟨_, _, rfl⟩
theorem tcbOf_eq (k : AKey) : ∃ a b c, tcbOf k = [a, b, c] := by unfold tcbOf; split <;> exact ⟨_, _, _, rfl⟩
theorem easeOf_eq (k : AKey) : ∃ a b, easeOf k = [a, b] := by unfold easeOf; split <;> exact ⟨_, _, rfl⟩

theorem finish_eq (rnd : ℚ → ℚ) (ks : List AKey) (is : List Interpolation) (j : Nat) (k : AKey) : finish rnd ks k (freshKey rnd ks is j k) = keyAs rnd ks j k (is.getD j .bezier) := by
  obtain ⟨a1, a2, ha⟩ := inTan_eq k
  obtain ⟨b1, b2, hb⟩ := outTan_eq k
  obtain ⟨c1, c2, c3, hc⟩ := tcbOf_eq k
  obtain ⟨d1, d2, hd⟩ := easeOf_eq k
  unfold finish keyAs freshKey
  rw [ha, hb, hc, hd]
  generalize is.getD j .bezier = i
  cases i <;> cases hasBezier ks <;> cases hasTcb ks <;> simp [newKind, setIn, setOut, setTcb, setEase, shownPair, pairOf, shownKind]

theorem keyAs_own (rnd : ℚ → ℚ) (ks : List AKey) (j : Nat) (k : AKey) (hk : k ∈ ks) : keyAs rnd ks j k k.kind.interp = shownKey rnd k := by
  unfold keyAs shownKey
  cases h : k.kind with
  | step => simp [AKind.interp, shownKind]
  | linear => simp [AKind.interp, shownKind]
  | unknown => simp [AKind.interp, shownKind]
  | bezier i o =>
    have : hasBezier ks = true := List.any_eq_true.2 ⟨k, hk, by simp [h, AKind.interp]⟩
    simp [AKind.interp, shownKind, this, inTan, outTan, h, pairOf]
  | tcb t c b i o =>
    have : hasTcb ks = true := List.any_eq_true.2 ⟨k, hk, by simp [h, AKind.interp]⟩
    simp [AKind.interp, shownKind, this, tcbOf, easeOf, h, pairOf]

theorem keysAs_own (rnd : ℚ → ℚ) (ks : List AKey) (more : List Interpolation) : keysAs rnd ((ks.map fun k => k.kind.interp) ++ more) ks = ks.map (shownKey rnd) := by
  unfold keysAs
  apply List.ext_getElem
  · simp
  · intro j h1 h2
    have hj : j < ks.length := by simpa using h2
    simp only [List.getElem_mapIdx, List.getElem_map]
    have : ((ks.map fun k => k.kind.interp) ++ more).getD j .bezier = (ks[j]'hj).kind.interp := by
      rw [List.getD_eq_getElem?_getD, List.getElem?_append_left (by simpa using hj)]
      simp [hj]
    rw [this, keyAs_own rnd ks j _ (List.getElem_mem hj)]

theorem keyAs_interp (rnd : ℚ → ℚ) (ks : List AKey) (j : Nat) (k : AKey) (i : Interpolation) : (keyAs rnd ks j k i).kind.interp = i := by
  unfold keyAs
  cases i <;> cases hasBezier ks <;> cases hasTcb ks <;> rfl

/-! ## The sampler -/

theorem driverText_plain {d : Text × Int} (h : Pointer d.1) : Plain (driverText d) := by
  unfold driverText
  have hp : Plain (40 :: (intText d.2 ++ [41])) := plain_cons (by unfold FXml.IsChar; decide) (plain_append (intText_plain _) (hplain _ (by decide)))
  refine plain_append (plain_append h.1 ?_) ?_ <;> split <;> first | exact hp | exact fun c hc => nomatch hc

theorem driverText_ne {d : Text × Int} (h : Pointer d.1) : driverText d ≠ [] := by
  unfold driverText
  simp [h.2.1]

theorem fullQual_plain {c : APlaced} (h : GoodCurve c) : Plain (fullQual c) := by
  unfold fullQual
  refine plain_append ?_ h.qual.1
  split
  · exact plain_cons (by unfold FXml.IsChar; decide) (plain_append (intText_plain _) (hplain _ (by decide)))
  · exact fun c hc => nomatch hc

theorem elem_input_props {id sem : Text} (h1 : Plain id) (h2 : Plain sem) :
    prop (some (inputElem id sem [])) (text "semantic") = some sem ∧ prop (some (inputElem id sem [])) (text "source") = some (35 :: id) :=
  ⟨(inputElem_props h1 h2 none).1, (inputElem_props h1 h2 none).2.1⟩

theorem inputNode_plain {id : Text} {sem : Text} (h1 : id ≠ []) (h2 : sem ≠ []) : inputNode id sem (-1) (-1) = [inputElem id sem []] := inputNode_eq h1 h2 (-1)

/-- What is found for the inputs of a saved sampler. -/
def inputsOf (fmt : ℚ → Text) (junk : List Interpolation) (id : Text) (c : APlaced) : Inputs where
  input := some (nIn fmt id c)
  output := some (nOut fmt id c)
  interp := some (nInt junk id c)
  inTan := if hasBezier c.keys then some (nInTan fmt id c) else none
  outTan := if hasBezier c.keys then some (nOutTan fmt id c) else none
  tcb := if hasTcb c.keys then some (nTcb fmt id c) else none
  ease := if hasTcb c.keys then some (nEase fmt id c) else none
  driver := match c.driver with | none => [] | some d => 35 :: driverText d

theorem pick_found {ks around : List Node} {x : Node} {id : Text} (hid : Plain id) {a b : String} (ha : ∀ c ∈ text a, (1 ≤ c ∧ c ≤ 127) ∧ c ≠ 37) (hb : ∀ c ∈ text b, (1 ≤ c ∧ c ≤ 127) ∧ c ≠ 37)
    (hx : x ∈ ks) (hr : x.raw (text "id") = some (id ++ text a)) (hA : Apart ks) (s : Inputs) :
    pickInput (ks ++ around) s (inputElem (id ++ text a) (text b) []) = some (
      if text b = text "INPUT" then { s with input := some x }
      else if text b = text "OUTPUT" then { s with output := some x }
      else if text b = text "IN_TANGENT" then { s with inTan := some x }
      else if text b = text "OUT_TANGENT" then { s with outTan := some x }
      else if text b = text "TCB" then { s with tcb := some x }
      else if text b = text "EASE_IN_OUT" then { s with ease := some x }
      else if text b = text "INTERPOLATION" then { s with interp := some x }
      else if text b = text "DRIVER" then { s with driver := 35 :: (id ++ text a) }
      else s) := by
  obtain ⟨h1, h2⟩ := elem_input_props (plain_suffix hid a ha) (hplain (text b) hb)
  unfold pickInput
  rw [h1, h2, Option.bind_some, Option.map_some, found hx hr hA]

theorem sampler_inputs {ks around : List Node} (fmt : ℚ → Text) (junk : List Interpolation) {id : Text} (hid : Plain id) (c : APlaced) (hc : GoodCurve c) (hs : ∀ x ∈ writeSources fmt junk id c, x ∈ ks) (hA : Apart ks) :
    ((samplerNode id c).children (text "input")).foldlM (pickInput (ks ++ around)) {} = some (inputsOf fmt junk id c) := by
  rw [writeSources_eq] at hs
  have e : (samplerNode id c).children (text "input") = [inputElem (id ++ text "-input") (text "INPUT") [], inputElem (id ++ text "-output") (text "OUTPUT") [], inputElem (id ++ text "-interpolations") (text "INTERPOLATION") []] ++
      (if hasBezier c.keys then [inputElem (id ++ text "-intangents") (text "IN_TANGENT") [], inputElem (id ++ text "-outtangents") (text "OUT_TANGENT") []] else []) ++
      (if hasTcb c.keys then [inputElem (id ++ text "-tcbs") (text "TCB") [], inputElem (id ++ text "-eases") (text "EASE_IN_OUT") []] else []) ++
      (match c.driver with | none => [] | some d => [inputElem (driverText d) (text "DRIVER") []]) := by
    unfold samplerNode
    rw [inputNode_plain (suffix_ne_nil id (by decide)) (by decide), inputNode_plain (suffix_ne_nil id (by decide)) (by decide), inputNode_plain (suffix_ne_nil id (by decide)) (by decide),
      inputNode_plain (suffix_ne_nil id (by decide)) (by decide), inputNode_plain (suffix_ne_nil id (by decide)) (by decide), inputNode_plain (suffix_ne_nil id (by decide)) (by decide),
      inputNode_plain (suffix_ne_nil id (by decide)) (by decide)]
    cases hd : c.driver with
    | none =>
      rw [children_all]
      · rfl
      · cases hasBezier c.keys <;> cases hasTcb c.keys <;> simp [inputElem, Node.name]
    | some d =>
      simp only
      rw [inputNode_plain (driverText_ne (hc.driver d hd).1) (by decide), children_all]
      · rfl
      · cases hasBezier c.keys <;> cases hasTcb c.keys <;> simp [inputElem, Node.name]
  rw [e]
  have m1 : nIn fmt id c ∈ ks := hs _ (by simp)
  have m2 : nOut fmt id c ∈ ks := hs _ (by simp)
  have m3 : nInt junk id c ∈ ks := hs _ (by simp)
  have f1 := fun s => pick_found (around := around) (b := "INPUT") hid (a := "-input") (by decide) (by decide) m1 rfl hA s
  have f2 := fun s => pick_found (around := around) (b := "OUTPUT") hid (a := "-output") (by decide) (by decide) m2 rfl hA s
  have f3 := fun s => pick_found (around := around) (b := "INTERPOLATION") hid (a := "-interpolations") (by decide) (by decide) m3 rfl hA s
  simp only [text_inj, String.reduceEq, if_false, if_true] at f1 f2 f3
  have g1 : [inputElem (id ++ text "-input") (text "INPUT") [], inputElem (id ++ text "-output") (text "OUTPUT") [], inputElem (id ++ text "-interpolations") (text "INTERPOLATION") []].foldlM (pickInput (ks ++ around)) {} =
      some { input := some (nIn fmt id c), output := some (nOut fmt id c), interp := some (nInt junk id c) } := by
    simp only [List.foldlM_cons, List.foldlM_nil, f1, f2, f3, Option.bind_eq_bind, Option.bind_some]
    rfl
  have g2 : (if hasBezier c.keys then [inputElem (id ++ text "-intangents") (text "IN_TANGENT") [], inputElem (id ++ text "-outtangents") (text "OUT_TANGENT") []] else []).foldlM (pickInput (ks ++ around))
      { input := some (nIn fmt id c), output := some (nOut fmt id c), interp := some (nInt junk id c) } =
      some { input := some (nIn fmt id c), output := some (nOut fmt id c), interp := some (nInt junk id c), inTan := if hasBezier c.keys then some (nInTan fmt id c) else none,
             outTan := if hasBezier c.keys then some (nOutTan fmt id c) else none } := by
    cases hb : hasBezier c.keys with
    | false => rfl
    | true =>
      have m4 : nInTan fmt id c ∈ ks := hs _ (by simp [hb])
      have m5 : nOutTan fmt id c ∈ ks := hs _ (by simp [hb])
      have f4 := fun s => pick_found (around := around) (b := "IN_TANGENT") hid (a := "-intangents") (by decide) (by decide) m4 rfl hA s
      have f5 := fun s => pick_found (around := around) (b := "OUT_TANGENT") hid (a := "-outtangents") (by decide) (by decide) m5 rfl hA s
      simp only [text_inj, String.reduceEq, if_false, if_true] at f4 f5
      simp only [if_true, List.foldlM_cons, List.foldlM_nil, f4, f5, Option.bind_eq_bind, Option.bind_some]
      rfl
  have g3 : (if hasTcb c.keys then [inputElem (id ++ text "-tcbs") (text "TCB") [], inputElem (id ++ text "-eases") (text "EASE_IN_OUT") []] else []).foldlM (pickInput (ks ++ around))
      { input := some (nIn fmt id c), output := some (nOut fmt id c), interp := some (nInt junk id c), inTan := if hasBezier c.keys then some (nInTan fmt id c) else none,
        outTan := if hasBezier c.keys then some (nOutTan fmt id c) else none } = some { inputsOf fmt junk id c with driver := [] } := by
    cases hb : hasTcb c.keys with
    | false => simp [inputsOf, hb]
    | true =>
      have m4 : nTcb fmt id c ∈ ks := hs _ (by simp [hb])
      have m5 : nEase fmt id c ∈ ks := hs _ (by simp [hb])
      have f4 := fun s => pick_found (around := around) (b := "TCB") hid (a := "-tcbs") (by decide) (by decide) m4 rfl hA s
      have f5 := fun s => pick_found (around := around) (b := "EASE_IN_OUT") hid (a := "-eases") (by decide) (by decide) m5 rfl hA s
      simp only [text_inj, String.reduceEq, if_false, if_true] at f4 f5
      simp only [if_true, List.foldlM_cons, List.foldlM_nil, f4, f5, Option.bind_eq_bind, Option.bind_some]
      simp [inputsOf, hb]
  refine foldlM_app (foldlM_app (foldlM_app g1 g2) g3) ?_
  cases hd : c.driver with
  | none => simp [inputsOf, hd]
  | some d =>
    obtain ⟨h1, h2⟩ := elem_input_props (driverText_plain (hc.driver d hd).1) (hplain (text "DRIVER") (by decide))
    refine foldlM_one ?_
    unfold pickInput
    rw [h1, h2, Option.bind_some, Option.map_some]
    simp [text_inj, inputsOf, hd]

/-! ## The curve -/

theorem applyVecs_back (ov : Ov) {fmt rnd} (hf : Formats fmt rnd) (id : Text) (k : Nat) (hk : 2 ≤ k) (hk2 : k < 2 ^ 32) (ks : List AKey) (g : Nat → AKey → AKey) (v : AKey → List ℚ) (hv : ∀ x, (v x).length = k)
    (hl : ks.length < 2 ^ 32) (ps : Option (List Text)) (b : Bool) (f : Nat → List (List ℚ) → Nat → AKey → AKey)
    (hF : ∀ (vs : List (List ℚ)) (j : Nat) (w : List ℚ) (x : AKey), vs[j]? = some w → f k vs j x = f k [w] 0 x) :
    applyVecs ov k 1 (if b then some (sourceVectors fmt id (ks.map v) k ps) else none) f [ks.mapIdx g] =
      some [ks.mapIdx fun j x => if b then f k [(v x).map (shown rnd)] 0 (g j x) else g j x] := by
  cases b with
  | false => rfl
  | true =>
    have e := vecs_source ov hf id k hk hk2 (ks.map v) (by intro w hw; obtain ⟨x, _, rfl⟩ := List.mem_map.1 hw; exact hv x) (by simpa using hl) ps
    rw [List.map_map] at e
    simp only [if_true, applyVecs]
    rw [e, Option.map_some, List.zipWith_cons_cons, List.zipWith_nil_left]
    rw [← mapIdx_at ks g (fun x => (v x).map (shown rnd)) (f k) hF]
    rfl

theorem junk_first (rnd : ℚ → ℚ) {is : List Interpolation} {ks : List AKey} (h : is.length = ks.length) (more : List Interpolation) : keysAs rnd (is ++ more) ks = keysAs rnd is ks := by
  unfold keysAs
  apply List.ext_getElem
  · simp
  · intro j h1 h2
    have hj : j < is.length := by rw [h]; simpa using h2
    simp only [List.getElem_mapIdx, List.getD_eq_getElem?_getD]
    rw [List.getElem?_append_left hj]

theorem curve_back (ov : Ov) {fmt rnd} (hf : Formats fmt rnd) {junk : List Interpolation} (id : Text) (c : APlaced) (hc : GoodCurve c) (hj : junk.length = c.keys.length) (pointer : Text) :
    loadCurves ov { pointer := pointer, qual := fullQual c } (inputsOf fmt junk id c) (nIn fmt id c) (nOut fmt id c) = some (chanAs rnd junk pointer c) := by
  have hl : c.keys.length < 2 ^ 32 := by have := hc.count; omega
  have hst : strideOf (accessorOf (nOut fmt id c)) = some 1 := by
    unfold nOut
    rw [sourceFloats, accessorOf_floats, strideOf_accessor _ _ _ _ _ (by decide)]
    rfl
  unfold loadCurves
  rw [hst, Option.bind_some, readIn ov hf id c hl, Option.bind_some]
  unfold chanAs
  by_cases hk : c.keys = []
  · rw [if_pos (by simp [hk]), if_pos hk]
    rfl
  rw [if_neg (by simpa using hk), if_neg hk]
  have hi : interpsOf (inputsOf fmt junk id c).interp = some (junk ++ c.keys.map fun k => k.kind.interp) := readInterps_back _ _ (by have := hc.count; simp only [List.length_append, List.length_map]; omega)
  have ho : readOutputs ov 1 (nOut fmt id c) = some [some ((c.keys.map (·.output)).map (shown rnd))] := readOutputs_back ov hf _ _ _ (by simpa using hl)
  have two : ∀ x, (inTan x).length = 2 := fun x => by obtain ⟨_, _, h⟩ := inTan_eq x; rw [h]; rfl
  have two' : ∀ x, (outTan x).length = 2 := fun x => by obtain ⟨_, _, h⟩ := outTan_eq x; rw [h]; rfl
  have three : ∀ x, (tcbOf x).length = 3 := fun x => by obtain ⟨_, _, _, h⟩ := tcbOf_eq x; rw [h]; rfl
  have two'' : ∀ x, (easeOf x).length = 2 := fun x => by obtain ⟨_, _, h⟩ := easeOf_eq x; rw [h]; rfl
  rw [hi, Option.bind_some, ho, Option.bind_some, List.map_cons, List.map_nil, Option.getD_some, newKeys_eq]
  rw [show (inputsOf fmt junk id c).inTan = if hasBezier c.keys then some (nInTan fmt id c) else none from rfl, nInTan,
    applyVecs_back ov hf _ 2 (by decide) (by decide) c.keys _ inTan two hl _ _ (fun st => setIn st 1) (fun vs j w x h => setIn_at h x), Option.bind_some]
  rw [show (inputsOf fmt junk id c).outTan = if hasBezier c.keys then some (nOutTan fmt id c) else none from rfl, nOutTan,
    applyVecs_back ov hf _ 2 (by decide) (by decide) c.keys _ outTan two' hl _ _ (fun st => setOut st 1) (fun vs j w x h => setOut_at h x), Option.bind_some]
  rw [show (inputsOf fmt junk id c).tcb = if hasTcb c.keys then some (nTcb fmt id c) else none from rfl, nTcb,
    applyVecs_back ov hf _ 3 (by decide) (by decide) c.keys _ tcbOf three hl _ _ (fun _ => setTcb) (fun vs j w x h => setTcb_at h x), Option.bind_some]
  rw [show (inputsOf fmt junk id c).ease = if hasTcb c.keys then some (nEase fmt id c) else none from rfl, nEase,
    applyVecs_back ov hf _ 2 (by decide) (by decide) c.keys _ easeOf two'' hl _ _ (fun _ => setEase) (fun vs j w x h => setEase_at h x), Option.bind_some]
  rw [infinities_back fmt id c hc.pre hc.post, Option.bind_some]
  have hd : driverOf ov (inputsOf fmt junk id c).driver = some (c.driver.map fun d => (d.1, if d.2 < 0 then 0 else d.2)) := by
    unfold inputsOf
    cases h : c.driver with
    | none => rfl
    | some d => exact driver_back ov (hc.driver d h).1 (hc.driver d h).2
  simp only
  rw [hd, Option.map_some, ← junk_first rnd hj (c.keys.map fun k => k.kind.interp)]
  congr 2
  simp only [List.map_cons, List.map_nil]
  congr 2
  unfold keysAs
  apply List.ext_getElem
  · simp
  · intro j h1 h2
    simp only [List.getElem_mapIdx]
    rw [← finish_eq]
    unfold finish
    by_cases hb : hasBezier c.keys = true <;> by_cases ht : hasTcb c.keys = true <;> simp only [hb, ht, if_true, if_false, Bool.false_eq_true]

/-! ## Channels -/

theorem channel_back (ov : Ov) {fmt rnd} (hf : Formats fmt rnd) {ks around : List Node} {junk : List Interpolation} {id pointer : Text} (hid : Plain id) (hp : Pointer pointer) {c : APlaced} (hc : GoodCurve c)
    (hj : junk.length = c.keys.length) (hs : ∀ x ∈ writeSources fmt junk id c, x ∈ ks) (hm : samplerNode id c ∈ ks) (hA : Apart ks) :
    loadChannel ov (ks ++ around) (channelNode id pointer c) = some (true, chanAs rnd junk pointer c) := by
  have hq := fullQual_plain hc
  have ht : targetText pointer c = pointer ++ fullQual c := by unfold targetText fullQual; rw [List.append_assoc]
  have p1 : prop (some (channelNode id pointer c)) (text "source") = some (35 :: (id ++ text "-sampler")) := by
    refine prop_raw ?_ (plain_cons (by unfold FXml.IsChar; decide) (plain_suffix hid "-sampler" (by decide)))
    simp [channelNode, raw_cons]
  have p2 : prop (some (channelNode id pointer c)) (text "target") = some (targetText pointer c) := by
    refine prop_raw ?_ (by rw [ht]; exact plain_append hp.1 hq)
    simp [channelNode, raw_cons, text_inj]
  unfold loadChannel
  rw [p1, Option.bind_some, p2, Option.bind_some, target_split hp hc, Option.bind_some, found hm rfl hA]
  simp only
  rw [if_neg (by simp [samplerNode, Node.name]), sampler_inputs fmt junk hid c hc hs hA, Option.bind_some]
  simp only [inputsOf]
  have := curve_back ov hf id c hc hj pointer
  unfold inputsOf at this
  rw [this]
  rfl

theorem keep_all (ov : Ov) (pool : List Node) {f : Node → AChan} (ks : List Node) (h : ∀ k ∈ ks, loadChannel ov pool k = some (true, f k)) (done : List AChan) :
    ks.foldlM (keepChannel ov pool) (true, done) = some (true, done ++ ks.map f) := by
  induction ks generalizing done with
  | nil => simp
  | cons k ks ih =>
    rw [List.foldlM_cons, keepChannel, h k List.mem_cons_self, Option.map_some, Option.bind_eq_bind, Option.bind_some]
    simp only [Bool.and_self, if_true]
    rw [ih (fun x hx => h x (List.mem_cons_of_mem _ hx)), List.append_assoc, List.map_cons]
    rfl

end Verif.FArc
