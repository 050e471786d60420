import Verif.ArcLinkLemmas
import Verif.ArcAnimProps

/-! # Properties of the linking of animation channels -/

namespace Verif.FArc

open Verif.FStr (Ch)
open Verif.FEff (Text text)
open Verif.FConv (Ov Formats)
open Verif.Enum (Interpolation Infinity)

variable {C : Type}

/-- The channels found for a pointer are all those with that pointer, however deep their animation, in order; an empty pointer finds none. -/
theorem channels_found (lib : List (LAnim C)) (p : Text) : findChannels lib p = if p = [] then [] else (LAnim.allOf lib).filter fun ch => decide (ch.pointer = p) := by
  unfold findChannels
  rw [findAll_all]

/-- The channels that were written for the floats of a value, in whatever order they are found, give each float its curves, in that order, and no other float gets any. -/
theorem curves_linked (ov : Ov) (pointer : Text) (a : FAnim.Anim C) (hw : WellNamed a) (hs : SameCount a) (xs : List (Nat × C × Option (Text × Int))) (hx : ∀ x ∈ xs, x.1 < a.values.length) :
    processChannels ov a (xs.map fun x => { pointer := pointer, qual := hook a x.1, curves := [x.2.1], driver := x.2.2 }) = some (!xs.isEmpty, withCurves a (xs.map fun x => (x.1, x.2.1))) := by
  unfold processChannels
  rw [link_all ov pointer xs a hw hs hx false, Bool.false_or]

/-- Channels of other elements of an array leave a value in that array as it is. -/
theorem others_skipped (ov : Ov) (a : FAnim.Anim C) (ha : a.elem ≠ -1) (chs : List (LChan C)) (h : ∀ ch ∈ chs, ∃ e : Int, (0 ≤ e ∧ e + 48 < 2 ^ 31) ∧ e ≠ a.elem ∧ ∃ q, 0 ∉ q ∧ ch.qual = 40 :: (intText e ++ [41]) ++ q) :
    processChannels ov a chs = some (false, a) := by
  refine link_others ov _ chs fun ch hc => ?_
  obtain ⟨e, h1, h2, q, h3, h4⟩ := h ch hc
  exact link_other ov (false, a) h1 ha (fun x => h2 x.symm) h3 ch h4

/-- The animated values of all kinds of parameters tell their floats apart. -/
theorem kinds_wellNamed (k : FAnim.Kind) (base : Nat) : WellNamed (FAnim.createAnimated (C := C) k base) ∧ SameCount (FAnim.createAnimated (C := C) k base) := by
  have e : (FAnim.createAnimated (C := C) k base).qualifiers = ((FAnim.names k).map FAnim.text).take (FAnim.fields k).length := by
    unfold FAnim.createAnimated FAnim.Anim.make
    simp
  have v : (FAnim.createAnimated (C := C) k base).values.length = (FAnim.fields k).length := by
    unfold FAnim.createAnimated FAnim.Anim.make
    simp
  have c : (FAnim.createAnimated (C := C) k base).curves.length = (FAnim.fields k).length := by
    unfold FAnim.createAnimated FAnim.Anim.make
    simp
  unfold WellNamed SameCount
  rw [e, v, c]
  refine ⟨Or.inl ⟨rfl, ?_, ?_⟩, ?_, rfl⟩ <;> clear * - <;> revert k <;> intro k <;> cases k <;> decide +kernel

/-- A curve gets a driver exactly if its channel names the pointer of the value and one of its floats. -/
theorem drivers_linked (lib : List (LAnim C)) (p : Text) (n : Nat) (c : C) (i : Int) :
    (c, i) ∈ LAnim.driveAll p n lib ↔ ∃ ch ∈ LAnim.allOf lib, c ∈ ch.curves ∧ ch.driver = some (p, i) ∧ p ≠ [] ∧ 0 ≤ i ∧ i < n := by
  rw [driveAll_all]
  constructor
  · intro h
    obtain ⟨ch, h1, h2⟩ := List.mem_flatMap.1 h
    obtain ⟨h3, h4⟩ := List.mem_filter.1 h1
    obtain ⟨c', h5, h6⟩ := List.mem_map.1 h2
    unfold isDriven at h4
    cases hd : ch.driver with
    | none => rw [hd] at h4; exact absurd h4 (by simp)
    | some d =>
      rw [hd] at h4 h6
      simp only [Bool.and_eq_true, decide_eq_true_eq, Option.map_some, Option.getD_some, Prod.mk.injEq] at h4 h6
      obtain ⟨⟨g1, g2⟩, g3⟩ := h4
      refine ⟨ch, h3, h6.1 ▸ h5, by rw [hd, g2, ← h6.2], g2 ▸ g1, ?_, ?_⟩ <;> omega
  · rintro ⟨ch, h1, h2, h3, h4, h5, h6⟩
    refine List.mem_flatMap.2 ⟨ch, List.mem_filter.2 ⟨h1, ?_⟩, List.mem_map.2 ⟨c, h2, ?_⟩⟩
    · unfold isDriven; rw [h3]; simp [h4, h5, h6]
    · rw [h3]; rfl

/-! ## Values saved and loaded -/

/-- Animated values that are saved with their curves, one channel for each value, are loaded with the same curves for the same floats, where the memory that the writer of interpolations does not set happens to be right, every curve has keys and no CRC-32 collide. -/
theorem values_roundtrip_partial (ov : Ov) {fmt : ℚ → Text} {rnd : ℚ → ℚ} (hf : Formats fmt rnd) {anim : Text} (ha : Plain anim) (vs : List (Text × FAnim.Anim Driven))
    (hv : ∀ v ∈ vs, Pointer v.1 ∧ WellNamed v.2 ∧ SameCount v.2 ∧ ∀ c ∈ placed v.2, GoodCurve c ∧ c.keys ≠ [] ∧ ∀ d ∈ c.driver, 0 ≤ d.2) (hd : vs.Pairwise Distinct) (attrs : List (Text × Text)) (t : Text) :
    ∃ es, writeChannels fmt lucky anim (vs.map fun v => (v.1, placed v.2)) = some es ∧ (Apart es → ∃ chs, loadChannels ov (.elem (text "animation") attrs t es) [] = some (true, chs) ∧
      ∀ v ∈ vs, processChannels ov (blank v.2) (findChannels [.node (chs.map AChan.link) []] v.1) =
        some (!(placed v.2).isEmpty, { (blank v.2 : FAnim.Anim ACurve) with curves := v.2.curves.map fun cs => cs.map fun c => shownCurve rnd c.1 })) := by
  obtain ⟨es, h1, h2⟩ := channels_roundtrip_partial ov hf ha (vs.map fun v => (v.1, placed v.2)) (by
    intro ch hc
    obtain ⟨v, hm, rfl⟩ := List.mem_map.1 hc
    exact ⟨(hv v hm).1, (hv v hm).2.2.2⟩) (text "animation") attrs t [] [] [] (fun _ h => nomatch h)
  refine ⟨es, h1, fun hA => ⟨_, (by simpa using h2 (by simpa using hA)), ?_⟩⟩
  intro v hm
  obtain ⟨p1, p2, p3, p4⟩ := hv v hm
  rw [channels_found, if_neg p1.2.1]
  simp only [LAnim.allOf, LAnim.all, List.append_nil]
  exact link_saved ov rnd vs (fun w hw => ⟨(hv w hw).2.1, (hv w hw).2.2.1, fun c hc => ((hv w hw).2.2.2 c hc).1⟩) hd v hm

/-! ## Findings -/

/-- Two floats without qualifiers: the curve of the second is linked to the first. -/
theorem unnamed_violated : processChannels .wrap ({ values := [some 0, some 1], qualifiers := [[], []], curves := [[], []], elem := -1 } : FAnim.Anim Nat)
      [{ pointer := text "n/v", qual := [], curves := [7] }, { pointer := text "n/v", qual := [], curves := [8] }] =
    some (true, { values := [some 0, some 1], qualifiers := [[], []], curves := [[7, 8], []], elem := -1 }) := by
  decide +kernel

/-- A channel without a qualifier that has a curve for each element of an array: every element is linked to the first curve. -/
theorem array_violated (i : Nat) (c d : C) : processChannels .wrap ({ values := [some 0], qualifiers := [[]], curves := [[]], elem := i } : FAnim.Anim C) [{ pointer := text "w", qual := [], curves := [c, d] }] =
    some (true, { values := [some 0], qualifiers := [[]], curves := [[c]], elem := i }) := rfl

/-- The second index of a qualifier in square brackets is ignored: the curve of row 2 and column 1 of a matrix drives row 2 of column 0. A qualifier that is not one of a look-at matrix drives its target. -/
theorem qualifier_violated :
    (processChannels .wrap (FAnim.createAnimated (C := Nat) .matrix 0) [{ pointer := text "n/m", qual := text "[2][1]", curves := [7] }]).map (fun r => r.2.curves.findIdx? (· = [7])) = some (some 2) ∧
    (FAnim.createAnimated (C := Nat) .matrix 0).qualifiers.findIdx? (· = text "(2)(1)") = some 6 ∧
    (processChannels .wrap (FAnim.createAnimated (C := Nat) .lookAt 0) [{ pointer := text "n/l", qual := text ".W", curves := [7] }]).map (fun r => r.2.curves.findIdx? (· = [7])) = some (some 3) ∧
    (FAnim.createAnimated (C := Nat) .lookAt 0).qualifiers[3]? = some (text ".TARGETX") := by
  refine ⟨?_, ?_, ?_, ?_⟩ <;> decide +kernel

/-- A missing driver is reported for exactly the channels whose first curve has got its driver, and never for one that lacks it. -/
theorem driver_report_violated (driven : C → Bool) (lib : List (LAnim C)) (ch : LChan C) :
    (ch ∈ LAnim.reportsAll driven lib ↔ ch ∈ LAnim.allOf lib ∧ (∃ d, ch.driver = some d ∧ d.1 ≠ []) ∧ ∃ c, ch.curves.head? = some c ∧ driven c = true) := by
  rw [reportsAll_all, List.mem_filter, Bool.and_eq_true, decide_eq_true_eq, Option.any_eq_true]
  refine and_congr_right fun _ => and_congr ?_ ?_
  · cases ch.driver with
    | none => simp
    | some d => simp
  · exact ⟨fun ⟨c, h⟩ => ⟨c, h⟩, fun ⟨c, h⟩ => ⟨c, h⟩⟩

/-! ## Examples -/

/-- A translation with curves for X and Z, and two weights of a morpher. -/
def sampleValues : List (Text × FAnim.Anim Driven) := [
  (text "n/t", { (FAnim.createAnimated .vector3 0 : FAnim.Anim Driven) with curves := [[({ keys := [⟨0, 0, .linear⟩, ⟨1, 1, .linear⟩] }, none)], [], [({ keys := [⟨0, 1, .step⟩] }, some (text "m-w", 1))]] }),
  (text "m-w", { (FAnim.createAnimated .float 3 : FAnim.Anim Driven) with curves := [[({ keys := [⟨0, 1 / 2, .linear⟩] }, none)]], elem := 0 }),
  (text "m-w", { (FAnim.createAnimated .float 4 : FAnim.Anim Driven) with curves := [[({ keys := [⟨0, 1 / 4, .linear⟩] }, none)]], elem := 1 })]

/-- They are saved, loaded and linked. -/
example : ((writeChannels fmtParts lucky (text "a") (sampleValues.map fun v => (v.1, placed v.2))).bind fun es => loadChannels .wrap (.elem (text "animation") [] [] es) []).bind (fun r =>
      sampleValues.mapM fun v => (processChannels .wrap (blank v.2) (findChannels [.node (r.2.map AChan.link) []] v.1)).map fun s => s.2.curves) =
    some [[[{ keys := [⟨0, 0, .linear⟩, ⟨1, 1, .linear⟩] }], [], [{ keys := [⟨0, 1, .step⟩] }]], [[{ keys := [⟨0, 1 / 2, .linear⟩] }]], [[{ keys := [⟨0, 1 / 4, .linear⟩] }]]] := by
  decide +kernel

example : sampleValues.Pairwise Distinct ∧ ∀ v ∈ sampleValues, Pointer v.1 ∧ WellNamed v.2 ∧ SameCount v.2 := by
  refine ⟨by unfold sampleValues Distinct; decide +kernel, ?_⟩
  intro v hv
  simp only [sampleValues, List.mem_cons, List.not_mem_nil, or_false] at hv
  rcases hv with rfl | rfl | rfl
  · exact ⟨⟨hplain _ (by decide), by decide, by decide, by decide⟩, Or.inl ⟨rfl, by decide, by decide⟩, rfl, rfl⟩
  · exact ⟨⟨hplain _ (by decide), by decide, by decide, by decide⟩, Or.inr ⟨⟨by decide, by decide⟩, rfl, by decide⟩, rfl, rfl⟩
  · exact ⟨⟨hplain _ (by decide), by decide, by decide, by decide⟩, Or.inr ⟨⟨by decide, by decide⟩, rfl, by decide⟩, rfl, rfl⟩

/-- **C158.** The indices found for an array are those of the qualifiers that have one, in the order of the channels. -/
theorem array_indices (ov : Ov) (chs : List (LChan C)) (is : List Int) (h : arrayIndices ov chs = some is) :
    ∀ i, i ∈ is ↔ i ≠ -1 ∧ ∃ ch ∈ chs, FConv.parseQualifier ov (ch.qual ++ [0]) = some i := by
  intro i
  unfold arrayIndices at h
  obtain ⟨js, hj, rfl⟩ := Option.map_eq_some_iff.1 h
  rw [List.mem_filter, decide_eq_true_eq, and_comm]
  refine and_congr_right fun _ => ?_
  clear h
  induction chs generalizing js with
  | nil =>
    have : js = [] := by simpa using hj.symm
    simp [this]
  | cons ch chs ih =>
    rw [List.mapM_cons] at hj
    obtain ⟨a, ha, hj⟩ := Option.bind_eq_some_iff.1 hj
    obtain ⟨l, hl, hj⟩ := Option.bind_eq_some_iff.1 hj
    have : js = a :: l := by simpa using hj.symm
    rw [this, List.mem_cons, ih l hl]
    simp only [List.mem_cons, exists_eq_or_imp, ha, Option.some.injEq]
    exact or_congr_left eq_comm

example : arrayIndices .wrap ([⟨text "w", text "(2)", [7], none⟩, ⟨text "w", [], [8], none⟩, ⟨text "w", text "(0)", [9], none⟩] : List (LChan Nat)) = some [2, 0] := by decide +kernel

end Verif.FArc
