import Verif.ArcSourceAux
import Verif.ArcLemmas

/-!
# Sources of saved files are read back (C142)
-/

namespace Verif.FArc

open Verif.FStr (Ch)
open Verif.FEff (Text text)
open Verif.FConv (Ov Lit Formats shown tokens)

/-- **C142.** A source of numbers is read back: the numbers, as the text shows them, and the stride, whatever the list held before. -/
theorem float_source_roundtrip (ov : Ov) {fmt rnd} (hf : Formats fmt rnd) (id : Text) (values : List ℚ) (stride : Nat) (ps : Option (List Text)) (hs : stride < 2 ^ 32)
    (hv : values.length < 2 ^ 32) (old : List ℚ) :
    readFloats ov (sourceFloats fmt id values stride ps) old = some (if stride = 0 then 1 else stride, values.map (shown rnd)) := by
  have hc : values.length / (if stride = 0 then 1 else stride) < 2 ^ 32 := Nat.lt_of_le_of_lt (Nat.div_le_self _ _) hv
  have hs' : (if stride = 0 then 1 else stride) < 2 ^ 32 := by split <;> omega
  simp only [readFloats, sourceFloats, accessorOf_floats, array_of_source, strideOf_accessor _ _ _ _ _ hs', countOf_accessor _ _ _ _ _ hc, Option.bind_some, readList_numsText ov hf,
    Option.map_some]
  split <;> simp_all

example : readFloats .wrap (sourceFloats (fun _ => text "1.5") (text "s") [3 / 2, 0, 3 / 2] 3 none) [7] = some (3, [3 / 2, 0, 3 / 2].map (shown fun _ => 3 / 2)) :=
  float_source_roundtrip .wrap formats_ok (text "s") _ 3 none (by decide) (by decide) [7]

/-- **C142.** A source of vectors, each of `k` numbers, is read back as the list of all their numbers, with the stride `k`. -/
theorem vector_source_roundtrip (ov : Ov) {fmt rnd} (hf : Formats fmt rnd) (id : Text) (vs : List (List ℚ)) (k : Nat) (hk : 0 < k) (hk2 : k < 2 ^ 32) (hv : vs.length < 2 ^ 32)
    (ps : Option (List Text)) (old : List ℚ) : readFloats ov (sourceVectors fmt id vs k ps) old = some (k, vs.flatten.map (shown rnd)) := by
  simp only [readFloats, sourceVectors, accessorOf_floats, array_of_source, strideOf_accessor _ _ _ _ _ hk2, countOf_accessor _ _ _ _ _ hv, Option.bind_some, readList_numsText ov hf,
    Option.map_some, if_neg (Nat.ne_of_gt hk)]

/-- **C142.** A source of vectors of three numbers is read back as points. -/
theorem point_source_roundtrip (ov : Ov) {fmt rnd} (hf : Formats fmt rnd) (id : Text) (vs : List (List ℚ)) (h3 : ∀ v ∈ vs, v.length = 3) (hv : vs.length < 2 ^ 32)
    (ps : Option (List Text)) (old : List (List ℚ)) : readPoints ov (sourceVectors fmt id vs 3 ps) old = some (vs.map (·.map (shown rnd))) := by
  simp only [readPoints, sourceVectors, accessorOf_floats, array_of_source, countOf_accessor _ _ _ _ _ hv, Option.bind_some]
  exact readVecs_numsText ov hf 3 (by decide) vs h3 _

/-- **C142.** A source of matrices is read back. -/
theorem matrix_source_roundtrip (ov : Ov) {fmt rnd} (hf : Formats fmt rnd) (id : Text) (ms old : List FConv.Mat) (hv : ms.length < 2 ^ 32) :
    readMatrices ov (sourceMatrices fmt id ms) old = some (ms.map (shownMat rnd)) := by
  simp only [readMatrices, sourceMatrices, accessorOf_floats, array_of_source, countOf_accessor _ _ _ _ _ hv, Option.bind_some]
  exact readMats_numsText ov hf ms _

/-- **C142, partial.** A source of names or of references is read back if the names are words. Missing: names that are empty or hold blanks, see `names_source_violated`. -/
theorem names_source_partial (id : Text) (ws : List Text) (param : Text) (idref : Bool) (hw : ∀ w ∈ ws, Word w) (hv : ws.length < 2 ^ 32) :
    readNames (sourceNames id ws param idref) [] = some ws := by
  obtain ⟨h1, h2⟩ := words_tokens ws hw
  have hd : direct (((sourceNames id ws param idref).child (text "Name_array")).or ((sourceNames id ws param idref).child (text "IDREF_array"))) = wordsText ws := by
    cases idref <;> simp [sourceNames, sourceNode, arrayNode, child_cons, text_inj, direct]
  unfold readNames
  rw [hd]
  simp only [sourceNames, accessorOf_names, countOf_accessor _ _ _ _ _ hv, Option.bind_some]
  have : FConv.resizeTo ([] : Text) [] ws.length = List.replicate ws.length [] := by simp [FConv.resizeTo]
  rw [this, toStringList_empty _ _ h2, h1]

/-- The names of joints are words. -/
example : ∀ w ∈ [text "hip", text "knee-2"], Word w := by
  intro w hw
  simp only [List.mem_cons, List.not_mem_nil, or_false] at hw
  unfold Word
  rcases hw with rfl | rfl <;> decide

/-- **C142, violated.** An empty name is lost, so that the names after it are read at the place before, and a name with a blank is read as two. -/
theorem names_source_violated :
    readNames (sourceNames (text "s") [text "a", [], text "b"] (text "JOINT") false) [] = some [text "a", text "b"] ∧
    readNames (sourceNames (text "s") [text "a b", text "c"] (text "JOINT") false) [] = some [text "a", text "b", text "c"] := by decide +kernel

/-- **C142.** The id of every source is read back, and so is that of its array, by which the accessor names it. -/
theorem source_ids (id ty t : Text) (len count stride : Nat) (ps : Option (List Text)) (pt : Text) (h : Plain id) :
    prop (some (sourceNode id ty t len count stride ps pt)) (text "id") = some id ∧
    ∃ a, (sourceNode id ty t len count stride ps pt).child ty = some a ∧ prop (some a) (text "id") = some (id ++ text "-array") ∧
      prop (some (accessor (id ++ text "-array") count stride ps (some pt))) (text "source") = some (35 :: (id ++ text "-array")) := by
  have hp : Plain (id ++ text "-array") := plain_append h (by unfold Plain FXml.IsChar; decide)
  have hq : Plain (35 :: (id ++ text "-array")) := plain_cons (by unfold FXml.IsChar; decide) hp
  refine ⟨by simp [sourceNode, prop, raw_cons, decode_plain h], ?_⟩
  refine ⟨arrayNode (id ++ text "-array") ty t len, by simp [sourceNode, child_cons, arrayNode], ?_, ?_⟩
  · simp [arrayNode, prop, raw_cons, decode_plain hp]
  · simp [accessor, prop, raw_cons, decode_plain hq]

example : Plain (text "mesh-positions") := by unfold Plain FXml.IsChar; decide

end Verif.FArc
