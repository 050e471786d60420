import Verif.ArcTransAux

/-!
# Transforms are saved and loaded (C149)
-/

namespace Verif.FArc

open Verif.FEff (Text text)
open Verif.FConv (Ov Formats shown)

/-- **C149, partial.** What is written for the transforms of a scene node is read back, in order, with all numbers as they are shown: the loaded sub-ids are those that the transforms have after saving, no
two of these are the same, none is in use elsewhere in the element, and they are the ones of before if these were already different and not in use. Missing: skews with an axis at the origin; the lengths of
the axes of a skew (`transforms_violated`), animated transforms. -/
theorem transforms_roundtrip_partial (ov : Ov) (len : V3 → ℚ) {fmt rnd} (hf : Formats fmt rnd) (p : Node) (hid : p.has (text "id") = true) (hp : PlainSids p)
    (hk : ∀ k ∈ p.kids, k.name ∉ transNames) (ts : List (Trans × Text)) (hg : ∀ t ∈ ts, GoodTrans rnd t.1 ∧ GoodSid t.2) :
    ∃ p' sids, writeTransforms fmt p ts = some (p', sids) ∧ sids.length = ts.length ∧
      loadTransforms ov len p' = some ((ts.map fun t => shownTrans rnd len t.1).zip sids, true) ∧
      (sids.filter (· ≠ [])).Nodup ∧ (∀ s ∈ sids, s ≠ [] → ¬ HasSid s p) ∧
      (((ts.map (·.2)).filter (· ≠ [])).Nodup → (∀ t ∈ ts, ¬ HasSid t.2 p) → sids = ts.map (·.2)) := by
  obtain ⟨ks, sids, h1, h2, h3, h4, h5, -, h6⟩ := writeTransforms_spec hf ts p hid hp fun t ht => (hg t ht).2
  refine ⟨_, sids, h1, h2, ?_, h5, fun s hs => (h4 s hs).2, h6⟩
  unfold loadTransforms
  rw [kids_elem, List.foldlM_append, transStep_other ov len _ hk, Option.bind_eq_bind, Option.bind_some, transSteps_write ov len hf _ _ h3 ?_]
  · simp only [List.nil_append]
    congr 2
    clear h1 h3 h4 h5 h6 hg
    induction ts generalizing sids with
    | nil => rfl
    | cons t ts ih =>
      cases sids with
      | nil => rfl
      | cons s sids => simp only [List.map_cons, List.zip_cons_cons]; rw [ih sids (by simpa using h2)]
  · intro x hx
    have := List.of_mem_zip (show (x.1, x.2) ∈ _ from hx)
    obtain ⟨t, ht, e⟩ := List.mem_map.1 this.1
    exact ⟨e ▸ (hg t ht).1, (h4 _ this.2).1⟩

/-- A scene node with a sub-id. -/
def sampleNode : Node := .elem (text "node") [(text "id", text "n"), (text "sid", text "a")] [] [leaf (text "asset")]

/-- Three transforms: two with the same sub-id, which is also that of the node. -/
def sampleTrans : List (Trans × Text) := [(.rotation (1, 0, 0) 90, text "a"), (.translation (1, 2, 3), text "a"), (.skew 45 (0, 1, 0) (1, 0, 0), [])]

example : sampleNode.has (text "id") = true ∧ (∀ k ∈ sampleNode.kids, k.name ∉ transNames) ∧ (∀ t ∈ sampleTrans, GoodTrans (fun _ => 3 / 2) t.1 ∧ GoodSid t.2) ∧
    (writeTransforms (fun _ => text "1.5") sampleNode sampleTrans).map (·.2) = some [text "a2", text "a3", []] := by
  refine ⟨by decide +kernel, by decide +kernel, ?_, by decide +kernel⟩
  intro t ht
  simp only [sampleTrans, List.mem_cons, List.not_mem_nil, or_false] at ht
  have ha : GoodSid (text "a") := ⟨⟨by decide +kernel, by decide +kernel, by decide +kernel⟩, by decide +kernel⟩
  rcases ht with rfl | rfl | rfl
  · exact ⟨trivial, ha⟩
  · exact ⟨trivial, ha⟩
  · refine ⟨⟨?_, ?_⟩, ⟨trivial, by decide⟩⟩ <;> rw [← isOrigin_iff] <;> decide +kernel

/-- The transforms after saving and loading, with the number format `fmt` and the length of vectors `len`. -/
def reloadedTrans (fmt : ℚ → Text) (len : V3 → ℚ) (ts : List (Trans × Text)) : Option (List (Trans × Text) × Bool) :=
  (writeTransforms fmt sampleNode ts).bind fun r => loadTransforms .wrap len r.1

/-- The text of the numbers 0 and 2. -/
def fmt02 (q : ℚ) : Text := if q = 0 then text "0" else text "2"

/-- The length of a vector along an axis. -/
def lenAxis (v : V3) : ℚ := v.1 + v.2.1 + v.2.2

/-- **C149, violated.** A skew with an axis of length 2 is read back with an axis of length 1, and one with an axis at the origin makes the loading of the transforms fail. -/
theorem transforms_violated :
    reloadedTrans fmt02 lenAxis [(.skew 2 (2, 0, 0) (0, 2, 0), [])] = some ([(.skew 2 (1, 0, 0) (0, 1, 0), [])], true) ∧
    reloadedTrans fmt02 lenAxis [(.skew 2 (0, 0, 0) (0, 2, 0), []), (.translation (2, 2, 2), [])] = some ([(.skew 2 (0, 0, 0) (0, 2, 0), []), (.translation (2, 2, 2), [])], false) := by
  constructor <;> decide +kernel

/-- **C149.** The axes of a loaded skew have the direction of before, and length 1 when `len` is the length of vectors. -/
theorem skew_axes (len : V3 → ℚ) (v : V3) (h : 0 < len v) :
    len v * (unit len v).1 = v.1 ∧ len v * (unit len v).2.1 = v.2.1 ∧ len v * (unit len v).2.2 = v.2.2 ∧
    (len v ^ 2 = v.1 ^ 2 + v.2.1 ^ 2 + v.2.2 ^ 2 → (unit len v).1 ^ 2 + (unit len v).2.1 ^ 2 + (unit len v).2.2 ^ 2 = 1) := by
  unfold unit
  rw [if_pos h]
  have hne : len v ≠ 0 := ne_of_gt h
  refine ⟨mul_div_cancel₀ _ hne, mul_div_cancel₀ _ hne, mul_div_cancel₀ _ hne, fun e => ?_⟩
  simp only [div_pow]
  rw [← add_div, ← add_div, ← e, div_self (pow_ne_zero 2 hne)]

example : unit (fun _ => 7) (2, 3, 6) = (2 / 7, 3 / 7, 6 / 7) ∧ (7 : ℚ) ^ 2 = 2 ^ 2 + 3 ^ 2 + 6 ^ 2 := by constructor <;> decide +kernel

end Verif.FArc
