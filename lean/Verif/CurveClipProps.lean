import Verif.CurveClipAux
import Verif.CurveShift
import Mathlib.Data.Rat.Floor
import Mathlib.Algebra.Order.Field.Rat

/-! # Curves and animation clips: theorems (C75) -/

namespace Verif.Curve

variable {K : Type} [Field K] [LinearOrder K]

def runClips (c : Clips K) : List (ClipOp K) → Option (Clips K)
  | [] => some c
  | op :: ops => (runClip c op).bind fun c => runClips c ops

omit [LinearOrder K] in
/-- C75: whatever clips are registered, given offsets and selected, nothing is undefined and the times of the keys are the original ones plus the offset
that was selected last. -/
theorem history_offset (keys : List (Key K)) (ops : List (ClipOp K)) :
    ∃ c, runClips (Clips.new keys) ops = some c ∧ c.clips.length = c.offsets.length ∧ c.keys = keys.map (moveKey c.currentOffset) := by
  have key : ∀ (ops : List (ClipOp K)) (c : Clips K), c.clips.length = c.offsets.length → c.keys = keys.map (moveKey c.currentOffset) →
      ∃ c', runClips c ops = some c' ∧ c'.clips.length = c'.offsets.length ∧ c'.keys = keys.map (moveKey c'.currentOffset) := by
    intro ops
    induction ops with
    | nil => intro c h1 h2; exact ⟨c, rfl, h1, h2⟩
    | cons op ops ih =>
      intro c h1 h2
      obtain ⟨c', e, h1', h2'⟩ := runClip_inv h1 h2 op
      obtain ⟨c'', e', h⟩ := ih c' h1' h2'
      exact ⟨c'', by rw [runClips, e]; exact e', h⟩
  refine key ops _ rfl ?_
  have : (moveKey (0 : K)) = id := by funext k; simp [moveKey]
  simp [Clips.new, this]

omit [LinearOrder K] in
/-- C75: selecting a clip that is not the selected one puts the keys at the offset of that clip, given by the place where it was first registered. -/
theorem select_offset (keys : List (Key K)) (ops : List (ClipOp K)) {c : Clips K} (hc : runClips (Clips.new keys) ops = some c) {clip : Nat} (hn : c.current ≠ some clip)
    {i : Nat} {o : K} (hi : c.clips[i]? = some clip) (hfirst : ∀ j < i, c.clips[j]? ≠ some clip) (ho : c.offsets[i]? = some o) :
    ∃ c', setCurrent c (some clip) = some c' ∧ c'.current = some clip ∧ c'.currentOffset = o ∧ c'.keys = keys.map (moveKey o) := by
  obtain ⟨c0, e0, h1, h2⟩ := history_offset keys ops
  rw [hc] at e0
  cases e0
  obtain ⟨hlt, hi'⟩ := List.getElem?_eq_some_iff.mp hi
  have hf : findClip (some clip) c.clips = i := by
    rw [findClip, List.findIdx_eq hlt]
    refine ⟨by simp [hi'], ?_⟩
    intro j hj
    have := hfirst j hj
    rw [List.getElem?_eq_getElem (by omega)] at this
    simpa using this
  have hs : setCurrent c (some clip) = some { c with current := some clip, currentOffset := o, keys := c.keys.map (moveKey (o - c.currentOffset)) } := by
    rw [setCurrent, if_neg hn, hf, if_pos hlt, ho]; rfl
  refine ⟨_, hs, rfl, rfl, ?_⟩
  simp only [h2, List.map_map]
  apply List.map_congr_left
  intro k _
  simp only [Function.comp, moveKey_move]
  congr 1
  ring

variable [IsStrictOrderedRing K] [FloorRing K]

/-- C75: moving the keys of a curve moves the curve in time, if it has no Bezier and TCB keys. Missing: curves with such keys, see `bezier_shift_violated`. -/
theorem move_samples_partial (twoD : Bool) (n : Nat) (pre post : Infin) (d : K) {keys : List (Key K)} (h : ∀ k ∈ keys, k.interp ≠ .bezier ∧ k.interp ≠ .tcb) (x : K) :
    evaluate twoD n pre post (keys.map (moveKey d)) (x + d) = evaluate twoD n pre post keys x :=
  evaluate_map (f := moveKey d) (fun _ => ⟨rfl, rfl⟩) (move_moved twoD n d h) pre post x

/-- C75, as it would be for Bezier keys: moving the keys together with their tangents moves the curve in time; two-dimensional evaluation of TCB keys is
left out. -/
theorem shift_samples (twoD : Bool) (n : Nat) (pre post : Infin) (d : K) {keys : List (Key K)} (h : twoD = true → ∀ k ∈ keys, k.interp ≠ .tcb) (x : K) :
    evaluate twoD n pre post (keys.map (shiftKey d)) (x + d) = evaluate twoD n pre post keys x :=
  evaluate_map (f := shiftKey d) (fun _ => ⟨rfl, rfl⟩) (shift_moved twoD n d h) pre post x

/-- C75: all together: the samples of a curve without Bezier and TCB keys, after any history that ends with the selection of a clip. -/
theorem select_samples_partial (twoD : Bool) (n : Nat) (pre post : Infin) (keys : List (Key K)) (ops : List (ClipOp K)) {c : Clips K} (hc : runClips (Clips.new keys) ops = some c)
    {clip : Nat} (hn : c.current ≠ some clip) {i : Nat} {o : K} (hi : c.clips[i]? = some clip) (hfirst : ∀ j < i, c.clips[j]? ≠ some clip) (ho : c.offsets[i]? = some o)
    (h : ∀ k ∈ keys, k.interp ≠ .bezier ∧ k.interp ≠ .tcb) :
    ∃ c', setCurrent c (some clip) = some c' ∧ ∀ x, evaluate twoD n pre post c'.keys (x + o) = evaluate twoD n pre post keys x := by
  obtain ⟨c', e1, _, _, e2⟩ := select_offset keys ops hc hn hi hfirst ho
  exact ⟨c', e1, fun x => by rw [e2]; exact move_samples_partial twoD n pre post o h x⟩

/-! ## Samples and violations -/

def line : List (Key ℚ) := [⟨0, 0, .linear, (0, 0), (0, 0), 0, 0, 0⟩, ⟨1, 2, .linear, (0, 0), (0, 0), 0, 0, 0⟩]
def bez : List (Key ℚ) := [⟨0, 0, .bezier, (-1 / 3, 0), (1 / 3, 0), 0, 0, 0⟩, ⟨1, 2, .bezier, (2 / 3, 2), (4 / 3, 2), 0, 0, 0⟩]
def history : List (ClipOp ℚ) := [.register 7 2, .register 8 5, .select (some 7), .setOffset 4 8, .select none]

example : ((runClips (Clips.new line) history).map fun c => (c.clips, c.offsets, c.current, c.keys.map fun k => k.input)) = some ([7, 8], [-2, 4], none, [-2, -1]) := by decide +kernel
example : (((runClips (Clips.new line) history).bind fun c => setCurrent c (some 8)).map fun c => c.keys.map fun k => k.input) = some [4, 5] := by decide +kernel
example : ∀ k ∈ line, k.interp ≠ .bezier ∧ k.interp ≠ .tcb := by decide

/-- C75 fails for Bezier keys: the tangents stay where they are. -/
theorem bezier_shift_violated : ∃ c, ((some (register (Clips.new bez) 7 (-10))).bind fun c => setCurrent c (some 7)) = some c ∧ c.currentOffset = 10 ∧
    evaluate true 12 .constant .constant c.keys (1 / 4 + 10) ≠ evaluate true 12 .constant .constant bez (1 / 4) :=
  ⟨⟨bez.map (moveKey 10), [7], [10], some 7, 10⟩, by decide +kernel, rfl, by decide +kernel⟩

/-- C75 fails when the offset of the selected clip changes: selecting the clip again leaves the keys where they are. -/
theorem changed_offset_violated : ∃ c, runClips (Clips.new line) [.register 7 2, .select (some 7), .setOffset 4 7, .select (some 7)] = some c ∧
    c.current = some 7 ∧ c.offsets = [4] ∧ c.keys = line.map (moveKey (-2)) :=
  ⟨⟨line.map (moveKey (-2)), [7], [4], some 7, -2⟩, by decide +kernel, rfl, rfl, rfl⟩

/-- C75 fails for clips added with `AddClip` alone: selecting one reads behind the end of the offsets. -/
theorem add_clip_violated : setCurrent (addClip (Clips.new line) 7) (some 7) = none := by decide +kernel

/-- C75 fails for clones: in the clone of a curve with two clips, selecting the clone of the second clip uses the offset of the first one. -/
theorem clone_violated : ∃ c c' : Clips ℚ, runClips (Clips.new line) [.register 7 2, .register 8 5, .setOffset 1 7] = some c ∧ c.offsets = [1, -5] ∧
    setCurrent (cloneCurve c [(17, 2), (18, 5)]) (some 18) = some c' ∧ c'.currentOffset = 1 :=
  ⟨⟨line, [7, 8], [1, -5], none, 0⟩, ⟨line.map (moveKey 1), [17, 17, 18, 18], [-2, -5, 1, -5], some 18, 1⟩, by decide +kernel, rfl, by decide +kernel, rfl⟩

/-- C75 fails for clones of a curve with a selected clip: the clone has the moved keys, but is taken for one that has not been moved, so that selecting a
clip moves it twice. -/
theorem clone_selected_violated : ∃ c c' : Clips ℚ, runClips (Clips.new line) [.register 7 2, .select (some 7)] = some c ∧
    setCurrent (cloneCurve c [(17, 2)]) (some 17) = some c' ∧ c'.currentOffset = -2 ∧ c'.keys = line.map (moveKey (-4)) :=
  ⟨⟨line.map (moveKey (-2)), [7], [-2], some 7, -2⟩, ⟨line.map (moveKey (-4)), [17, 17], [-2, -2], some 17, -2⟩, by decide +kernel, by decide +kernel, rfl, rfl⟩

end Verif.Curve
