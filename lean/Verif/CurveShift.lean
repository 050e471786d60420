import Verif.CurveClip
import Verif.CurveLemmas
import Mathlib.Tactic.Ring
import Mathlib.Tactic.LinearCombination

/-! # Lemmas on curves moved in time -/

namespace Verif.Curve

variable {K : Type} [Field K] [LinearOrder K]

/-- A key moved in time, with its tangents. -/
def shiftKey (d : K) (k : Key K) : Key K :=
  { k with input := k.input + d, inTangent := (k.inTangent.1 + d, k.inTangent.2), outTangent := (k.outTangent.1 + d, k.outTangent.2) }

section
variable {f : Key K → Key K} {d : K}

theorem binLoop_map [IsStrictOrderedRing K] (hf : ∀ k, (f k).input = k.input + d) (keys : List (Key K)) (x : K) :
    ∀ n s t, binLoop (keys.map f) (x + d) n s t = binLoop keys x n s t := by
  intro n
  induction n with
  | zero => intro s t; rfl
  | succ n ih =>
    intro s t
    rw [binLoop, binLoop]
    split
    · rw [List.getElem?_map]
      cases keys[(s + t) / 2]? with
      | none => rfl
      | some k =>
        simp only [Option.map_some, Option.bind_some, hf, gt_iff_lt, add_lt_add_iff_right, ih]
    · rfl

theorem linLoop_map [IsStrictOrderedRing K] (hf : ∀ k, (f k).input = k.input + d) (keys : List (Key K)) (x : K) :
    ∀ n s, linLoop (keys.map f) (x + d) n s = linLoop keys x n s := by
  intro n
  induction n with
  | zero => intro s; rfl
  | succ n ih =>
    intro s
    rw [linLoop, linLoop, List.getElem?_map]
    cases keys[s]? with
    | none => rfl
    | some k => simp only [Option.map_some, Option.bind_some, hf, ge_iff_le, add_le_add_iff_right, ih]

/-- A segment is moved in time. -/
def SegMoved (twoD : Bool) (n : Nat) (f : Key K → Key K) (d : K) (keys : List (Key K)) : Prop :=
  ∀ first prev s e next x, s ∈ keys → e ∈ keys → segment twoD n (first + d) (prev.map f) (f s) (f e) (next.map f) (x + d) = segment twoD n first prev s e next x

variable [IsStrictOrderedRing K]

theorem inside_map (hf : ∀ k, (f k).input = k.input + d ∧ (f k).output = k.output) {twoD : Bool} {n : Nat} {keys : List (Key K)}
    (hseg : SegMoved twoD n f d keys) (first : Key K) (x : K) : inside twoD n (keys.map f) (f first) (x + d) = inside twoD n keys first x := by
  rw [inside, inside, search, search, List.length_map, binLoop_map (fun k => (hf k).1)]
  cases binLoop keys x (keys.length + 1) 0 keys.length with
  | none => rfl
  | some r =>
    simp only [Option.bind_some]
    rw [linLoop_map (fun k => (hf k).1)]
    cases linLoop keys x (r.2 - r.1) r.1 with
    | none => rfl
    | some it =>
      simp only [Option.bind_some, (hf first).2]
      split
      · rfl
      · rw [List.getElem?_map, List.getElem?_map, List.getElem?_map, List.getElem?_map]
        cases hs : keys[it - 1]? with
        | none => rfl
        | some s =>
          cases he : keys[it]? with
          | none => rfl
          | some e =>
            simp only [Option.map_some, Option.bind_some]
            have := hseg first.input (if it - 1 = 0 then none else keys[it - 2]?) s e keys[it + 1]? x (List.mem_of_getElem? hs) (List.mem_of_getElem? he)
            rw [← this, (hf first).1]
            congr 1
            split <;> rfl

variable [FloorRing K]

theorem evaluate_map (hf : ∀ k, (f k).input = k.input + d ∧ (f k).output = k.output) {twoD : Bool} {n : Nat} {keys : List (Key K)}
    (hseg : SegMoved twoD n f d keys) (pre post : Infin) (x : K) : evaluate twoD n pre post (keys.map f) (x + d) = evaluate twoD n pre post keys x := by
  by_cases hl : 2 ≤ keys.length
  · obtain ⟨a, b, c, e, h⟩ := exists_ends hl
    have h' : Ends (keys.map f) (f a) (f b) (f c) (f e) :=
      ⟨by rw [List.getElem?_map, h.first]; rfl, by rw [List.getElem?_map, h.second]; rfl, by rw [List.length_map, List.getElem?_map, h.beforeLast]; rfl,
        by rw [List.length_map, List.getElem?_map, h.last]; rfl⟩
    have hin := inside_map hf hseg a
    have hin' : ∀ y z, y = z + d → inside twoD n (keys.map f) (f a) y = inside twoD n keys a z := by rintro y z rfl; exact hin z
    rw [evaluate_ends h', evaluate_ends h]
    have e1 : ∀ p q : K, p + d - (q + d) = p - q := fun p q => by ring
    simp only [(hf a).1, (hf e).1, add_lt_add_iff_right, ge_iff_le, add_le_add_iff_right]
    split
    · cases pre with
      | constant => simp only [evalBefore, (hf a).2]
      | unknown => simp only [evalBefore, (hf a).2]
      | linear => simp only [evalBefore, (hf a).1, (hf a).2, (hf b).1, (hf b).2, e1]
      | cycle =>
        simp only [evalBefore, (hf a).1, (hf e).1, e1]
        congr 1; funext q; exact hin' _ _ (by ring)
      | cycleRelative =>
        simp only [evalBefore, (hf a).1, (hf e).1, (hf a).2, (hf e).2, e1]
        congr 1; funext q; rw [hin' (x + d + ⌈q⌉ * (e.input - a.input)) (x + ⌈q⌉ * (e.input - a.input)) (by ring)]
      | oscillate =>
        simp only [evalBefore, (hf a).1, (hf e).1, e1]
        congr 1; funext q
        apply hin'
        rw [show x + d + ⌈q⌉ * 2 * (e.input - a.input) - (e.input + d) = x + ⌈q⌉ * 2 * (e.input - a.input) - e.input by ring]
        ring
    · split
      · cases post with
        | constant => simp only [evalAfter, (hf e).2]
        | unknown => simp only [evalAfter, (hf e).2]
        | linear => simp only [evalAfter, (hf e).1, (hf e).2, (hf c).1, (hf c).2, e1]
        | cycle =>
          simp only [evalAfter, (hf a).1, (hf e).1, e1]
          congr 1; funext q; exact hin' _ _ (by ring)
        | cycleRelative =>
          simp only [evalAfter, (hf a).1, (hf e).1, (hf a).2, (hf e).2, e1]
          congr 1; funext q; rw [hin' (x + d - ⌈q⌉ * (e.input - a.input)) (x - ⌈q⌉ * (e.input - a.input)) (by ring)]
        | oscillate =>
          simp only [evalAfter, (hf a).1, (hf e).1, e1]
          congr 1; funext q
          apply hin'
          rw [show x + d - ⌈q⌉ * 2 * (e.input - a.input) - (a.input + d) = x - ⌈q⌉ * 2 * (e.input - a.input) - a.input by ring]
          ring
      · exact hin x
  · rcases keys with _ | ⟨k, _ | ⟨k', ks⟩⟩
    · rfl
    · simp [evaluate, (hf k).2]
    · simp at hl
end

omit [LinearOrder K] in
theorem bezierX_shift (p0 p1 p2 p3 t d : K) : bezierX (p0 + d) (p1 + d) (p2 + d) (p3 + d) t = bezierX p0 p1 p2 p3 t + d := by
  rw [bezierX, bezierX]; ring

variable [IsStrictOrderedRing K]

theorem findTLoop_shift (p0 p1 p2 p3 x d : K) : ∀ n once l h m, findTLoop (p0 + d) (p1 + d) (p2 + d) (p3 + d) (x + d) n once l h m = findTLoop p0 p1 p2 p3 x n once l h m := by
  intro n
  induction n with
  | zero => intros; rfl
  | succ n ih =>
    intro once l h m
    rw [findTLoop, findTLoop]
    simp only [bezierX_shift, ih, add_sub_add_right_eq_sub, gt_iff_lt, add_lt_add_iff_right]

theorem findT_shift (n : Nat) (p0 p1 p2 p3 x g d : K) : findT n (p0 + d) (p1 + d) (p2 + d) (p3 + d) (x + d) g = findT n p0 p1 p2 p3 x g := by
  rw [findT, findT, findTLoop_shift]

omit [IsStrictOrderedRing K] in
theorem linearSeg_shift {f : Key K → Key K} {d : K} (hf : ∀ k, (f k).input = k.input + d ∧ (f k).output = k.output) (s e : Key K) (x : K) :
    linearSeg (f s) (f e) (x + d) = linearSeg s e x := by
  simp only [linearSeg, (hf s).1, (hf e).1, (hf s).2, (hf e).2, add_sub_add_right_eq_sub]

theorem bezierSeg_shift (twoD : Bool) (n : Nat) (d : K) (s e : Key K) (t : K × K) (x : K) :
    bezierSeg twoD n (shiftKey d s) (shiftKey d e) (t.1 + d, t.2) (x + d) = bezierSeg twoD n s e t x := by
  simp only [bezierSeg, shiftKey, add_sub_add_right_eq_sub, findT_shift]

omit [LinearOrder K] [IsStrictOrderedRing K] in
theorem diffs_shift (d : K) (prev : Option (Key K)) (cur : Key K) (next : Option (Key K)) :
    beforeDiff (prev.map (shiftKey d)) (shiftKey d cur) (next.map (shiftKey d)) = beforeDiff prev cur next ∧
    afterDiff (prev.map (shiftKey d)) (shiftKey d cur) (next.map (shiftKey d)) = afterDiff prev cur next := by
  cases prev <;> cases next <;> simp [beforeDiff, afterDiff, shiftKey]

omit [LinearOrder K] [IsStrictOrderedRing K] in
theorem leftTangent_shift (d : K) (prev : Option (Key K)) (cur : Key K) (next : Option (Key K)) :
    leftTangent (prev.map (shiftKey d)) (shiftKey d cur) (next.map (shiftKey d)) = leftTangent prev cur next := by
  obtain ⟨h1, h2⟩ := diffs_shift d prev cur next
  simp only [leftTangent, h1, h2]
  simp [shiftKey]

omit [LinearOrder K] [IsStrictOrderedRing K] in
theorem rightTangent_shift (d : K) (prev : Option (Key K)) (cur : Key K) (next : Option (Key K)) :
    rightTangent (prev.map (shiftKey d)) (shiftKey d cur) (next.map (shiftKey d)) = rightTangent prev cur next := by
  obtain ⟨h1, h2⟩ := diffs_shift d prev cur next
  simp only [rightTangent, h1, h2]
  simp [shiftKey]

theorem tcbSeg_shift (twoD : Bool) (n : Nat) (d first : K) (prev : Option (Key K)) (s e : Key K) (c : K × K) (x : K) :
    tcbSeg twoD n (first + d) (prev.map (shiftKey d)) (shiftKey d s) (shiftKey d e) (c.1 + d, c.2) (x + d) = tcbSeg twoD n first prev s e c x := by
  have hr := rightTangent_shift d prev s (some e)
  rw [Option.map_some] at hr
  simp only [tcbSeg, hr]
  simp only [shiftKey, add_sub_add_right_eq_sub, show s.input + d - (rightTangent prev s (some e)).1 = s.input - (rightTangent prev s (some e)).1 + d by ring, findT_shift]

omit [IsStrictOrderedRing K] in
theorem tcbSeg_one (n : Nat) (first : K) (prev : Option (Key K)) (s e : Key K) (c : K × K) (u x : K) : tcbSeg false n first prev s e (u, c.2) x = tcbSeg false n first prev s e c x := by
  simp [tcbSeg]

theorem shift_moved (twoD : Bool) (n : Nat) (d : K) {keys : List (Key K)} (h : twoD = true → ∀ k ∈ keys, k.interp ≠ .tcb) : SegMoved twoD n (shiftKey d) d keys := by
  intro first prev s e next x hs he
  have hlin := linearSeg_shift (f := shiftKey d) (d := d) (fun k => ⟨rfl, rfl⟩) s e x
  have hlt := leftTangent_shift d (some s) e next
  rw [Option.map_some] at hlt
  rw [segment, segment]
  have i1 : (shiftKey d s).interp = s.interp := rfl
  have i2 : (shiftKey d e).interp = e.interp := rfl
  rw [i1, i2]
  have o1 : (shiftKey d s).output = s.output := rfl
  rw [hlin, hlt, o1]
  cases hsi : s.interp <;> cases hei : e.interp <;> simp only []
  · exact bezierSeg_shift twoD n d s e e.inTangent x
  · have := bezierSeg_shift twoD n d s e (e.input + (leftTangent (some s) e next).1, e.output + (leftTangent (some s) e next).2) x
    rw [← this]
    congr 2
    simp only [shiftKey]
    ring
  · exact tcbSeg_shift twoD n d first prev s e e.inTangent x
  · cases twoD with
    | true => exact absurd hsi (h rfl s hs)
    | false =>
      have := tcbSeg_shift false n d first prev s e (e.output + (leftTangent (some s) e next).1, e.output + (leftTangent (some s) e next).2) x
      rw [← this]
      exact (tcbSeg_one n _ _ _ _ (_, e.output + (leftTangent (some s) e next).2) _ _).symm

omit [IsStrictOrderedRing K] in
theorem move_moved (twoD : Bool) (n : Nat) (d : K) {keys : List (Key K)} (h : ∀ k ∈ keys, k.interp ≠ .bezier ∧ k.interp ≠ .tcb) : SegMoved twoD n (moveKey d) d keys := by
  intro first prev s e next x hs he
  have hlin := linearSeg_shift (f := moveKey d) (d := d) (fun k => ⟨rfl, rfl⟩) s e x
  rw [segment, segment]
  have i1 : (moveKey d s).interp = s.interp := rfl
  have i2 : (moveKey d e).interp = e.interp := rfl
  have o1 : (moveKey d s).output = s.output := rfl
  rw [i1, i2, hlin, o1]
  cases hsi : s.interp
  case bezier => exact absurd hsi (h s hs).1
  case tcb => exact absurd hsi (h s hs).2
  all_goals rfl

end Verif.Curve
