import Verif.CurveConvSpec
import Verif.CurveLemmas
import Verif.CurveShift
import Mathlib.Tactic.Ring
import Mathlib.Tactic.FieldSimp
import Mathlib.Tactic.LinearCombination
import Mathlib.Tactic.Positivity

/-! # Lemmas on converted curves -/

namespace Verif.Curve

variable {K : Type} [Field K] [LinearOrder K]

/-- A function on keys that converts times by `a * x + b` and values by `c * y + d`. -/
structure Affine (a b c d : K) (f : Key K → Key K) : Prop where
  input : ∀ k, (f k).input = a * k.input + b
  output : ∀ k, (f k).output = c * k.output + d

/-- A segment is converted. -/
def SegConv (twoD : Bool) (n : Nat) (f : Key K → Key K) (a b c d : K) (keys : List (Key K)) : Prop :=
  ∀ i first prev s e next x, keys[i]? = some s → keys[i + 1]? = some e →
    segment twoD n (a * first + b) (prev.map f) (f s) (f e) (next.map f) (a * x + b) = (segment twoD n first prev s e next x).map fun y => c * y + d

theorem div_scale {a : K} (ha : a ≠ 0) (c p q : K) {p' q' : K} (hp : p' = a * c * p) (hq : q' = a * q) : div p' q' = (div p q).map fun y => c * y := by
  subst hp hq
  by_cases hq : q = 0
  · simp [div, hq]
  · simp only [div, if_neg (mul_ne_zero ha hq), if_neg hq, Option.map_some]
    congr 1
    field_simp

theorem div_conv {a : K} (ha : a ≠ 0) (p q : K) {p' q' : K} (hp : p' = a * p) (hq : q' = a * q) : div p' q' = div p q := by
  rw [div_scale ha 1 p q (by rw [hp, mul_one]) hq]
  cases div p q <;> simp

section
variable {f : Key K → Key K} {a b c d : K} [IsStrictOrderedRing K]

theorem conv_lt (ha : 0 < a) (x y : K) : a * x + b < a * y + b ↔ x < y := by
  rw [add_lt_add_iff_right]; exact mul_lt_mul_iff_right₀ ha

theorem conv_le (ha : 0 < a) (x y : K) : a * x + b ≤ a * y + b ↔ x ≤ y := by
  rw [add_le_add_iff_right]; exact mul_le_mul_iff_right₀ ha

theorem binLoop_conv (ha : 0 < a) (hf : Affine a b c d f) (keys : List (Key K)) (x : K) :
    ∀ n s t, binLoop (keys.map f) (a * x + b) n s t = binLoop keys x n s t := by
  intro n
  induction n with
  | zero => intro s t; rfl
  | succ n ih =>
    intro s t
    rw [binLoop, binLoop]
    split
    · rw [List.getElem?_map]
      cases keys[(s + t) / 2]? with
      | none => rfl
      | some k => simp only [Option.map_some, Option.bind_some, hf.input, gt_iff_lt, conv_lt ha, ih]
    · rfl

theorem linLoop_conv (ha : 0 < a) (hf : Affine a b c d f) (keys : List (Key K)) (x : K) :
    ∀ n s, linLoop (keys.map f) (a * x + b) n s = linLoop keys x n s := by
  intro n
  induction n with
  | zero => intro s; rfl
  | succ n ih =>
    intro s
    rw [linLoop, linLoop, List.getElem?_map]
    cases keys[s]? with
    | none => rfl
    | some k => simp only [Option.map_some, Option.bind_some, hf.input, ge_iff_le, conv_le ha, ih]

theorem inside_conv (ha : 0 < a) (hf : Affine a b c d f) {twoD : Bool} {n : Nat} {keys : List (Key K)}
    (hseg : SegConv twoD n f a b c d keys) (first : Key K) (x : K) :
    inside twoD n (keys.map f) (f first) (a * x + b) = (inside twoD n keys first x).map fun y => c * y + d := by
  rw [inside, inside, search, search, List.length_map, binLoop_conv ha hf]
  cases binLoop keys x (keys.length + 1) 0 keys.length with
  | none => rfl
  | some r =>
    simp only [Option.bind_some]
    rw [linLoop_conv ha hf]
    cases linLoop keys x (r.2 - r.1) r.1 with
    | none => rfl
    | some it =>
      simp only [Option.bind_some, hf.output]
      split
      · rfl
      · next hit =>
        rw [List.getElem?_map, List.getElem?_map, List.getElem?_map, List.getElem?_map]
        cases hs : keys[it - 1]? with
        | none => rfl
        | some s =>
          cases he : keys[it]? with
          | none => rfl
          | some e =>
            simp only [Option.map_some, Option.bind_some]
            have := hseg (it - 1) first.input (if it - 1 = 0 then none else keys[it - 2]?) s e keys[it + 1]? x hs (by rw [show it - 1 + 1 = it by omega]; exact he)
            rw [← this, hf.input]
            congr 1
            split <;> rfl

variable [FloorRing K]

theorem evaluate_conv (ha : 0 < a) (hf : Affine a b c d f) {twoD : Bool} {n : Nat} {keys : List (Key K)} (hne : keys ≠ [] ∨ d = 0)
    (hseg : SegConv twoD n f a b c d keys) (pre post : Infin) (x : K) :
    evaluate twoD n pre post (keys.map f) (a * x + b) = (evaluate twoD n pre post keys x).map fun y => c * y + d := by
  have ha0 : a ≠ 0 := ha.ne'
  by_cases hl : 2 ≤ keys.length
  · obtain ⟨k1, k2, k3, k4, h⟩ := exists_ends hl
    have h' : Ends (keys.map f) (f k1) (f k2) (f k3) (f k4) :=
      ⟨by rw [List.getElem?_map, h.first]; rfl, by rw [List.getElem?_map, h.second]; rfl, by rw [List.length_map, List.getElem?_map, h.beforeLast]; rfl,
        by rw [List.length_map, List.getElem?_map, h.last]; rfl⟩
    have hin' : ∀ y z, y = a * z + b → inside twoD n (keys.map f) (f k1) y = (inside twoD n keys k1 z).map fun y => c * y + d := by
      rintro y z rfl; exact inside_conv ha hf hseg k1 z
    rw [evaluate_ends h', evaluate_ends h]
    simp only [hf.input, ge_iff_le, conv_lt ha, conv_le ha]
    split
    · cases pre with
      | constant => simp only [evalBefore, hf.output, Option.map_some]
      | unknown => simp only [evalBefore, hf.output, Option.map_some]
      | linear =>
        simp only [evalBefore, hf.input, hf.output]
        rw [div_scale ha0 c ((k1.input - x) * (k2.output - k1.output)) (k2.input - k1.input) (by ring) (by ring), Option.map_map, Option.map_map]
        congr 1; funext q; simp only [Function.comp]; ring
      | cycle =>
        simp only [evalBefore, hf.input]
        rw [div_conv ha0 (k1.input - x) (k4.input - k1.input) (by ring) (by ring)]
        cases div (k1.input - x) (k4.input - k1.input) with
        | none => rfl
        | some q => exact hin' _ _ (by ring)
      | cycleRelative =>
        simp only [evalBefore, hf.input, hf.output]
        rw [div_conv ha0 (k1.input - x) (k4.input - k1.input) (by ring) (by ring)]
        cases div (k1.input - x) (k4.input - k1.input) with
        | none => rfl
        | some q =>
          simp only [Option.bind_some]
          rw [hin' _ (x + ⌈q⌉ * (k4.input - k1.input)) (by ring), Option.map_map, Option.map_map]
          congr 1; funext q; simp only [Function.comp]; ring
      | oscillate =>
        simp only [evalBefore, hf.input]
        rw [div_conv ha0 (k1.input - x) (2 * (k4.input - k1.input)) (by ring) (by ring)]
        cases div (k1.input - x) (2 * (k4.input - k1.input)) with
        | none => rfl
        | some q =>
          simp only [Option.bind_some]
          apply hin'
          rw [show a * x + b + ⌈q⌉ * 2 * (a * k4.input + b - (a * k1.input + b)) - (a * k4.input + b) = a * (x + ⌈q⌉ * 2 * (k4.input - k1.input) - k4.input) by ring, abs_mul, abs_of_pos ha]
          ring
    · split
      · cases post with
        | constant => simp only [evalAfter, hf.output, Option.map_some]
        | unknown => simp only [evalAfter, hf.output, Option.map_some]
        | linear =>
          simp only [evalAfter, hf.input, hf.output]
          rw [div_scale ha0 c ((x - k4.input) * (k3.output - k4.output)) (k3.input - k4.input) (by ring) (by ring), Option.map_map, Option.map_map]
          congr 1; funext q; simp only [Function.comp]; ring
        | cycle =>
          simp only [evalAfter, hf.input]
          rw [div_conv ha0 (x - k4.input) (k4.input - k1.input) (by ring) (by ring)]
          cases div (x - k4.input) (k4.input - k1.input) with
          | none => rfl
          | some q => exact hin' _ _ (by ring)
        | cycleRelative =>
          simp only [evalAfter, hf.input, hf.output]
          rw [div_conv ha0 (x - k4.input) (k4.input - k1.input) (by ring) (by ring)]
          cases div (x - k4.input) (k4.input - k1.input) with
          | none => rfl
          | some q =>
            simp only [Option.bind_some]
            rw [hin' _ (x - ⌈q⌉ * (k4.input - k1.input)) (by ring), Option.map_map, Option.map_map]
            congr 1; funext q; simp only [Function.comp]; ring
        | oscillate =>
          simp only [evalAfter, hf.input]
          rw [div_conv ha0 (x - k4.input) (2 * (k4.input - k1.input)) (by ring) (by ring)]
          cases div (x - k4.input) (2 * (k4.input - k1.input)) with
          | none => rfl
          | some q =>
            simp only [Option.bind_some]
            apply hin'
            rw [show a * x + b - ⌈q⌉ * 2 * (a * k4.input + b - (a * k1.input + b)) - (a * k1.input + b) = a * (x - ⌈q⌉ * 2 * (k4.input - k1.input) - k1.input) by ring, abs_mul, abs_of_pos ha]
            ring
      · exact inside_conv ha hf hseg k1 x
  · rcases keys with _ | ⟨k, _ | ⟨k', ks⟩⟩
    · rcases hne with h | h
      · exact absurd rfl h
      · simp [evaluate, h]
    · simp [evaluate, hf.output]
    · simp at hl
end

/-- What `ConvertValues` does with a key. -/
def valuedKey (c d : K) (k : Key K) : Key K :=
  if k.interp = .bezier then
    { k with output := c * k.output + d, inTangent := (k.inTangent.1, c * k.inTangent.2 + d), outTangent := (k.outTangent.1, c * k.outTangent.2 + d) }
  else { k with output := c * k.output + d }

/-- What `ConvertInputs` does with a key. -/
def timedKey (a b : K) (k : Key K) : Key K :=
  if k.interp = .bezier then
    { k with input := a * k.input + b, inTangent := (a * k.inTangent.1 + b, k.inTangent.2), outTangent := (a * k.outTangent.1 + b, k.outTangent.2) }
  else { k with input := a * k.input + b }

omit [LinearOrder K] in
theorem convertValues_eq (c d : K) (keys : List (Key K)) : convertValues (some fun y => c * y + d) (some fun y => c * y + d) keys = keys.map (valuedKey c d) := by
  simp only [convertValues, convertHeights, convertOutputs, List.map_map]
  apply List.map_congr_left
  intro k _
  simp only [Function.comp, valuedKey]

omit [LinearOrder K] in
theorem convertInputs_eq (a b : K) (keys : List (Key K)) : convertInputs (some fun y => a * y + b) (some fun y => a * y + b) keys = keys.map (timedKey a b) := by
  simp only [convertInputs, convertWeights, convertTimes, List.map_map]
  apply List.map_congr_left
  intro k _
  simp only [Function.comp, timedKey]

omit [LinearOrder K] in
theorem valuedKey_fields (c d : K) (k : Key K) : (valuedKey c d k).input = k.input ∧ (valuedKey c d k).output = c * k.output + d ∧ (valuedKey c d k).interp = k.interp ∧
    (valuedKey c d k).tension = k.tension ∧ (valuedKey c d k).continuity = k.continuity ∧ (valuedKey c d k).bias = k.bias ∧
    (valuedKey c d k).inTangent.1 = k.inTangent.1 ∧ (valuedKey c d k).outTangent.1 = k.outTangent.1 ∧
    (k.interp = .bezier → (valuedKey c d k).inTangent.2 = c * k.inTangent.2 + d ∧ (valuedKey c d k).outTangent.2 = c * k.outTangent.2 + d) := by
  unfold valuedKey
  split
  · exact ⟨rfl, rfl, rfl, rfl, rfl, rfl, rfl, rfl, fun _ => ⟨rfl, rfl⟩⟩
  · exact ⟨rfl, rfl, rfl, rfl, rfl, rfl, rfl, rfl, fun h => absurd h ‹_›⟩

omit [LinearOrder K] in
theorem timedKey_fields (a b : K) (k : Key K) : (timedKey a b k).input = a * k.input + b ∧ (timedKey a b k).output = k.output ∧ (timedKey a b k).interp = k.interp ∧
    (timedKey a b k).tension = k.tension ∧ (timedKey a b k).continuity = k.continuity ∧ (timedKey a b k).bias = k.bias ∧
    (timedKey a b k).inTangent.2 = k.inTangent.2 ∧ (timedKey a b k).outTangent.2 = k.outTangent.2 ∧
    (k.interp = .bezier → (timedKey a b k).inTangent.1 = a * k.inTangent.1 + b ∧ (timedKey a b k).outTangent.1 = a * k.outTangent.1 + b) := by
  unfold timedKey
  split
  · exact ⟨rfl, rfl, rfl, rfl, rfl, rfl, rfl, rfl, fun _ => ⟨rfl, rfl⟩⟩
  · exact ⟨rfl, rfl, rfl, rfl, rfl, rfl, rfl, rfl, fun h => absurd h ‹_›⟩

omit [LinearOrder K] in
theorem value_diffs (c d : K) (prev : Option (Key K)) (cur : Key K) (next : Option (Key K)) :
    beforeDiff (prev.map (valuedKey c d)) (valuedKey c d cur) (next.map (valuedKey c d)) = ((beforeDiff prev cur next).1, c * (beforeDiff prev cur next).2) ∧
    afterDiff (prev.map (valuedKey c d)) (valuedKey c d cur) (next.map (valuedKey c d)) = ((afterDiff prev cur next).1, c * (afterDiff prev cur next).2) := by
  have h := valuedKey_fields c d
  refine ⟨Prod.ext ?_ ?_, Prod.ext ?_ ?_⟩ <;> cases prev <;> cases next <;> simp only [beforeDiff, afterDiff, Option.map_some, Option.map_none, (h _).1, (h _).2.1] <;> ring

omit [LinearOrder K] in
theorem value_tangents (c d : K) (prev : Option (Key K)) (cur : Key K) (next : Option (Key K)) :
    leftTangent (prev.map (valuedKey c d)) (valuedKey c d cur) (next.map (valuedKey c d)) = ((leftTangent prev cur next).1, c * (leftTangent prev cur next).2) ∧
    rightTangent (prev.map (valuedKey c d)) (valuedKey c d cur) (next.map (valuedKey c d)) = ((rightTangent prev cur next).1, c * (rightTangent prev cur next).2) := by
  obtain ⟨h1, h2⟩ := value_diffs c d prev cur next
  obtain ⟨-, -, -, t, co, bi, -⟩ := valuedKey_fields c d cur
  simp only [leftTangent, rightTangent, h1, h2, t, co, bi]
  constructor <;> congr 1 <;> ring

theorem value_linear (c d : K) (s e : Key K) (x : K) : linearSeg (valuedKey c d s) (valuedKey c d e) x = (linearSeg s e x).map fun y => c * y + d := by
  simp only [linearSeg, (valuedKey_fields c d _).1, (valuedKey_fields c d _).2.1, Option.map_map]
  congr 1; funext q; simp only [Function.comp]; ring

theorem value_bezier (twoD : Bool) (n : Nat) {c d : K} (hd : twoD = false → d = 0) {s e : Key K} (hs : s.interp = .bezier) (t t' : K × K) (ht : t' = (t.1, c * t.2 + d)) (x : K) :
    bezierSeg twoD n (valuedKey c d s) (valuedKey c d e) t' x = (bezierSeg twoD n s e t x).map fun y => c * y + d := by
  obtain ⟨i1, o1, -, -, -, -, -, u1, v1⟩ := valuedKey_fields c d s
  obtain ⟨i2, o2, -⟩ := valuedKey_fields c d e
  have v1 := (v1 hs).2
  subst ht
  simp only [bezierSeg, i1, o1, u1, v1, i2, o2]
  cases div (x - s.input) (e.input - s.input) with
  | none => rfl
  | some g =>
    simp only [Option.bind_some]
    cases twoD with
    | true =>
      simp only [if_true, Option.map_map]
      congr 1; funext q; simp only [Function.comp]; ring
    | false =>
      have hd := hd rfl
      simp only [Bool.false_eq_true, if_false]
      cases clampDiv (e.input - s.input) (s.outTangent.1 - s.input) with
      | none => rfl
      | some br =>
        simp only [Option.bind_some, Option.map_map]
        congr 1; funext q; simp only [Function.comp, hd]; ring

theorem value_tcb (twoD : Bool) (n : Nat) {c d : K} (first : K) (prev : Option (Key K)) (s e : Key K) (t t' : K × K) (h1 : twoD = true → t'.1 = t.1) (h2 : t'.2 = c * t.2 + d) (x : K) :
    tcbSeg twoD n first (prev.map (valuedKey c d)) (valuedKey c d s) (valuedKey c d e) t' x = (tcbSeg twoD n first prev s e t x).map fun y => c * y + d := by
  obtain ⟨i1, o1, -⟩ := valuedKey_fields c d s
  obtain ⟨i2, o2, -⟩ := valuedKey_fields c d e
  have hr := (value_tangents c d prev s (some e)).2
  rw [Option.map_some] at hr
  simp only [tcbSeg, hr, i1, o1, i2, o2, h2]
  cases div (x - first) (e.input - s.input) with
  | none => rfl
  | some g =>
    simp only [Option.bind_some, Option.map_map]
    cases twoD with
    | true =>
      simp only [if_true, h1 rfl]
      congr 1; funext q; simp only [Function.comp]; ring
    | false =>
      simp only [Bool.false_eq_true, if_false, Option.map_some]
      congr 1; simp only [Function.comp]; ring

theorem value_segments (twoD : Bool) (n : Nat) {c d : K} {keys : List (Key K)} (hb : twoD = false → d = 0 ∨ ∀ k ∈ keys, k.interp ≠ .bezier)
    (ht : twoD = true → NoTcbPair keys) : SegConv twoD n (valuedKey c d) 1 0 c d keys := by
  intro i first prev s e next x hs he
  obtain ⟨i1, o1, p1, -⟩ := valuedKey_fields c d s
  obtain ⟨i2, o2, p2, -, -, -, u2, -, v2⟩ := valuedKey_fields c d e
  have hlin := value_linear c d s e x
  have hlt := (value_tangents c d (some s) e next).1
  rw [Option.map_some] at hlt
  have hb' : s.interp = .bezier → twoD = false → d = 0 := by
    intro h h'
    rcases hb h' with h | h''
    · exact h
    · exact absurd h (h'' s (List.mem_of_getElem? hs))
  rw [segment, segment, p1, p2, one_mul, one_mul, add_zero, add_zero, hlin, o1, hlt]
  cases hsi : s.interp <;> cases hei : e.interp <;> simp only [Option.map_some]
  · exact value_bezier twoD n (hb' hsi) hsi _ _ (by rw [← (v2 hei).1, ← u2]) x
  · refine value_bezier twoD n (hb' hsi) hsi _ _ ?_ x
    simp only [i2, o2]
    congr 1
    ring
  · exact value_tcb twoD n _ _ _ _ _ _ (fun _ => u2) (v2 hei).1 x
  · refine value_tcb twoD n _ _ _ _ _ _ (fun h => absurd ⟨hsi, hei⟩ (ht h i s e hs he)) ?_ x
    simp only [o2]
    ring

omit [LinearOrder K] in
theorem time_affine (a b : K) : Affine a b 1 0 (timedKey a b) := ⟨fun k => (timedKey_fields a b k).1, fun k => by rw [(timedKey_fields a b k).2.1]; ring⟩

omit [LinearOrder K] in
theorem value_affine (c d : K) : Affine 1 0 c d (valuedKey c d) := ⟨fun k => by rw [(valuedKey_fields c d k).1]; ring, fun k => (valuedKey_fields c d k).2.1⟩

omit [LinearOrder K] in
theorem time_diffs (a b : K) (prev : Option (Key K)) (cur : Key K) (next : Option (Key K)) (h : prev ≠ none ∨ next ≠ none) :
    beforeDiff (prev.map (timedKey a b)) (timedKey a b cur) (next.map (timedKey a b)) = (a * (beforeDiff prev cur next).1, (beforeDiff prev cur next).2) ∧
    afterDiff (prev.map (timedKey a b)) (timedKey a b cur) (next.map (timedKey a b)) = (a * (afterDiff prev cur next).1, (afterDiff prev cur next).2) := by
  have hk := timedKey_fields a b
  cases prev <;> cases next <;> simp only [beforeDiff, afterDiff, Option.map_some, Option.map_none, (hk _).1, (hk _).2.1]
  · simp at h
  all_goals constructor <;> congr 1 <;> ring

omit [LinearOrder K] in
theorem time_tangents (a b : K) (prev : Option (Key K)) (cur : Key K) (next : Option (Key K)) (h : prev ≠ none ∨ next ≠ none) :
    leftTangent (prev.map (timedKey a b)) (timedKey a b cur) (next.map (timedKey a b)) = (a * (leftTangent prev cur next).1, (leftTangent prev cur next).2) ∧
    rightTangent (prev.map (timedKey a b)) (timedKey a b cur) (next.map (timedKey a b)) = (a * (rightTangent prev cur next).1, (rightTangent prev cur next).2) := by
  obtain ⟨h1, h2⟩ := time_diffs a b prev cur next h
  obtain ⟨-, -, -, t, co, bi, -⟩ := timedKey_fields a b cur
  simp only [leftTangent, rightTangent, h1, h2, t, co, bi]
  constructor <;> congr 1 <;> ring

theorem time_linear {a : K} (ha : a ≠ 0) (b : K) (s e : Key K) (x : K) : linearSeg (timedKey a b s) (timedKey a b e) (a * x + b) = linearSeg s e x := by
  simp only [linearSeg, (timedKey_fields a b _).1, (timedKey_fields a b _).2.1]
  rw [div_conv ha (x - s.input) (e.input - s.input) (by ring) (by ring)]

theorem clampDiv_conv [IsStrictOrderedRing K] {a : K} (ha : 0 < a) (p q : K) {p' q' : K} (hp : p' = a * p) (hq : q' = a * q) : clampDiv p' q' = clampDiv p q := by
  subst hp hq
  have e : a * p / (a * q) = p / q := mul_div_mul_left p q ha.ne'
  have h1 : 0 < a * p ↔ 0 < p := mul_pos_iff_of_pos_left ha
  have h2 : a * p < 0 ↔ p < 0 := by simpa using mul_lt_mul_iff_right₀ (b := p) (c := 0) ha
  have h3 : a * q = 0 ↔ q = 0 := by simp [ha.ne']
  simp only [clampDiv, e, h1, h2, h3]

theorem time_bezier [IsStrictOrderedRing K] (twoD : Bool) (n : Nat) {a b : K} (ha : 0 < a) (h1 : twoD = true → a = 1) {s e : Key K} (hs : s.interp = .bezier) (t t' : K × K)
    (ht : t' = (a * t.1 + b, t.2)) (x : K) : bezierSeg twoD n (timedKey a b s) (timedKey a b e) t' (a * x + b) = bezierSeg twoD n s e t x := by
  obtain ⟨i1, o1, -, -, -, -, -, v1, u1⟩ := timedKey_fields a b s
  obtain ⟨i2, o2, -⟩ := timedKey_fields a b e
  have u1 := (u1 hs).2
  subst ht
  simp only [bezierSeg, i1, o1, u1, v1, i2, o2]
  rw [div_conv ha.ne' (x - s.input) (e.input - s.input) (by ring) (by ring)]
  cases div (x - s.input) (e.input - s.input) with
  | none => rfl
  | some g =>
    simp only [Option.bind_some]
    cases twoD with
    | true => simp only [if_true, h1 rfl, one_mul, findT_shift]
    | false =>
      simp only [Bool.false_eq_true, if_false]
      have e1 : clampDiv (a * e.input + b - (a * s.input + b)) (a * s.outTangent.1 + b - (a * s.input + b)) = clampDiv (e.input - s.input) (s.outTangent.1 - s.input) :=
        clampDiv_conv ha _ _ (by ring) (by ring)
      have e2 : clampDiv (a * e.input + b - (a * s.input + b)) (a * e.input + b - (a * t.1 + b)) = clampDiv (e.input - s.input) (e.input - t.1) :=
        clampDiv_conv ha _ _ (by ring) (by ring)
      rw [e1, e2]

theorem time_tcb [IsStrictOrderedRing K] (twoD : Bool) (n : Nat) {a b : K} (ha : 0 < a) (h1 : twoD = true → a = 1) (first : K) (prev : Option (Key K)) (s e : Key K) (t t' : K × K)
    (hu : twoD = true → t'.1 = a * t.1 + b) (hv : t'.2 = t.2) (x : K) :
    tcbSeg twoD n (a * first + b) (prev.map (timedKey a b)) (timedKey a b s) (timedKey a b e) t' (a * x + b) = tcbSeg twoD n first prev s e t x := by
  obtain ⟨i1, o1, -⟩ := timedKey_fields a b s
  obtain ⟨i2, o2, -⟩ := timedKey_fields a b e
  have hr := (time_tangents a b prev s (some e) (Or.inr (by simp))).2
  rw [Option.map_some] at hr
  simp only [tcbSeg, hr, i1, o1, i2, o2, hv]
  rw [div_conv ha.ne' (x - first) (e.input - s.input) (by ring) (by ring)]
  cases div (x - first) (e.input - s.input) with
  | none => rfl
  | some g =>
    simp only [Option.bind_some]
    cases twoD with
    | true =>
      have e1 := h1 rfl
      have e2 := hu rfl
      subst e1
      simp only [if_true, e2, one_mul]
      rw [show s.input + b - (rightTangent prev s (some e)).1 = s.input - (rightTangent prev s (some e)).1 + b by ring, findT_shift]
    | false => rfl

theorem time_segments [IsStrictOrderedRing K] (twoD : Bool) (n : Nat) {a b : K} (ha : 0 < a) {keys : List (Key K)}
    (h1 : twoD = true → a = 1 ∨ ∀ k ∈ keys, k.interp ≠ .bezier ∧ k.interp ≠ .tcb) (ht : twoD = true → NoTcbPair keys) : SegConv twoD n (timedKey a b) a b 1 0 keys := by
  intro i first prev s e next x hs he
  obtain ⟨i1, o1, p1, -⟩ := timedKey_fields a b s
  obtain ⟨i2, o2, p2, -, -, -, v2, -, u2⟩ := timedKey_fields a b e
  have hlin := time_linear ha.ne' b s e x
  have hlt := (time_tangents a b (some s) e next (Or.inl (by simp))).1
  rw [Option.map_some] at hlt
  have hid : ∀ o : Option K, o.map (fun y => 1 * y + 0) = o := by intro o; cases o <;> simp
  have hm := List.mem_of_getElem? hs
  have hb' : s.interp = .bezier → twoD = true → a = 1 := fun h h' => (h1 h').elim id fun h'' => absurd h (h'' s hm).1
  have ht' : s.interp = .tcb → twoD = true → a = 1 := fun h h' => (h1 h').elim id fun h'' => absurd h (h'' s hm).2
  rw [hid, segment, segment, p1, p2, hlin, o1, hlt]
  cases hsi : s.interp <;> cases hei : e.interp <;> simp only []
  · exact time_bezier twoD n ha (hb' hsi) hsi _ _ (by rw [← (u2 hei).1, ← v2]) x
  · refine time_bezier twoD n ha (hb' hsi) hsi _ _ ?_ x
    simp only [i2, o2]
    congr 1
    ring
  · exact time_tcb twoD n ha (ht' hsi) _ _ _ _ _ _ (fun _ => (u2 hei).1) v2 x
  · refine time_tcb twoD n ha (ht' hsi) _ _ _ _ _ _ (fun h => absurd ⟨hsi, hei⟩ (ht h i s e hs he)) ?_ x
    simp only [o2]

end Verif.Curve
