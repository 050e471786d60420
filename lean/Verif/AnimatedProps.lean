import Verif.AnimatedLemmas
import Verif.ConvTupleProps
import Verif.CurveMultiProps

/-! # Properties of animated values -/

namespace Verif.FAnim

open Verif.FStr (Ch)

variable {C T V : Type}

/-! ## Qualifiers -/

/-- C90. For all types of parameters but skews, each qualifier of COLLADA finds the index of the field it names. Missing: skews, see
`skew_qualifier_violated`. -/
theorem qualifier_partial (k : Kind) (hk : k ≠ .skew) (base : Nat) (q f : String) (h : (q, f) ∈ official k) :
    ∃ i : Nat, findQualifier (createAnimated k base : Anim C) (text q) = some (some i) ∧ (fields k)[i]? = some f ∧
      (createAnimated k base : Anim C).values[i]? = some (some (base + i)) := by
  have key : ∀ k ∈ ([.float, .vector2, .vector3, .color3, .vector4, .color4, .matrix, .angleAxis, .lookAt] : List Kind), ∀ p ∈ official k,
      ((findQualifier (createAnimated k 0 : Anim Unit) (text p.1)).bind fun o => o.bind fun i => (fields k)[i]?) = some p.2 := by decide +kernel
  have hm : k ∈ ([.float, .vector2, .vector3, .color3, .vector4, .color4, .matrix, .angleAxis, .lookAt] : List Kind) := by cases k <;> simp at hk ⊢
  obtain ⟨o, e1, e2⟩ := Option.bind_eq_some_iff.1 (key k hm (q, f) h)
  obtain ⟨i, rfl, e3⟩ := Option.bind_eq_some_iff.1 e2
  refine ⟨i, ?_, e3, ?_⟩
  · rw [← e1]
    simp only [findQualifier, createAnimated, Anim.make, List.length_map]
  · have lt := (List.getElem?_eq_some_iff.1 e3).1
    simp [createAnimated, Anim.make, lt]

example : findQualifier (createAnimated .matrix 100 : Anim Nat) (text "(3)(1)") = some (some 7) ∧ (fields .matrix)[7]? = some "[3][1]" := by decide +kernel

/-- C90. The animated value of a skew has the qualifiers of a look-at: `.ANGLE` is not found, and `.TARGETX` is the axis the rotation goes around. -/
theorem skew_qualifier_violated : (".ANGLE", "angle") ∈ official .skew ∧ findQualifier (createAnimated .skew 0 : Anim Nat) (text ".ANGLE") = some none ∧
    findQualifier (createAnimated .skew 0 : Anim Nat) (text ".TARGETX") = some (some 3) ∧ (fields .skew)[3]? = some "aroundAxis.x" := by decide +kernel

/-- C90. An index that is found for a qualifier has this qualifier and is the first one, or no index has it and the qualifier starts with the index in
brackets. -/
theorem find_qualifier {a : Anim C} {q : List Ch} {i : Nat} (h : findQualifier a q = some (some i)) :
    (a.qualifiers[i]? = some q ∧ ∀ j < i, a.qualifiers[j]? ≠ some q) ∨
      (q ∉ a.qualifiers ∧ i < a.qualifiers.length ∧ FConv.parseQualifier .strict (q ++ [0]) = some (i : Int)) := by
  unfold findQualifier at h
  cases e : a.qualifiers.findIdx? (· = q) with
  | some j =>
    left
    rw [e] at h
    simp only [Option.some.injEq] at h
    subst h
    rw [List.findIdx?_eq_some_iff_getElem] at e
    obtain ⟨lt, e1, e2⟩ := e
    refine ⟨by rw [List.getElem?_eq_getElem lt]; simpa using e1, fun k hk hq => ?_⟩
    obtain ⟨lt', e3⟩ := List.getElem?_eq_some_iff.1 hq
    have := e2 k hk
    simp [e3] at this
  | none =>
    right
    rw [e] at h
    rw [List.findIdx?_eq_none_iff] at e
    refine ⟨fun hm => by simpa using e q hm, ?_⟩
    obtain ⟨m, e1, e2⟩ := Option.map_eq_some_iff.1 h
    split_ifs at e2 with c
    simp only [Option.some.injEq] at e2
    exact ⟨by omega, by rw [e1]; congr 1; omega⟩

/-- C90. A qualifier that an index has is found. -/
theorem find_listed {a : Anim C} {q : List Ch} (h : q ∈ a.qualifiers) : ∃ i : Nat, findQualifier a q = some (some i) ∧ a.qualifiers[i]? = some q := by
  cases e : a.qualifiers.findIdx? (· = q) with
  | none =>
    rw [List.findIdx?_eq_none_iff] at e
    simpa using e q h
  | some i =>
    have f : findQualifier a q = some (some i) := by
      unfold findQualifier
      rw [e]
    refine ⟨i, f, ?_⟩
    rw [List.findIdx?_eq_some_iff_getElem] at e
    obtain ⟨lt, e1, _⟩ := e
    rw [List.getElem?_eq_getElem lt]
    simpa using e1

/-- C90. `(n)` and `[n]` find the index `n`, if it is in range and no index has this qualifier. -/
theorem find_index {a : Anim C} (o c : Ch) (ho : o = 40 ∨ o = 91) (hc : c = 41 ∨ c = 93) (n : Nat) (hn : n + 48 < 2 ^ 31) (hr : n < a.qualifiers.length)
    (h : (o :: (FBld.decimal n ++ [c])) ∉ a.qualifiers) : findQualifier a (o :: (FBld.decimal n ++ [c])) = some (some n) := by
  have p := FConv.qualifier_index .strict o c ho hc n hn [] [] (by simp)
  unfold findQualifier
  have e : a.qualifiers.findIdx? (· = o :: (FBld.decimal n ++ [c])) = none := by
    rw [List.findIdx?_eq_none_iff]
    intro x hx
    simp only [decide_eq_false_iff_not]
    rintro rfl
    exact h hx
  rw [e]
  simp only
  rw [p]
  simp only [Option.map_some]
  rw [if_pos ⟨by omega, by omega⟩]
  simp

example : findQualifier (createAnimated .lookAt 0 : Anim Nat) (text "(7)") = some (some 7) := by decide +kernel

/-- C90. A qualifier of a matrix element out of range is found nevertheless: `(4)(0)` gives the element `(0)(1)`. -/
theorem matrix_range_violated : findQualifier (createAnimated .matrix 0 : Anim Nat) (text "(4)(0)") = some (some 4) ∧
    (createAnimated .matrix 0 : Anim Nat).qualifiers[4]? = some (text "(0)(1)") := by decide +kernel

/-! ## Curves -/

/-- C90. Calls change the curves of the value they name and of no other; values and qualifiers stay. -/
theorem curves_step [DecidableEq C] (a : Anim C) (hl : a.curves.length = a.values.length) (op : Op C) (i : Nat) (old : List C) (hi : a.curves[i]? = some old) :
    (step a op).values = a.values ∧ (step a op).qualifiers = a.qualifiers ∧ (step a op).curves.length = a.values.length ∧
      (step a op).curves[i]? = some (expected a.values.length i old op) := by
  obtain ⟨h1, h2, h3⟩ := step_values a op
  refine ⟨h1, h2, h3.trans hl, ?_⟩
  have lt : i < a.values.length := by rw [← hl]; exact (List.getElem?_eq_some_iff.1 hi).1
  cases op with
  | add j c =>
    simp only [step, addCurve, expected]
    by_cases e : i = j
    · subst e
      simp [lt, hi]
    · simp only [e, false_and, if_false]
      split
      · simp [hi, Ne.symm e]
      · exact hi
  | addList j cs =>
    simp only [step, addCurves, expected]
    by_cases e : i = j
    · subst e
      by_cases z : cs = []
      · simp [z, hi]
      · simp [lt, z, hi]
    · simp only [e, false_and, if_false]
      split
      · simp [hi, Ne.symm e]
      · exact hi
  | remove j =>
    simp only [step, removeCurve, expected]
    split_ifs with h h' h'
    · subst h'
      rw [List.getElem?_set_self (by omega)]
    · rw [List.getElem?_set_ne (fun e => h' e.symm)]
      exact hi
    · omega
    · exact hi
  | drop c => simp [step, dropCurve, expected, hi]

/-- C90. The results of the calls, and of asking for curves. -/
theorem curves_results (a : Anim C) (i : Nat) (old : List C) (hl : a.curves.length = a.values.length) (hi : a.curves[i]? = some old) :
    (∀ c, (addCurve a i c).1 = true) ∧ (∀ cs, (addCurves a i cs).1 = true ↔ cs ≠ []) ∧ ((removeCurve a i).1 = true ↔ old ≠ []) ∧
      (∀ k, getCurve a i k = old[k]?) ∧ (hasCurve a = true ↔ ∃ cs ∈ a.curves, cs ≠ []) := by
  have lt : i < a.values.length := by rw [← hl]; exact (List.getElem?_eq_some_iff.1 hi).1
  refine ⟨fun c => by simp [addCurve, lt], fun cs => ?_, by simp [removeCurve, lt, hi], fun k => by simp [getCurve, lt, hi], by simp [hasCurve]⟩
  simp only [addCurves, lt, true_and]
  split_ifs with h <;> simp [h]

example : (step (step (createAnimated .vector3 0 : Anim Nat) (.add 1 7)) (.addList 1 [8, 9])).curves = [[], [7, 8, 9], []] := by decide +kernel

/-- C90. "The previously assigned curve will be deleted" (FCDAnimated.h 135): a curve that is added comes after the old one, and the old one is still the one
that counts. -/
theorem add_curve_violated : let a := step (step (createAnimated .float 0 : Anim Nat) (.add 0 7)) (.add 0 8)
    a.curves = [[7, 8]] ∧ getCurve a 0 0 = some 7 ∧ (evaluate (fun c (_ : Unit) => some c) a () (fun _ => 0)).map (· 0) = some 7 := by decide +kernel

/-! ## Clones -/

/-- C90. A clone has the qualifiers, the array element and copies of the curves; its floats are those of the original. -/
theorem clone_new (copy : C → C) (a : Anim C) : (cloneNew copy a).qualifiers = a.qualifiers ∧ (cloneNew copy a).elem = a.elem ∧
    (∀ i k, getCurve (cloneNew copy a) i k = (getCurve a i k).map copy) ∧ (cloneNew copy a).values = a.values := by
  refine ⟨rfl, rfl, fun i k => ?_, rfl⟩
  simp only [getCurve, cloneNew, List.getElem?_map]
  split
  · cases a.curves[i]? <;> simp
  · rfl

/-- C90. A clone into an animated value with at least as many values gets the qualifiers and curves, and keeps its own floats. -/
theorem clone_into (a b : Anim C) (ha : Even a) (hb : Even b) (h : a.values.length ≤ b.values.length) :
    Even (cloneInto a b) ∧ (cloneInto a b).values = b.values ∧ (cloneInto a b).elem = a.elem ∧
      ∀ i < a.values.length, (cloneInto a b).qualifiers[i]? = a.qualifiers[i]? ∧ (cloneInto a b).curves[i]? = a.curves[i]? := by
  obtain ⟨a1, a2⟩ := ha
  obtain ⟨b1, b2⟩ := hb
  simp only [cloneInto, Even, Nat.min_eq_left h]
  refine ⟨by simp; omega, trivial, trivial, fun i hi => ⟨?_, ?_⟩⟩
  · rw [List.getElem?_append_left (by simp; omega), List.getElem?_take_of_lt hi]
  · rw [List.getElem?_append_left (by simp; omega), List.getElem?_take_of_lt hi]

/-- C90. A custom animated value that has grown to some qualifiers has them, keeps its curves, and all its values are its one float. -/
theorem custom_resize (dummy : Nat) (a : Anim C) (ha : Even a) (hv : ∀ v ∈ a.values, v = some dummy) (qs : List (List Ch)) (dot : Bool)
    (h : a.values.length ≤ qs.length) : Even (customResize dummy a qs dot) ∧ (∀ v ∈ (customResize dummy a qs dot).values, v = some dummy) ∧
      (customResize dummy a qs dot).qualifiers = qs.map (fun q => if dot then 46 :: q else q) ∧
      ∀ i < a.values.length, (customResize dummy a qs dot).curves[i]? = a.curves[i]? := by
  obtain ⟨a1, a2⟩ := ha
  simp only [customResize, Even]
  rw [if_pos h]
  refine ⟨by simp; omega, ?_, rfl, fun i hi => ?_⟩
  · intro v hm
    simp only [List.mem_append, List.mem_replicate] at hm
    rcases hm with hm | hm
    · exact hv v hm
    · exact hm.2
  · rw [List.getElem?_append_left (by omega)]

/-- C90. A copy of an animated value that is at least as large has its qualifiers and curves. -/
theorem custom_copy (dummy : Nat) (a b : Anim C) (ha : Even a) (hb : Even b) (h : a.values.length ≤ b.values.length) :
    (customCopy dummy a b).qualifiers = b.qualifiers ∧ (customCopy dummy a b).curves = b.curves ∧ (customCopy dummy a b).elem = b.elem := by
  obtain ⟨a1, a2⟩ := ha
  obtain ⟨b1, b2⟩ := hb
  simp only [customCopy]
  rw [if_pos h]
  simp only [cloneInto, List.length_append, List.length_replicate]
  have e : min b.values.length (a.values.length + (b.values.length - a.values.length)) = b.values.length := by omega
  rw [e]
  refine ⟨?_, ?_, trivial⟩
  · rw [List.take_of_length_le (by omega), List.drop_of_length_le (by simp; omega), List.append_nil]
  · rw [List.take_of_length_le (by omega), List.drop_of_length_le (by simp; omega), List.append_nil]

example : Even (createAnimated .color4 0 : Anim Nat) ∧ Even (custom 9 : Anim Nat) ∧
    (customCopy 9 (custom 9) (createAnimated .color4 0 : Anim Nat)).qualifiers = [text ".R", text ".G", text ".B", text ".A"] := by
  refine ⟨⟨rfl, rfl⟩, ⟨rfl, rfl⟩, by decide +kernel⟩

/-! ## Time -/

/-- C91. Setting the time of a document whose references make no cycle always ends. Each float of an animated value with curves, in the document and in those
it refers to, gets the value of its first curve at this time, and all other floats stay. -/
theorem set_time_partial (eval : C → T → Option V) (t : T) (docs : Nat → Doc C) (rank : Nat → Nat) (hr : ∀ d, ∀ c ∈ (docs d).children, rank c < rank d)
    (d : Nat) (anims : List (Anim C)) (ha : ∀ a, a ∈ anims ↔ ∃ e, Reaches docs d e ∧ a ∈ (docs e).anims) (hc : Coherent eval t anims) (mem : Nat → V) :
    ∃ mem', (∃ N, ∀ n ≥ N, setTime eval t docs n d mem = some mem') ∧ Sampled eval t anims mem mem' := by
  obtain ⟨l, h1, h2⟩ := setTime_eq (V := V) eval t docs rank hr d
  have hm : ∀ a, a ∈ l ↔ a ∈ anims := fun a => (h1 a).trans (ha a).symm
  obtain ⟨mem', e, s⟩ := writes_sampled (as := l)
    ⟨fun a h b h' => hc.agree a ((hm a).1 h) b ((hm b).1 h'), fun a h => hc.defined a ((hm a).1 h)⟩ mem
  refine ⟨mem', ⟨rank d + 1, fun n hn => (h2 n (by omega) mem).trans e⟩, ⟨fun a h => s.animated a ((hm a).2 h), fun p hp => s.other p fun a h => hp a ((hm a).1 h)⟩⟩

/-- C91. The result is determined by the set of animated values, not by their order. -/
theorem sampled_unique {eval : C → T → Option V} {t : T} {as bs : List (Anim C)} (hm : ∀ a, a ∈ as ↔ a ∈ bs) {mem m1 m2 : Nat → V}
    (h1 : Sampled eval t as mem m1) (h2 : Sampled eval t bs mem m2) : m1 = m2 := by
  funext p
  by_cases h : ∃ a ∈ as, ∃ (i : Nat) (c : C), a.values[i]? = some (some p) ∧ getCurve a i 0 = some c
  · obtain ⟨a, ha, i, c, e1, e2⟩ := h
    have x := h1.animated a ha i p c e1 e2
    have y := h2.animated a ((hm a).1 ha) i p c e1 e2
    exact Option.some.inj (x.symm.trans y)
  · have no : ∀ a ∈ as, ∀ i : Nat, a.values[i]? = some (some p) → getCurve a i 0 = none := by
      intro a ha i e
      cases hg : getCurve a i 0 with
      | none => rfl
      | some c => exact absurd ⟨a, ha, i, c, e, hg⟩ h
    rw [h1.other p no, h2.other p fun a ha => no a ((hm a).2 ha)]

/-- Two documents: the first one refers to the second one. -/
def twoDocs : Nat → Doc Nat
  | 0 => ⟨[(addCurve (createAnimated .vector3 10) 1 5).2], [1]⟩
  | 1 => ⟨[(addCurve (createAnimated .float 20) 0 6).2], []⟩
  | _ => ⟨[], []⟩

example : ((setTime (fun c t => some (c + t)) 100 twoDocs 5 0 (fun p => p)).map fun m => [m 10, m 11, m 12, m 20]) = some [10, 105, 12, 106] := by
  decide +kernel

example : (∀ d, ∀ c ∈ (twoDocs d).children, (fun d => 2 - d) c < (fun d => 2 - d) d) := by
  intro d
  match d with
  | 0 => decide
  | 1 => decide
  | n + 2 => simp [twoDocs]

/-- C91. If two documents refer to each other, setting the time of one of them never ends. -/
theorem set_time_cycle_violated (eval : C → T → Option V) (t : T) (mem : Nat → V) :
    ∀ n, setTime eval t (fun d => if d = 0 then ⟨[], [1]⟩ else ⟨[], [0]⟩ : Nat → Doc C) n 0 mem = none := by
  intro n
  refine setTime_cycle eval t _ (fun d => d = 0 ∨ d = 1) ?_ n 0 (.inl rfl) mem
  rintro d (rfl | rfl)
  · exact ⟨1, by simp, .inr rfl⟩
  · exact ⟨0, by simp, .inl rfl⟩

/-! ## Curves of several dimensions -/

section Multi

variable {K : Type} [Field K] [LinearOrder K] [IsStrictOrderedRing K] [FloorRing K]

/-- Sampling of a curve. -/
def sampleCurve (twoD : Bool) (n : Nat) (c : Curve.CurveData K) (t : K) : Option K := Curve.evaluate twoD n c.pre c.post c.keys t

/-- C91. Under the conditions of C81, the curve of several dimensions made of an animated value has, at each time and for each value, the number which setting
the animated value to that time gives. -/
theorem multi_curve_partial (twoD : Bool) {n : Nat} (hn : 12 ≤ n) (a : Anim (Curve.CurveData K)) (hl : a.curves.length = a.values.length)
    (ptrs : List Nat) (hp : a.values = ptrs.map some) (hd : ptrs.Nodup) (hs : Curve.AllSpaced (a.curves.map List.head?))
    (ha : Curve.Apart (a.curves.map List.head?)) (hsome : ∃ c, some c ∈ a.curves.map List.head?)
    (hk : ∀ c, some c ∈ a.curves.map List.head? → c.keys ≠ []) (hlin : ∀ k, Curve.HasKey (a.curves.map List.head?) k → k.interp = .linear)
    (hinf : ∀ c, some c ∈ a.curves.map List.head? → c.pre = .constant ∧ c.post = .constant) (mem : Nat → K) :
    ∃ m, createMultiCurve twoD n a mem = some (some m) ∧
      ∀ t mem', evaluate (sampleCurve twoD n) a t mem = some mem' → ∀ (i p : Nat), a.values[i]? = some (some p) → Curve.mEvaluate twoD n m t i = some (mem' p) := by
  obtain ⟨m, e, h1, h2⟩ := Curve.merged_sample_partial twoD hn hs ha hsome hlin hinf (ptrs.map mem)
  have hm : (a.values.mapM _root_.id) = some ptrs := by
    rw [hp]
    clear hp hd e h2
    induction ptrs with
    | nil => rfl
    | cons p ps ih => simp [List.mapM_cons, ih]
  refine ⟨m, by rw [createMultiCurve, hm]; exact e, fun t mem' ev i p hi => ?_⟩
  have lt : i < a.values.length := (List.getElem?_eq_some_iff.1 hi).1
  have hpi : ptrs[i]? = some p := by
    rw [hp, List.getElem?_map] at hi
    simpa using hi
  have hci : (a.curves.map List.head?)[i]? = some (getCurve a i 0) := by
    rw [List.getElem?_map, List.getElem?_eq_getElem (by omega)]
    simp [getCurve, lt, List.getElem?_eq_getElem (show i < a.curves.length by omega), List.head?_eq_getElem?]
  have inj : ∀ j : Nat, a.values[j]? = some (some p) → j = i := by
    intro j hj
    have hpj : ptrs[j]? = some p := by
      rw [hp, List.getElem?_map] at hj
      simpa using hj
    exact ((List.getElem?_inj (by rw [hp, List.length_map] at lt; exact lt) hd).1 (hpi.trans hpj.symm)).symm
  have ew : doWrites (sampleCurve twoD n) t (writes a) mem = some mem' := by
    rw [writes, ← evalLoop_eq]
    exact ev
  have wr : ∀ ws : List (Nat × Curve.CurveData K), (∀ q c, (q, c) ∈ ws → (q, c) ∈ writes a) → ∀ m0, doWrites (sampleCurve twoD n) t ws m0 = some mem' →
      ((∀ c, getCurve a i 0 = some c → (p, c) ∈ ws → sampleCurve twoD n c t = some (mem' p)) ∧ ((∀ c, (p, c) ∉ ws) → mem' p = m0 p)) := by
    intro ws
    induction ws with
    | nil =>
      intro _ m0 h
      cases h
      exact ⟨by simp, fun _ => rfl⟩
    | cons w ws ih =>
      obtain ⟨q, c⟩ := w
      intro hsub m0 h
      rw [doWrites] at h
      obtain ⟨y, hy, h⟩ := Option.bind_eq_some_iff.1 h
      obtain ⟨g1, g2⟩ := ih (fun q c h => hsub q c (by simp [h])) _ h
      refine ⟨fun d hg hm => ?_, fun hno => ?_⟩
      · by_cases hin : ∃ c', (p, c') ∈ ws
        · obtain ⟨c', hc'⟩ := hin
          obtain ⟨j, j1, j2⟩ := mem_writes.1 (hsub p c' (by simp [hc']))
          rw [inj j j1, hg, Option.some.injEq] at j2
          exact g1 d hg (j2 ▸ hc')
        · rcases List.mem_cons.1 hm with q' | q'
          · simp only [Prod.mk.injEq] at q'
            obtain ⟨rfl, rfl⟩ := q'
            rw [g2 fun c' h' => hin ⟨c', h'⟩, hy]
            simp
          · exact absurd ⟨d, q'⟩ hin
      · rw [g2 fun c' h' => hno c' (by simp [h']), Function.update_of_ne]
        rintro rfl
        exact hno c (by simp)
  obtain ⟨w1, w2⟩ := wr (writes a) (fun _ _ h => h) mem ew
  cases hg : getCurve a i 0 with
  | some c =>
    rw [hg] at hci
    have hmem : some c ∈ a.curves.map List.head? := List.mem_of_getElem? hci
    rw [h1 i c hci (hk c hmem)]
    exact w1 c hg (mem_writes.2 ⟨i, hi, hg⟩)
  | none =>
    rw [hg] at hci
    obtain ⟨c, hc⟩ := hsome
    obtain ⟨k, hk'⟩ := List.exists_mem_of_ne_nil _ (hk c hc)
    rw [h2 i none hci (by simp) ⟨k, c, hc, hk'⟩, w2]
    · simp [hpi]
    · intro c' hc'
      obtain ⟨j, j1, j2⟩ := mem_writes.1 hc'
      rw [inj j j1, hg] at j2
      cases j2

end Multi

example : ((createMultiCurve true 12 (addCurve (addCurve (createAnimated .vector3 0) 0 Curve.linearA).2 2 Curve.linearB).2 (fun _ => 8)).bind fun r =>
    r.bind fun m => Curve.mEvaluate true 12 m (1 / 2) 1) = some (8 : ℚ) := by decide +kernel

end Verif.FAnim
