import Verif.StdAnimSpec
import Verif.CurveConvLemmas
import Mathlib.Algebra.Order.Archimedean.Real.Basic
import Mathlib.Tactic.FinCases
import Mathlib.Tactic.IntervalCases

/-! # Lemmas on animated values in new coordinates -/

namespace Verif.FStd

open Verif.Geo Verif.FXform

noncomputable section

/-- The component that a component becomes. -/
def Fn.target : Fn → Fin 3 → Fin 3
  | .identity, i => i
  | .xToY, 0 => 1 | .xToY, 1 => 0 | .xToY, 2 => 2
  | .xToZ, 0 => 2 | .xToZ, 1 => 0 | .xToZ, 2 => 1
  | .yToX, 0 => 1 | .yToX, 1 => 0 | .yToX, 2 => 2
  | .yToZ, 0 => 0 | .yToZ, 1 => 2 | .yToZ, 2 => 1
  | .zToX, 0 => 1 | .zToX, 1 => 2 | .zToX, 2 => 0
  | .zToY, 0 => 0 | .zToY, 1 => 2 | .zToY, 2 => 1

/-- The sign of a component. -/
def Fn.sgn (sign : ℝ) : Fn → Fin 3 → ℝ
  | .xToY, 0 => sign
  | .yToX, 1 => sign
  | .yToZ, 1 => sign
  | .zToY, 2 => sign
  | _, _ => 1

/-- A component of a vector. -/
def comp (v : V3 ℝ) : Fin 3 → ℝ
  | 0 => v.x
  | 1 => v.y
  | 2 => v.z

theorem target_injective (f : Fn) : Function.Injective f.target := by
  cases f <;> decide

theorem comp_apply (f : Fn) (sign : ℝ) (v : V3 ℝ) (i : Fin 3) : comp (f.apply sign v) (f.target i) = f.sgn sign i * comp v i := by
  cases f <;> fin_cases i <;> simp [comp, Fn.apply, Fn.target, Fn.sgn]

/-- The sign of the functor for vectors or for scales. -/
def signOf (isScale : Bool) : ℝ := if isScale then 1 else -1

theorem turnBy_eq (c : Conv) (isScale : Bool) (v : V3 ℝ) : c.turnBy isScale v = c.fn.apply (signOf isScale) v := by
  cases isScale <;> rfl

theorem eq_one_eq : equivalent (1 : ℝ) 1 = true := by unfold equivalent tolerance; norm_num
theorem eq_zero_ne : equivalent (0 : ℝ) 1 = false := by unfold equivalent tolerance; norm_num

theorem place_turned (c : Conv) (isScale : Bool) (i : Fin 3) :
    equivalent (c.turnBy isScale (unitAxis i)).lengthSquared 1 = true ∧
      place (c.turnBy isScale (unitAxis i)) = some (c.fn.target i, c.fn.sgn (signOf isScale) i) := by
  rw [turnBy_eq]
  rcases c with ⟨f, k⟩
  have h1 := eq_one_eq
  have h0 := eq_zero_ne
  cases isScale <;> cases f <;> fin_cases i <;>
    simp [unitAxis, Fn.apply, place, Fn.target, Fn.sgn, signOf, V3.lengthSquared, h0, h1]

theorem scaleCurve_interp (k : ℝ) (c : Curve.CurveData ℝ) (h : Curve.NoTcbPair c.keys) : Curve.NoTcbPair (scaleCurve k c).keys := by
  have e : (scaleCurve k c).keys = c.keys.map (Curve.valuedKey k 0) := by
    rw [← Curve.convertValues_eq]
    simp only [scaleCurve, add_zero, mul_comm k]
  intro i s t hs ht
  rw [e, List.getElem?_map] at hs ht
  cases hs' : c.keys[i]? with
  | none => rw [hs'] at hs; cases hs
  | some s0 =>
    cases ht' : c.keys[i + 1]? with
    | none => rw [ht'] at ht; cases ht
    | some t0 =>
      rw [hs'] at hs; rw [ht'] at ht
      cases hs; cases ht
      rw [(Curve.valuedKey_fields k 0 s0).2.2.1, (Curve.valuedKey_fields k 0 t0).2.2.1]
      exact h i s0 t0 hs' ht'

theorem scaleCurve_evaluate (twoD : Bool) (n : Nat) (k : ℝ) (c : Curve.CurveData ℝ) (h : twoD = true → Curve.NoTcbPair c.keys) (t : ℝ) :
    Curve.evaluate twoD n (scaleCurve k c).pre (scaleCurve k c).post (scaleCurve k c).keys t =
      (Curve.evaluate twoD n c.pre c.post c.keys t).map fun y => k * y := by
  have e : (scaleCurve k c).keys = c.keys.map (Curve.valuedKey k 0) := by
    rw [← Curve.convertValues_eq]
    simp only [scaleCurve, add_zero, mul_comm k]
  have := Curve.evaluate_conv (a := 1) (b := 0) zero_lt_one (Curve.value_affine k 0) (Or.inr rfl) (Curve.value_segments twoD n (fun _ => Or.inl rfl) h) c.pre c.post t
  rw [one_mul, add_zero] at this
  rw [e]
  change Curve.evaluate twoD n c.pre c.post _ t = _
  rw [this]
  simp only [add_zero]

/-- The curves in `l` are scaled. -/
def scaled (heap : Nat → Curve.CurveData ℝ) (l : List Nat) (k : ℝ) : Nat → Curve.CurveData ℝ := fun id => if id ∈ l then scaleCurve k (heap id) else heap id

theorem scaled_nil (heap : Nat → Curve.CurveData ℝ) (k : ℝ) : scaled heap [] k = heap := by funext id; simp [scaled]

theorem scaled_mem {heap : Nat → Curve.CurveData ℝ} {l : List Nat} {k : ℝ} {id : Nat} (h : id ∈ l) : scaled heap l k id = scaleCurve k (heap id) := if_pos h

theorem scaled_not {heap : Nat → Curve.CurveData ℝ} {l : List Nat} {k : ℝ} {id : Nat} (h : id ∉ l) : scaled heap l k id = heap id := if_neg h

theorem scale_fold (heap : Nat → Curve.CurveData ℝ) (vals : Nat → ℝ) (k : ℝ) : ∀ (l : List Nat), l.Nodup → ∀ lists,
    l.foldl (fun (s : Animated) id => s.scale id k) (⟨vals, lists, heap⟩ : Animated) = ⟨vals, lists, scaled heap l k⟩ := by
  intro l
  induction l generalizing heap with
  | nil => intro _ lists; simp [scaled_nil]
  | cons a l ih =>
    intro hd lists
    rw [List.foldl_cons, Animated.scale, ih _ (List.nodup_cons.mp hd).2]
    congr 1
    funext id
    simp only [scaled, List.mem_cons]
    have ha := (List.nodup_cons.mp hd).1
    by_cases h : id = a
    · subst h; simp [ha]
    · simp [h]

theorem one_fold {convOf : Nat → Conv} {c : Conv} (len isScale : Bool) (idx : Fin 3 → Nat) (i : Fin 3) (vals : Nat → ℝ) :
    ∀ (l : List Nat), l.Nodup → (∀ id ∈ l, convOf id = c) → ∀ lists heap,
      l.foldl (convertOne convOf len isScale idx i) (⟨vals, lists, heap⟩ : Animated) =
        ⟨vals, Function.update lists (idx (c.fn.target i)) (lists (idx (c.fn.target i)) ++ l),
          scaled heap l (c.fn.sgn (signOf isScale) i * (if len then c.factor else 1))⟩ := by
  intro l
  induction l with
  | nil => intro _ _ lists heap; simp [scaled_nil]
  | cons a l ih =>
    intro hd hc lists heap
    have hca := hc a (List.mem_cons_self ..)
    obtain ⟨p1, p2⟩ := place_turned c isScale i
    have e : convertOne convOf len isScale idx i (⟨vals, lists, heap⟩ : Animated) a =
        ⟨vals, Function.update lists (idx (c.fn.target i)) (lists (idx (c.fn.target i)) ++ [a]),
          Function.update heap a (scaleCurve (c.fn.sgn (signOf isScale) i * (if len then c.factor else 1)) (heap a))⟩ := by
      simp only [convertOne, hca, p1, p2, if_true]
      rfl
    rw [List.foldl_cons, e, ih (List.nodup_cons.mp hd).2 (fun id h => hc id (List.mem_cons_of_mem _ h))]
    have ha := (List.nodup_cons.mp hd).1
    congr 1
    · simp
    · funext id
      simp only [scaled, List.mem_cons]
      by_cases h : id = a
      · subst h; simp [ha]
      · simp [h]

/-- The factor of the curves of a component. -/
def rate (c : Conv) (len isScale : Bool) (i : Fin 3) : ℝ := c.fn.sgn (signOf isScale) i * (if len then c.factor else 1)

theorem vector_lists {c : Conv} {convOf : Nat → Conv} {twoD : Bool} {s : Animated} (h : s.Tame c convOf twoD) (len isScale : Bool) {idx : Fin 3 → Nat}
    (hi : Function.Injective idx) :
    (convertVector3 convOf len isScale idx s).vals = s.vals ∧
    (∀ i, (convertVector3 convOf len isScale idx s).lists (idx (c.fn.target i)) = s.lists (idx i)) ∧
    (∀ k, (∀ i, k ≠ idx i) → (convertVector3 convOf len isScale idx s).lists k = s.lists k) ∧
    (∀ i, ∀ id ∈ s.lists (idx i), (convertVector3 convOf len isScale idx s).heap id = scaleCurve (rate c len isScale i) (s.heap id)) ∧
    (∀ id, (∀ i, id ∉ s.lists (idx i)) → (convertVector3 convOf len isScale idx s).heap id = s.heap id) := by
  obtain ⟨r, e⟩ : ∃ r, convertVector3 convOf len isScale idx s = r := ⟨_, rfl⟩
  rw [e]
  rw [convertVector3] at e
  simp only [Animated.remove] at e
  rw [one_fold len isScale idx 0 s.vals _ (h.once _) (h.conv _), one_fold len isScale idx 1 s.vals _ (h.once _) (h.conv _),
    one_fold len isScale idx 2 s.vals _ (h.once _) (h.conv _)] at e
  have d : ∀ i j, i ≠ j → ∀ id ∈ s.lists (idx i), id ∉ s.lists (idx j) := fun i j hij => h.apart _ _ (fun e => hij (hi e))
  have hz : ∀ j, (Function.update (Function.update (Function.update s.lists (idx 0) []) (idx 1) []) (idx 2) []) (idx j) = [] := by
    intro j
    fin_cases j <;> simp [Function.update_apply]
  have ht := target_injective c.fn
  have n01 : idx (c.fn.target 0) ≠ idx (c.fn.target 1) := fun e => absurd (ht (hi e)) (by decide)
  have n02 : idx (c.fn.target 0) ≠ idx (c.fn.target 2) := fun e => absurd (ht (hi e)) (by decide)
  have n12 : idx (c.fn.target 1) ≠ idx (c.fn.target 2) := fun e => absurd (ht (hi e)) (by decide)
  subst e
  refine ⟨rfl, ?_, ?_, ?_, ?_⟩
  · intro i
    generalize Function.update (Function.update (Function.update s.lists (idx 0) []) (idx 1) []) (idx 2) [] = L at hz
    fin_cases i
    · simp [Function.update_apply, n01, n02, hz]
    · simp [Function.update_apply, n01.symm, n12, hz]
    · simp [Function.update_apply, n02.symm, n12.symm, hz]
  · intro k hk
    simp [Function.update_apply, hk]
  · intro i id hid
    fin_cases i
    · simp only [scaled, d 0 1 (by decide) id hid, d 0 2 (by decide) id hid, rate]
      simp at hid
      simp [hid]
    · simp only [scaled, d 1 0 (by decide) id hid, d 1 2 (by decide) id hid, rate]
      simp at hid
      simp [hid]
    · simp only [scaled, d 2 0 (by decide) id hid, d 2 1 (by decide) id hid, rate]
      simp at hid
      simp [hid]
  · intro id hid
    simp [scaled, hid]

theorem target_surjective (f : Fn) (j : Fin 3) : ∃ i, f.target i = j := by
  revert j; cases f <;> decide

/-- Where the curves of a value were. -/
theorem vector_sources {c : Conv} {convOf : Nat → Conv} {twoD : Bool} {s : Animated} (h : s.Tame c convOf twoD) (len isScale : Bool) {idx : Fin 3 → Nat}
    (hi : Function.Injective idx) : ∃ σ : Nat → Nat, Function.Injective σ ∧ ∀ k, (convertVector3 convOf len isScale idx s).lists k = s.lists (σ k) := by
  obtain ⟨-, h1, h2, -⟩ := vector_lists h len isScale hi
  have hsrc : ∀ k, ∃ k', (∃ i, k = idx (c.fn.target i) ∧ k' = idx i) ∨ ((∀ i, k ≠ idx i) ∧ k' = k) := by
    intro k
    by_cases hk : ∃ j, k = idx j
    · obtain ⟨j, rfl⟩ := hk
      obtain ⟨i, rfl⟩ := target_surjective c.fn j
      exact ⟨idx i, Or.inl ⟨i, rfl, rfl⟩⟩
    · push Not at hk
      exact ⟨k, Or.inr ⟨hk, rfl⟩⟩
  choose σ hσ using hsrc
  refine ⟨σ, ?_, ?_⟩
  · intro j k e
    rcases hσ j with ⟨i, rfl, e1⟩ | ⟨hj, e1⟩ <;> rcases hσ k with ⟨i', rfl, e2⟩ | ⟨hk, e2⟩
    · rw [e1, e2] at e
      rw [hi e]
    · rw [e1, e2] at e
      exact absurd e.symm (hk i)
    · rw [e1, e2] at e
      exact absurd e (hj i')
    · rw [e1, e2] at e
      exact e
  · intro k
    rcases hσ k with ⟨i, rfl, e1⟩ | ⟨hk, e1⟩
    · rw [e1, h1]
    · rw [e1, h2 k hk]

theorem tame_vector {c : Conv} {convOf : Nat → Conv} {twoD : Bool} {s : Animated} (h : s.Tame c convOf twoD) (len isScale : Bool) {idx : Fin 3 → Nat}
    (hi : Function.Injective idx) : (convertVector3 convOf len isScale idx s).Tame c convOf twoD := by
  obtain ⟨σ, hσ, e⟩ := vector_sources h len isScale hi
  obtain ⟨-, -, -, h3, h4⟩ := vector_lists h len isScale hi
  refine ⟨?_, ?_, ?_, ?_⟩
  · intro j k hjk id hid
    rw [e] at hid ⊢
    exact h.apart _ _ (fun e => hjk (hσ e)) id hid
  · intro k; rw [e]; exact h.once _
  · intro k id hid; rw [e] at hid; exact h.conv _ id hid
  · intro ht k id hid
    rw [e] at hid
    have hk := h.keys ht _ id hid
    by_cases hm : ∃ i, id ∈ s.lists (idx i)
    · obtain ⟨i, hm⟩ := hm
      rw [h3 i id hm]
      exact scaleCurve_interp _ _ hk
    · push Not at hm
      rw [h4 id hm]
      exact hk

theorem at_vector {c : Conv} {convOf : Nat → Conv} {twoD : Bool} {s : Animated} (h : s.Tame c convOf twoD) (n : Nat) (len isScale : Bool) {idx : Fin 3 → Nat}
    (hi : Function.Injective idx) {vals : Nat → ℝ} (hv : ∀ i, vals (idx (c.fn.target i)) = rate c len isScale i * s.vals (idx i))
    (hk : ∀ k, (∀ i, k ≠ idx i) → vals k = s.vals k) :
    (∀ i t, (convertVector3 convOf len isScale idx { s with vals := vals }).at twoD n (idx (c.fn.target i)) t =
      (s.at twoD n (idx i) t).map fun y => rate c len isScale i * y) ∧
    (∀ k, (∀ i, k ≠ idx i) → ∀ t, (convertVector3 convOf len isScale idx { s with vals := vals }).at twoD n k t = s.at twoD n k t) := by
  have h' : ({ s with vals := vals } : Animated).Tame c convOf twoD := ⟨h.apart, h.once, h.conv, h.keys⟩
  obtain ⟨h0, h1, h2, h3, h4⟩ := vector_lists h' len isScale hi
  constructor
  · intro i t
    unfold Animated.at
    rw [h1, h0]
    cases hl : s.lists (idx i) with
    | nil => simp only [Option.map_some, hv]
    | cons id l =>
      have hm : id ∈ s.lists (idx i) := by rw [hl]; exact List.mem_cons_self ..
      change Curve.evaluate _ _ _ _ _ _ = Option.map _ (Curve.evaluate _ _ _ _ _ _)
      rw [h3 i id hm]
      exact scaleCurve_evaluate twoD n _ _ (fun ht => h.keys ht _ id hm) t
  · intro k hk' t
    unfold Animated.at
    rw [h2 k hk', h0]
    cases hl : s.lists k with
    | nil => simp only [hk k hk']
    | cons id l =>
      have hm : id ∈ s.lists k := by rw [hl]; exact List.mem_cons_self ..
      change Curve.evaluate _ _ _ _ _ _ = Curve.evaluate _ _ _ _ _ _
      rw [h4 id (fun i => h.apart _ _ (hk' i) id hm)]

theorem put_comp (s : Animated) {idx : Fin 3 → Nat} (hi : Function.Injective idx) (v : V3 ℝ) :
    (∀ i, (s.put idx v).vals (idx i) = comp v i) ∧ ∀ k, (∀ i, k ≠ idx i) → (s.put idx v).vals k = s.vals k := by
  have n01 : idx 0 ≠ idx 1 := fun e => absurd (hi e) (by decide)
  have n02 : idx 0 ≠ idx 2 := fun e => absurd (hi e) (by decide)
  have n12 : idx 1 ≠ idx 2 := fun e => absurd (hi e) (by decide)
  constructor
  · intro i
    fin_cases i <;> simp [Animated.put, comp, n01, n02, n12]
  · intro k hk
    simp [Animated.put, hk]

theorem get_comp (s : Animated) (idx : Fin 3 → Nat) (i : Fin 3) : comp (s.get idx) i = s.vals (idx i) := by
  fin_cases i <;> rfl

theorem shows_iff (twoD : Bool) (n : Nat) (s : Animated) (idx : Fin 3 → Nat) (t : ℝ) (v : V3 ℝ) : s.Shows twoD n idx t v ↔ ∀ i, s.at twoD n (idx i) t = some (comp v i) := by
  constructor
  · rintro ⟨h0, h1, h2⟩ i
    fin_cases i
    · exact h0
    · exact h1
    · exact h2
  · exact fun h => ⟨h 0, h 1, h 2⟩

/-- The map of vectors that belongs to the flags. -/
def Conv.by (c : Conv) (len isScale : Bool) (v : V3 ℝ) : V3 ℝ := V3.smul (if len then c.factor else 1) (c.turnBy isScale v)

theorem comp_by (c : Conv) (len isScale : Bool) (v : V3 ℝ) (i : Fin 3) : comp (c.by len isScale v) (c.fn.target i) = rate c len isScale i * comp v i := by
  have e : ∀ (k : ℝ) (w : V3 ℝ) (j : Fin 3), comp (V3.smul k w) j = k * comp w j := by
    intro k w j; fin_cases j <;> rfl
  rw [Conv.by, e, turnBy_eq, comp_apply, rate]
  ring

/-- The values and the curves of a vector are converted. -/
theorem vector_step {c : Conv} {convOf : Nat → Conv} {twoD : Bool} {s : Animated} (h : s.Tame c convOf twoD) (n : Nat) (len isScale : Bool) {idx : Fin 3 → Nat}
    (hi : Function.Injective idx) :
    (convertVector3 convOf len isScale idx (s.put idx (c.by len isScale (s.get idx)))).Tame c convOf twoD ∧
    (∀ t v, s.Shows twoD n idx t v → (convertVector3 convOf len isScale idx (s.put idx (c.by len isScale (s.get idx)))).Shows twoD n idx t (c.by len isScale v)) ∧
    (∀ k, (∀ i, k ≠ idx i) → ∀ t, (convertVector3 convOf len isScale idx (s.put idx (c.by len isScale (s.get idx)))).at twoD n k t = s.at twoD n k t) := by
  have h' : (s.put idx (c.by len isScale (s.get idx))).Tame c convOf twoD := ⟨h.apart, h.once, h.conv, h.keys⟩
  obtain ⟨p1, p2⟩ := put_comp s hi (c.by len isScale (s.get idx))
  have ha := at_vector h n len isScale hi (vals := (s.put idx (c.by len isScale (s.get idx))).vals) (fun i => by rw [p1, comp_by, get_comp]) p2
  refine ⟨tame_vector h' len isScale hi, ?_, ha.2⟩
  intro t v hs
  rw [shows_iff] at hs ⊢
  intro j
  obtain ⟨i, rfl⟩ := target_surjective c.fn j
  have := ha.1 i t
  rw [hs i, Option.map_some] at this
  rw [comp_by]
  exact this

theorem convertVect3_eq (c : Conv) (convOf : Nat → Conv) (idx : Fin 3 → Nat) (s : Animated) :
    convertVect3 c convOf idx s = convertVector3 convOf false false idx (s.put idx (c.by false false (s.get idx))) := by
  have : c.by false false (s.get idx) = c.turn (s.get idx) := by simp [Conv.by, Conv.turnBy, V3.smul]
  rw [this]; rfl

theorem convertScale_eq (c : Conv) (convOf : Nat → Conv) (idx : Fin 3 → Nat) (s : Animated) :
    convertScale c convOf idx s = convertVector3 convOf false true idx (s.put idx (c.by false true (s.get idx))) := by
  have : c.by false true (s.get idx) = c.turnScale (s.get idx) := by simp [Conv.by, Conv.turnBy, V3.smul]
  rw [this]; rfl

theorem convertVect3L_eq (c : Conv) (convOf : Nat → Conv) (idx : Fin 3 → Nat) (s : Animated) :
    convertVect3L c convOf idx s = convertVector3 convOf true false idx (s.put idx (c.by true false (s.get idx))) := by
  have : c.by true false (s.get idx) = c.lengthen (c.turn (s.get idx)) := by simp [Conv.by, Conv.turnBy, Conv.lengthen]
  rw [this]; rfl

theorem fold_conv {convOf : Nat → Conv} {c : Conv} : ∀ (l : List Nat), (∀ id ∈ l, convOf id = c) → ∀ s : Animated,
    l.foldl (fun s id => s.scale id (convOf id).factor) s = l.foldl (fun s id => s.scale id c.factor) s := by
  intro l
  induction l with
  | nil => intros; rfl
  | cons a l ih =>
    intro h s
    rw [List.foldl_cons, List.foldl_cons, h a (List.mem_cons_self ..), ih (fun id hid => h id (List.mem_cons_of_mem _ hid))]

theorem float_step {c : Conv} {convOf : Nat → Conv} {twoD : Bool} {s : Animated} (h : s.Tame c convOf twoD) (n k : Nat) :
    (convertFl c convOf k s).Tame c convOf twoD ∧ (∀ t, (convertFl c convOf k s).at twoD n k t = (s.at twoD n k t).map fun y => c.factor * y) ∧
    (∀ j, j ≠ k → ∀ t, (convertFl c convOf k s).at twoD n j t = s.at twoD n j t) := by
  have e : convertFl c convOf k s = ⟨Function.update s.vals k (s.vals k * c.factor), s.lists, scaled s.heap (s.lists k) c.factor⟩ := by
    rw [convertFl, convertFloat, fold_conv _ (h.conv k), scale_fold _ _ _ _ (h.once k)]
  rw [e]
  refine ⟨⟨h.apart, h.once, h.conv, ?_⟩, ?_, ?_⟩
  · intro ht j id hid
    change Curve.NoTcbPair (scaled _ _ _ id).keys
    by_cases hm : id ∈ s.lists k
    · rw [scaled_mem hm]; exact scaleCurve_interp _ _ (h.keys ht _ id hid)
    · rw [scaled_not hm]; exact h.keys ht _ id hid
  · intro t
    unfold Animated.at
    cases hl : s.lists k with
    | nil => simp [mul_comm]
    | cons id l =>
      have hm : id ∈ s.lists k := by rw [hl]; exact List.mem_cons_self ..
      simp only [← hl]
      rw [scaled_mem hm]
      exact scaleCurve_evaluate twoD n _ _ (fun ht => h.keys ht _ id hm) t
  · intro j hj t
    unfold Animated.at
    cases hl : s.lists j with
    | nil => simp [hj]
    | cons id l =>
      have hm : id ∈ s.lists j := by rw [hl]; exact List.mem_cons_self ..
      simp only
      rw [scaled_not (h.apart _ _ hj id hm)]

/-- All values of a matrix. -/
def ShowsAll (twoD : Bool) (n : Nat) (s : Animated) (t : ℝ) (f : Nat → ℝ) : Prop := ∀ k < 16, s.at twoD n k t = some (f k)

/-- Three of the values are replaced. -/
def putF (f : Nat → ℝ) (idx : Fin 3 → Nat) (v : V3 ℝ) : Nat → ℝ := Function.update (Function.update (Function.update f (idx 0) v.x) (idx 1) v.y) (idx 2) v.z

theorem turn_step {c : Conv} {convOf : Nat → Conv} {twoD : Bool} {s : Animated} (h : s.Tame c convOf twoD) (n : Nat) {idx : Fin 3 → Nat}
    (hi : Function.Injective idx) (hb : ∀ i, idx i < 16) {t : ℝ} {f : Nat → ℝ} (hf : ShowsAll twoD n s t f) :
    (convertVect3 c convOf idx s).Tame c convOf twoD ∧
      ShowsAll twoD n (convertVect3 c convOf idx s) t (putF f idx (c.turn ⟨f (idx 0), f (idx 1), f (idx 2)⟩)) := by
  rw [convertVect3_eq]
  obtain ⟨h1, h2, h3⟩ := vector_step h n false false hi
  refine ⟨h1, ?_⟩
  have e : ∀ v, c.by false false v = c.turn v := by intro v; simp [Conv.by, Conv.turnBy, V3.smul]
  have h2 := h2 t ⟨f (idx 0), f (idx 1), f (idx 2)⟩ ⟨hf _ (hb 0), hf _ (hb 1), hf _ (hb 2)⟩
  simp only [e] at h2 h3 ⊢
  rw [shows_iff] at h2
  have n01 : idx 0 ≠ idx 1 := fun e => absurd (hi e) (by decide)
  have n02 : idx 0 ≠ idx 2 := fun e => absurd (hi e) (by decide)
  have n12 : idx 1 ≠ idx 2 := fun e => absurd (hi e) (by decide)
  intro k hk
  by_cases hm : ∃ i, k = idx i
  · obtain ⟨i, rfl⟩ := hm
    rw [h2 i]
    fin_cases i <;> simp [putF, comp, n01, n02, n12]
  · push Not at hm
    rw [h3 k hm, hf k hk]
    simp [putF, hm]

theorem length_step {c : Conv} {convOf : Nat → Conv} {twoD : Bool} {s : Animated} (h : s.Tame c convOf twoD) (n : Nat) (k : Nat) {t : ℝ} {f : Nat → ℝ}
    (hf : ShowsAll twoD n s t f) :
    (convertFl c convOf k s).Tame c convOf twoD ∧ ShowsAll twoD n (convertFl c convOf k s) t (Function.update f k (c.factor * f k)) := by
  obtain ⟨h1, h2, h3⟩ := float_step h n k
  refine ⟨h1, ?_⟩
  intro j hj
  by_cases e : j = k
  · subst e
    rw [h2, hf j hj]
    simp
  · rw [h3 j e, hf j hj]
    simp [e]

theorem row_injective (r : Nat) : Function.Injective (row r) := by
  intro i j h
  simp only [row] at h
  omega

theorem column_injective (r : Nat) : Function.Injective (column r) := by
  intro i j h
  simp only [column] at h
  omega

/-- The elements of a matrix, by index. -/
def elements (m : M44 ℝ) : Nat → ℝ
  | 0 => m.m00 | 1 => m.m01 | 2 => m.m02 | 3 => m.m03
  | 4 => m.m10 | 5 => m.m11 | 6 => m.m12 | 7 => m.m13
  | 8 => m.m20 | 9 => m.m21 | 10 => m.m22 | 11 => m.m23
  | 12 => m.m30 | 13 => m.m31 | 14 => m.m32 | _ => m.m33

theorem showsMatrix_iff (twoD : Bool) (n : Nat) (s : Animated) (t : ℝ) (m : M44 ℝ) : s.ShowsMatrix twoD n t m ↔ ShowsAll twoD n s t (elements m) := by
  constructor
  · rintro ⟨⟨a0, a1, a2⟩, ⟨b0, b1, b2⟩, ⟨c0, c1, c2⟩, ⟨d0, d1, d2⟩, e0, e1, e2, e3⟩ k hk
    simp only [row] at a0 a1 a2 b0 b1 b2 c0 c1 c2 d0 d1 d2
    interval_cases k <;> assumption
  · intro h
    exact ⟨⟨h 0 (by omega), h 1 (by omega), h 2 (by omega)⟩, ⟨h 4 (by omega), h 5 (by omega), h 6 (by omega)⟩, ⟨h 8 (by omega), h 9 (by omega), h 10 (by omega)⟩,
      ⟨h 12 (by omega), h 13 (by omega), h 14 (by omega)⟩, h 3 (by omega), h 7 (by omega), h 11 (by omega), h 15 (by omega)⟩

theorem matrix_step {c : Conv} {convOf : Nat → Conv} {twoD : Bool} {s : Animated} (h : s.Tame c convOf twoD) (n : Nat) {t : ℝ} {m : M44 ℝ}
    (hm : s.ShowsMatrix twoD n t m) :
    (convertMat44 c convOf s).Tame c convOf twoD ∧ (convertMat44 c convOf s).ShowsMatrix twoD n t (convertMatrix c m) := by
  rw [showsMatrix_iff] at hm ⊢
  obtain ⟨h, hm⟩ := turn_step h n (row_injective 0) (by intro i; simp only [row]; omega) hm
  obtain ⟨h, hm⟩ := turn_step h n (row_injective 1) (by intro i; simp only [row]; omega) hm
  obtain ⟨h, hm⟩ := turn_step h n (row_injective 2) (by intro i; simp only [row]; omega) hm
  obtain ⟨h, hm⟩ := turn_step h n (column_injective 0) (by intro i; simp only [column]; omega) hm
  obtain ⟨h, hm⟩ := turn_step h n (column_injective 1) (by intro i; simp only [column]; omega) hm
  obtain ⟨h, hm⟩ := turn_step h n (column_injective 2) (by intro i; simp only [column]; omega) hm
  obtain ⟨h, hm⟩ := turn_step h n (row_injective 3) (by intro i; simp only [row]; omega) hm
  obtain ⟨h, hm⟩ := length_step h n 12 hm
  obtain ⟨h, hm⟩ := length_step h n 13 hm
  obtain ⟨h, hm⟩ := length_step h n 14 hm
  refine ⟨h, ?_⟩
  intro k hk
  refine (hm k hk).trans ?_
  congr 1
  clear hm h
  interval_cases k <;> simp [putF, row, column, elements, convertMatrix, Conv.lengthen, V3.smul]

theorem element_injective (stride j : Nat) : Function.Injective (element stride j) := by
  intro a b h
  simp only [element] at h
  omega

theorem vector_empty (convOf : Nat → Conv) (len isScale : Bool) {idx : Fin 3 → Nat} {s : Animated} (h : s.any idx = false) : convertVector3 convOf len isScale idx s = s := by
  simp only [Animated.any, Bool.or_eq_false_iff, Bool.not_eq_false', List.isEmpty_iff] at h
  obtain ⟨⟨h0, h1⟩, h2⟩ := h
  have e : ∀ (l : Nat → List Nat) k, l k = [] → Function.update l k [] = l := by
    intro l k h; rw [← h]; simp
  simp only [convertVector3, h0, h1, h2, List.foldl_nil, Animated.remove]
  rw [e _ _ h0, e _ _ h1, e _ _ h2]

theorem turnPosition_eq (c : Conv) (convOf : Nat → Conv) (stride : Nat) (s : Animated) (j : Nat) : turnPosition c convOf stride s j = convertVect3 c convOf (element stride j) s := by
  simp only [turnPosition, convertVect3]
  split
  · rfl
  · next h => exact (vector_empty _ _ _ (by simpa using h)).symm

theorem scaleNumber_eq (c : Conv) (convOf : Nat → Conv) (s : Animated) (k : Nat) : scaleNumber c convOf s k = convertFl c convOf k s := by
  simp only [scaleNumber, convertFl]
  split
  · next h => rw [convertFloat]; rw [List.isEmpty_iff] at h; simp only [h, List.foldl_nil]
  · rfl

theorem element_apart {stride j j' : Nat} (hs : 3 ≤ stride) (h : j ≠ j') (a b : Fin 3) : element stride j a ≠ element stride j' b := by
  simp only [element]
  intro e
  rcases Nat.lt_or_gt_of_ne h with h | h
  · have := Nat.mul_le_mul_left stride (show j + 1 ≤ j' from h)
    rw [Nat.mul_add] at this
    omega
  · have := Nat.mul_le_mul_left stride (show j' + 1 ≤ j from h)
    rw [Nat.mul_add] at this
    omega

theorem by_turn (c : Conv) (v : V3 ℝ) : c.by false false v = c.turn v := by simp [Conv.by, Conv.turnBy, V3.smul]

theorem positions_turned {c : Conv} {convOf : Nat → Conv} {twoD : Bool} (n : Nat) {stride : Nat} (hs : 3 ≤ stride) {t : ℝ} :
    ∀ (l : List Nat), l.Nodup → ∀ s : Animated, s.Tame c convOf twoD →
      (l.foldl (turnPosition c convOf stride) s).Tame c convOf twoD ∧
      (∀ j ∈ l, ∀ v, s.Shows twoD n (element stride j) t v → (l.foldl (turnPosition c convOf stride) s).Shows twoD n (element stride j) t (c.turn v)) ∧
      (∀ j, j ∉ l → ∀ v, s.Shows twoD n (element stride j) t v → (l.foldl (turnPosition c convOf stride) s).Shows twoD n (element stride j) t v) := by
  intro l
  induction l with
  | nil => exact fun _ s h => ⟨h, fun _ h => absurd h List.not_mem_nil, fun _ _ _ h => h⟩
  | cons a l ih =>
    intro hd s h
    have hd := List.nodup_cons.mp hd
    obtain ⟨h1, h2, h3⟩ := vector_step h n false false (element_injective stride a)
    rw [← convertVect3_eq] at h1 h2 h3
    have hother : ∀ j, j ≠ a → ∀ v, s.Shows twoD n (element stride j) t v → (convertVect3 c convOf (element stride a) s).Shows twoD n (element stride j) t v := by
      intro j hj v hv
      rw [shows_iff] at hv ⊢
      intro i
      rw [h3 _ (fun i' => element_apart hs hj i i')]
      exact hv i
    rw [List.foldl_cons, turnPosition_eq]
    obtain ⟨g1, g2, g3⟩ := ih hd.2 _ h1
    refine ⟨g1, ?_, ?_⟩
    · intro j hj v hv
      rcases List.mem_cons.mp hj with rfl | hj
      · have := h2 t v hv
        rw [by_turn] at this
        exact g3 j hd.1 _ this
      · exact g2 j hj v (hother j (fun e => hd.1 (e ▸ hj)) v hv)
    · intro j hj v hv
      rw [List.mem_cons, not_or] at hj
      exact g3 j hj.2 v (hother j hj.1 v hv)

theorem numbers_scaled {c : Conv} {convOf : Nat → Conv} {twoD : Bool} (n : Nat) {t : ℝ} :
    ∀ (l : List Nat), l.Nodup → ∀ s : Animated, s.Tame c convOf twoD →
      (l.foldl (scaleNumber c convOf) s).Tame c convOf twoD ∧
      (∀ k ∈ l, ∀ y, s.at twoD n k t = some y → (l.foldl (scaleNumber c convOf) s).at twoD n k t = some (c.factor * y)) ∧
      (∀ k, k ∉ l → ∀ y, s.at twoD n k t = some y → (l.foldl (scaleNumber c convOf) s).at twoD n k t = some y) := by
  intro l
  induction l with
  | nil => exact fun _ s h => ⟨h, fun _ h => absurd h List.not_mem_nil, fun _ _ _ h => h⟩
  | cons a l ih =>
    intro hd s h
    have hd := List.nodup_cons.mp hd
    obtain ⟨h1, h2, h3⟩ := float_step h n a
    rw [List.foldl_cons, scaleNumber_eq]
    obtain ⟨g1, g2, g3⟩ := ih hd.2 _ h1
    refine ⟨g1, ?_, ?_⟩
    · intro k hk y hy
      rcases List.mem_cons.mp hk with rfl | hk
      · exact g3 k hd.1 _ (by rw [h2, hy]; rfl)
      · exact g2 k hk y (by rw [h3 k (fun e => hd.1 (e ▸ hk)), hy])
    · intro k hk y hy
      rw [List.mem_cons, not_or] at hk
      exact g3 k hk.2 y (by rw [h3 k hk.1, hy])

theorem turnNormal_later {c : Conv} {convOf : Nat → Conv} {stride : Nat} (hs : 3 ≤ stride) (s : Animated) {j : Nat} (hj : j ≠ 0) :
    turnNormal c convOf stride s j = some (s.put (element stride j) (c.turn (s.get (element stride j)))) := by
  have hne : ∀ i : Fin 3, element 1 j i ≠ element stride j i := by
    intro i
    simp only [element]
    have : j * 3 ≤ stride * j := by rw [Nat.mul_comm]; exact Nat.mul_le_mul_right j hs
    omega
  simp [turnNormal, hne]

/-- The curves and their places are the same. -/
def SameCurves (a b : Animated) : Prop := b.lists = a.lists ∧ b.heap = a.heap

theorem normals_later {c : Conv} {convOf : Nat → Conv} {stride : Nat} (hs : 3 ≤ stride) : ∀ (l : List Nat), 0 ∉ l → ∀ s : Animated,
    ∃ s', l.foldlM (turnNormal c convOf stride) s = some s' ∧ SameCurves s s' := by
  intro l
  induction l with
  | nil => exact fun _ s => ⟨s, rfl, rfl, rfl⟩
  | cons a l ih =>
    intro h s
    rw [List.mem_cons, not_or] at h
    obtain ⟨s', e, g⟩ := ih h.2 (s.put (element stride a) (c.turn (s.get (element stride a))))
    refine ⟨s', ?_, g.1, g.2⟩
    rw [List.foldlM_cons, turnNormal_later hs s (fun e => h.1 e.symm)]
    exact e

/-- The curves of the numbers behind the first normal stay as they are. -/
theorem normals_kept {c : Conv} {convOf : Nat → Conv} {twoD : Bool} {stride : Nat} (hs : 3 ≤ stride) (count : Nat) {s : Animated} (h : s.Tame c convOf twoD) :
    ∃ s', convertNormals c convOf stride count s = some s' ∧ ∀ k, 3 ≤ k → s'.lists k = s.lists k ∧ ∀ id ∈ s.lists k, s'.heap id = s.heap id := by
  rw [convertNormals]
  split
  · cases count with
    | zero => exact ⟨s, rfl, fun _ _ => ⟨rfl, fun _ _ => rfl⟩⟩
    | succ m =>
      rw [List.range_succ_eq_map, List.foldlM_cons]
      have he : element 1 0 = element stride 0 := by funext i; simp [element]
      have h0 : turnNormal c convOf stride s 0 = some (convertVect3 c convOf (element stride 0) s) := by
        simp only [turnNormal, convertVect3, he]
        by_cases hany : (s.put (element stride 0) (c.turn (s.get (element stride 0)))).any (element stride 0) = true
        · simp [hany]
        · have := vector_empty convOf false false (by simpa using hany)
          simp [hany, this]
      rw [h0]
      obtain ⟨s', e, g1, g2⟩ := normals_later (c := c) (convOf := convOf) hs ((List.range m).map Nat.succ) (by simp) (convertVect3 c convOf (element stride 0) s)
      refine ⟨s', e, ?_⟩
      intro k hk
      have h' : (s.put (element stride 0) (c.turn (s.get (element stride 0)))).Tame c convOf twoD := ⟨h.apart, h.once, h.conv, h.keys⟩
      obtain ⟨-, -, p2, -, p4⟩ := vector_lists h' false false (element_injective stride 0)
      have hk' : ∀ i, k ≠ element stride 0 i := by intro i; simp only [element]; omega
      constructor
      · rw [g1]; exact p2 k hk'
      · intro id hid
        rw [g2]; exact p4 id (fun i => h.apart _ _ (hk' i) id hid)
  · exact ⟨s, rfl, fun _ _ => ⟨rfl, fun _ _ => rfl⟩⟩

end

end Verif.FStd
