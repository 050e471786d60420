import Verif.CurveMultiEval
import Mathlib.Algebra.Order.Ring.Abs
import Mathlib.Data.Rat.Floor

/-!
# Properties of merged curves (C51, C81)
-/

namespace Verif.Curve

variable {K : Type} [Field K] [LinearOrder K] [IsStrictOrderedRing K] [FloorRing K]

/-- C51: curves, at least one of them there, whose keys are in order and at least the tolerance apart are merged into a curve with one dimension for each, whose
keys are in strictly increasing order of time, are all at the time of a source key and have a value for each dimension. Every source key has a merged key within
the tolerance of it, which has its value in the dimension of its curve. The value of any merged key in the dimension of a curve is that of such a source key, or
else the curve is sampled; without a curve, or for a curve without keys, it is the default value. Missing: keys closer than the tolerance, see
`merge_order_violated`. -/
theorem merge_partial (twoD : Bool) {n : Nat} (hn : 12 ≤ n) {toMerge : List (Option (CurveData K))} (hs : AllSpaced toMerge) (hsome : ∃ c, some c ∈ toMerge) (defaults : List K) :
    ∃ m, mergeCurves twoD n toMerge defaults = some (some m) ∧ m.dimension = toMerge.length ∧ (m.keys.Pairwise fun a b => a.input < b.input) ∧
      (∀ key ∈ m.keys, key.dims.length = toMerge.length ∧ ∃ k, HasKey toMerge k ∧ key.input = k.input) ∧
      (∀ (i : Nat) c, toMerge[i]? = some (some c) → c.keys ≠ [] →
        (∀ k ∈ c.keys, ∃ key ∈ m.keys, |key.input - k.input| < 1 / 10000 ∧ (key.dims[i]?).map (·.output) = some k.output) ∧
        (∀ key ∈ m.keys, (∃ k ∈ c.keys, |key.input - k.input| < 1 / 10000 ∧ (key.dims[i]?).map (·.output) = some k.output) ∨
          (key.dims[i]?).map (·.output) = evaluate twoD n c.pre c.post c.keys key.input)) ∧
      (∀ (i : Nat) c, toMerge[i]? = some c → (∀ d, c = some d → d.keys = []) → ∀ key ∈ m.keys, (key.dims[i]?).map (·.output) = some (defaults[i]?.getD 0)) := by
  obtain ⟨m, h1, h2, h3, h4, h5⟩ := merge_shape twoD hn (fun c hc => (hs c hc).sorted) hsome defaults
  have hsorted : TSorted (mergeTimes toMerge) := fold_sorted toMerge hs [] (by simp [TSorted])
  refine ⟨m, h1, h2, ?_, ?_, ?_, ?_⟩
  · rw [← h3, TSorted, List.pairwise_map] at hsorted
    exact hsorted
  · intro key hkey
    refine ⟨h4 key hkey, ?_⟩
    have hmem : (key.input, key.interp) ∈ mergeTimes toMerge := by
      rw [← h3]
      exact List.mem_map.2 ⟨key, hkey, rfl⟩
    rcases fold_mem toMerge [] hmem with ⟨_, h, _⟩ | ⟨k, hk, e⟩
    · simp at h
    · exact ⟨k, hk, e⟩
  · intro i c hi hne
    obtain ⟨col, hcol, hat⟩ := h5 i _ hi
    rw [dimColumn, if_neg hne] at hcol
    obtain ⟨v1, v2, v3⟩ := column_values _ _ _ _ _ hcol (fold_found toMerge [] (List.mem_of_getElem? hi))
    constructor
    · intro k hk
      obtain ⟨j, t, d, j1, j2, j3, j4⟩ := v3 k hk
      rw [times_at h3, Option.map_eq_some_iff] at j1
      obtain ⟨key, j1, rfl⟩ := j1
      exact ⟨key, List.mem_of_getElem? j1, close_abs.1 j3, by rw [hat j key j1, j2, Option.map_some, j4]⟩
    · intro key hkey
      obtain ⟨j, hj⟩ := List.mem_iff_getElem?.1 hkey
      obtain ⟨d, d1, d2⟩ := v2 j (key.input, key.interp) (by rw [times_at h3, hj]; rfl)
      rw [hat j key hj, d1, Option.map_some]
      rcases d2 with ⟨k, k1, k2, k3⟩ | d2
      · exact .inl ⟨k, k1, close_abs.1 k2, by rw [k3]⟩
      · exact .inr d2.symm
  · intro i c hi hd key hkey
    obtain ⟨col, hcol, hat⟩ := h5 i _ hi
    obtain ⟨j, hj⟩ := List.mem_iff_getElem?.1 hkey
    have hdef : col = defaultColumn (defaults[i]?.getD 0) none (mergeTimes toMerge) := by
      cases c with
      | none => exact (Option.some.inj hcol).symm
      | some c =>
        rw [dimColumn, if_pos (hd c rfl)] at hcol
        exact (Option.some.inj hcol).symm
    obtain ⟨l1, l2⟩ := defaultColumn_values (defaults[i]?.getD 0) (mergeTimes toMerge) none
    have hlt : j < col.length := by
      rw [hdef, l1, ← h3, List.length_map]
      exact (List.getElem?_eq_some_iff.1 hj).1
    rw [hat j key hj, List.getElem?_eq_getElem hlt, Option.map_some]
    congr 1
    exact l2 _ (hdef ▸ List.getElem_mem hlt)

/-- C51: if the keys of all the curves are at the same time or the tolerance apart, the times of the merged keys are exactly those of the source keys, and the
value of a merged key in the dimension of a curve is that of the key of the curve at this time, or that of the curve at this time if there is no such key. -/
theorem merge_exact (twoD : Bool) {n : Nat} (hn : 12 ≤ n) {toMerge : List (Option (CurveData K))} (hs : AllSpaced toMerge) (ha : Apart toMerge) (hsome : ∃ c, some c ∈ toMerge)
    (defaults : List K) :
    ∃ m, mergeCurves twoD n toMerge defaults = some (some m) ∧ (m.keys.Pairwise fun a b => a.input < b.input) ∧
      (∀ x, (∃ key ∈ m.keys, key.input = x) ↔ ∃ k, HasKey toMerge k ∧ k.input = x) ∧
      ∀ (i : Nat) c, toMerge[i]? = some (some c) → c.keys ≠ [] → ∀ key ∈ m.keys,
        (∃ k ∈ c.keys, k.input = key.input ∧ (key.dims[i]?).map (·.output) = some k.output) ∨
        ((∀ k ∈ c.keys, k.input ≠ key.input) ∧ (key.dims[i]?).map (·.output) = evaluate twoD n c.pre c.post c.keys key.input) := by
  obtain ⟨m, h1, h2, h3, h4, h5, -⟩ := merge_partial twoD hn hs hsome defaults
  have heq : ∀ key ∈ m.keys, ∀ k, HasKey toMerge k → |key.input - k.input| < 1 / 10000 → key.input = k.input := by
    intro key hkey k hk hlt
    obtain ⟨j, hj, e⟩ := (h4 key hkey).2
    rw [abs_sub_lt_iff] at hlt
    rcases lt_trichotomy key.input k.input with h | h | h
    · rw [e] at h hlt
      have := ha j k hj hk h
      linarith [hlt.2]
    · exact h
    · rw [e] at h hlt
      have := ha k j hk hj h
      linarith [hlt.1]
  have key_eq : ∀ a ∈ m.keys, ∀ b ∈ m.keys, a.input = b.input → a = b := by
    intro a hma b hmb e
    obtain ⟨i, hi, rfl⟩ := List.mem_iff_getElem.1 hma
    obtain ⟨j, hj, rfl⟩ := List.mem_iff_getElem.1 hmb
    rcases Nat.lt_trichotomy i j with h | rfl | h
    · exact absurd e (ne_of_lt (List.pairwise_iff_getElem.1 h3 i j hi hj h))
    · rfl
    · exact absurd e.symm (ne_of_lt (List.pairwise_iff_getElem.1 h3 j i hj hi h))
  refine ⟨m, h1, h3, fun x => ⟨?_, ?_⟩, ?_⟩
  · rintro ⟨key, hkey, rfl⟩
    obtain ⟨k, hk, e⟩ := (h4 key hkey).2
    exact ⟨k, hk, e.symm⟩
  · rintro ⟨k, ⟨c, hc, hk⟩, rfl⟩
    obtain ⟨i, hi⟩ := List.mem_iff_getElem?.1 hc
    obtain ⟨key, k1, k2, _⟩ := (h5 i c hi (by rintro e; simp [e] at hk)).1 k hk
    exact ⟨key, k1, heq key k1 k ⟨c, hc, hk⟩ k2⟩
  · intro i c hi hne key hkey
    have hc : some c ∈ toMerge := List.mem_of_getElem? hi
    obtain ⟨a, b⟩ := h5 i c hi hne
    by_cases hex : ∃ k ∈ c.keys, k.input = key.input
    · obtain ⟨k, k1, k2⟩ := hex
      obtain ⟨key', k3, k4, k5⟩ := a k k1
      have : key' = key := key_eq _ k3 _ hkey ((heq key' k3 k ⟨c, hc, k1⟩ k4).trans k2)
      subst this
      exact .inl ⟨k, k1, k2, k5⟩
    · push Not at hex
      rcases b key hkey with ⟨k, k1, k2, _⟩ | h
      · exact absurd (heq key hkey k ⟨c, hc, k1⟩ k2).symm (hex k k1)
      · exact .inr ⟨hex, h⟩

/-! ## One curve -/

/-- C51: merging one curve gives a curve of one dimension with the same keys: times, values, interpolations, tangents and TCB values. -/
theorem merge_single (twoD : Bool) (n : Nat) (c : CurveData K) (hs : Sorted c.keys) (defaults : List K) :
    mergeCurves twoD n [some c] defaults = some (some { dimension := 1, pre := c.pre, post := c.post, keys := c.keys.map single }) := by
  have ht : mergeTimes [some c] = c.keys.map fun k => (k.input, k.interp) := by
    rw [mergeTimes_eq]
    exact mergeLoop_nil c.keys
  obtain ⟨col, h1, h2⟩ := column_self (eval := evaluate twoD n c.pre c.post c.keys) c.keys none hs (by simp)
  have hdim : ∀ d, dimColumn twoD n (mergeTimes [some c]) (some c) d = some col := by
    intro d
    rw [dimColumn, ht]
    by_cases he : c.keys = []
    · rw [if_pos he]
      have : col = [] := by simpa [he, column] using h1.symm
      simp [he, defaultColumn, this]
    · rw [if_neg he]
      exact h1
  have hlen : col.length = c.keys.length := by
    have := congrArg List.length h2
    simpa using this.symm
  simp only [mergeCurves, List.findSome?_cons, id, columns, hdim, Option.bind_some, Option.map_some, List.length_cons, List.length_nil]
  congr 3
  apply List.ext_getElem?
  intro k
  rw [assemble_at, ht, List.getElem?_map, List.getElem?_map]
  cases hk : c.keys[k]? with
  | none => rfl
  | some key =>
    have hlt : k < c.keys.length := (List.getElem?_eq_some_iff.1 hk).1
    have hd : ((c.keys.map single).map (·.dims))[k]? = (col.map fun d => [d])[k]? := by rw [h2]
    simp only [List.getElem?_map, hk, Option.map_some, List.getElem?_eq_getElem (hlen ▸ hlt)] at hd
    simp only [Option.map_some, Option.some_inj, List.filterMap_cons, List.getElem?_eq_getElem (hlen ▸ hlt), List.filterMap_nil]
    rw [← Option.some.inj hd]
    rfl

/-! ## Sampling -/

/-- C81: if all keys of the curves are LINEAR, the infinities CONSTANT, and the keys of all curves at the same time or the tolerance apart, then the merged curve
has, at every time and in the dimension of each curve with keys, the value of this curve, and in the dimension of a missing or empty curve the default value, if
any curve has a key. Missing: other interpolations and infinities, see `merged_step_violated`, `merged_bezier_violated` and `merged_infinity_violated`. -/
theorem merged_sample_partial (twoD : Bool) {n : Nat} (hn : 12 ≤ n) {toMerge : List (Option (CurveData K))} (hs : AllSpaced toMerge) (ha : Apart toMerge)
    (hsome : ∃ c, some c ∈ toMerge) (hlin : ∀ k, HasKey toMerge k → k.interp = .linear) (hinf : ∀ c, some c ∈ toMerge → c.pre = .constant ∧ c.post = .constant)
    (defaults : List K) :
    ∃ m, mergeCurves twoD n toMerge defaults = some (some m) ∧
      (∀ (i : Nat) c, toMerge[i]? = some (some c) → c.keys ≠ [] → ∀ x, mEvaluate twoD n m x i = evaluate twoD n c.pre c.post c.keys x) ∧
      (∀ (i : Nat) c, toMerge[i]? = some c → (∀ d, c = some d → d.keys = []) → (∃ k, HasKey toMerge k) → ∀ x, mEvaluate twoD n m x i = some (defaults[i]?.getD 0)) := by
  obtain ⟨m, h1, h2, h3, h4, -⟩ := merge_shape twoD hn (fun c hc => (hs c hc).sorted) hsome defaults
  obtain ⟨m', g1, g2, g3, g4⟩ := merge_exact twoD hn hs ha hsome defaults
  obtain ⟨m'', f1, -, -, -, -, f2⟩ := merge_partial twoD hn hs hsome defaults
  obtain rfl : m = m' := Option.some.inj (Option.some.inj (h1.symm.trans g1))
  obtain rfl : m = m'' := Option.some.inj (Option.some.inj (h1.symm.trans f1))
  have hl : ∀ k ∈ m.keys, k.interp = .linear := by
    intro k hk
    have : (k.input, k.interp) ∈ mergeTimes toMerge := by
      rw [← h3]
      exact List.mem_map.2 ⟨k, hk, rfl⟩
    exact fold_linear toMerge [] (by simp) hlin _ this
  have hdim : ∀ {i : Nat} {c}, toMerge[i]? = some c → i < m.dimension := by
    intro i c hi
    rw [h2]
    exact (List.getElem?_eq_some_iff.1 hi).1
  have hds : ∀ {i : Nat} {c}, toMerge[i]? = some c → ∀ k ∈ m.keys, ∃ d, k.dims[i]? = some d := by
    intro i c hi k hk
    have : i < k.dims.length := by
      rw [h4 k hk]
      exact (List.getElem?_eq_some_iff.1 hi).1
    exact ⟨_, List.getElem?_eq_getElem this⟩
  have hkeys : (∃ k, HasKey toMerge k) → m.keys ≠ [] := by
    rintro ⟨k, hk⟩ e
    obtain ⟨key, hkey, _⟩ := (g3 k.input).2 ⟨k, hk, rfl⟩
    simp [e] at hkey
  refine ⟨m, h1, ?_, ?_⟩
  · intro i c hi hne x
    have hc : some c ∈ toMerge := List.mem_of_getElem? hi
    obtain ⟨p1, p2⟩ := hinf c hc
    have hcs : Sorted c.keys := (hs c hc).sorted
    have hcl : ∀ k ∈ c.keys, k.interp = .linear := fun k hk => hlin k ⟨c, hc, hk⟩
    have hin : ∀ k ∈ c.keys, ∃ key ∈ m.keys, key.input = k.input := fun k hk => (g3 k.input).2 ⟨k, ⟨c, hc, hk⟩, rfl⟩
    obtain ⟨k0, hk0⟩ := List.exists_mem_of_ne_nil _ hne
    refine mEvaluate_line twoD n g2 (hkeys ⟨k0, c, hc, hk0⟩) hl (hdim hi) (f := evaluate twoD n c.pre c.post c.keys) ?_ (hds hi) x ?_ ?_
    · intro key hkey
      rcases g4 i c hi hne key hkey with ⟨k, e1, e2, e3⟩ | ⟨_, e⟩
      · rw [e3, ← e2, linear_at twoD n _ _ hcs hcl e1]
      · exact e
    · intro k hk h
      rw [p1, p2]
      refine constant_outside twoD n hcs hcl ?_
      rcases h with h | h
      · left
        intro j hj
        obtain ⟨key, q1, q2⟩ := hin j hj
        rw [← q2]
        exact h key q1
      · right
        intro j hj
        obtain ⟨key, q1, q2⟩ := hin j hj
        rw [← q2]
        exact h key q1
    · intro a _ b _ hax hxb hno
      rw [p1, p2]
      refine linear_line twoD n hne hcs hcl (lt_of_le_of_lt hax hxb) hax (le_of_lt hxb) ?_
      intro k hk
      obtain ⟨key, q1, q2⟩ := hin k hk
      rw [← q2]
      exact hno key q1
  · intro i c hi hd hex x
    refine mEvaluate_line twoD n g2 (hkeys hex) hl (hdim hi) (f := fun _ => some (defaults[i]?.getD 0)) (f2 i c hi hd) (hds hi) x (fun _ _ _ => rfl) ?_
    intro a _ b _ _ _ _
    exact ⟨_, _, rfl, rfl, by simp⟩

/-! ## Collapsing -/

omit [LinearOrder K] [IsStrictOrderedRing K] [FloorRing K] in
/-- C51: a merged curve without Bezier keys is collapsed to one with the same times and interpolations, whose values are those of the collapse function. Missing:
Bezier keys, see `collapse_violated`. -/
theorem collapse_partial (f : List K → Option K) (m : Multi K) (hne : m.keys ≠ []) (hdim : m.dimension ≠ 0) (hb : ∀ k ∈ m.keys, k.interp ≠ .bezier)
    (hf : ∀ k ∈ m.keys, ∃ y, f (k.dims.map (·.output)) = some y) :
    ∃ keys, collapse f m = some (some keys) ∧ keys.map (fun k => (k.input, k.interp, some k.output)) = m.keys.map fun k => (k.input, k.interp, f (k.dims.map (·.output))) := by
  rw [collapse, if_neg (by simp [hne, hdim])]
  have : ∀ l : List (MKey K), (∀ k ∈ l, k.interp ≠ .bezier) → (∀ k ∈ l, ∃ y, f (k.dims.map (·.output)) = some y) →
      ∃ keys, l.mapM (collapseKey f) = some keys ∧ keys.map (fun k => (k.input, k.interp, some k.output)) = l.map fun k => (k.input, k.interp, f (k.dims.map (·.output))) := by
    intro l
    induction l with
    | nil => intro _ _; exact ⟨[], rfl, rfl⟩
    | cons k ks ih =>
      intro h1 h2
      obtain ⟨keys, e1, e2⟩ := ih (fun k hk => h1 k (by simp [hk])) (fun k hk => h2 k (by simp [hk]))
      obtain ⟨y, hy⟩ := h2 k (by simp)
      rw [List.mapM_cons, collapseKey, if_neg (h1 k (by simp)), hy, e1]
      exact ⟨_, rfl, by simp [e2, hy]⟩
  obtain ⟨keys, e1, e2⟩ := this m.keys hb hf
  exact ⟨keys, by rw [e1]; rfl, e2⟩

omit [IsStrictOrderedRing K] in
/-- C51: collapsing with `Average` gives each key the average of its outputs: the number which, taken as often as there are outputs, has the same sum. Missing:
Bezier keys, see `collapse_violated`. -/
theorem collapse_average_partial (m : Multi K) (hne : m.keys ≠ []) (hdim : m.dimension ≠ 0) (hb : ∀ k ∈ m.keys, k.interp ≠ .bezier)
    (hd : ∀ k ∈ m.keys, k.dims.length = m.dimension) :
    ∃ keys, collapse average m = some (some keys) ∧ keys.length = m.keys.length ∧ ∀ (i : Nat) (a : Key K) (k : MKey K), keys[i]? = some a → m.keys[i]? = some k →
      a.input = k.input ∧ a.interp = k.interp ∧ (List.replicate m.dimension a.output).sum = (k.dims.map (·.output)).sum := by
  have hav : ∀ k ∈ m.keys, ∃ y, average (k.dims.map (·.output)) = some y ∧ (List.replicate m.dimension y).sum = (k.dims.map (·.output)).sum := by
    intro k hk
    have hz : ((k.dims.map (·.output)).length : K) ≠ 0 := by
      rw [List.length_map, hd k hk]
      exact_mod_cast hdim
    refine ⟨_, by rw [average, div, if_neg hz], ?_⟩
    rw [List.sum_replicate, nsmul_eq_mul]
    rw [List.length_map, hd k hk] at hz ⊢
    field_simp
  obtain ⟨keys, e1, e2⟩ := collapse_partial average m hne hdim hb fun k hk => (hav k hk).imp fun _ h => h.1
  refine ⟨keys, e1, by simpa using congrArg List.length e2, ?_⟩
  intro i a k ha hk
  have := congrArg (·[i]?) e2
  simp only [List.getElem?_map, ha, hk, Option.map_some, Option.some.injEq, Prod.mk.injEq] at this
  obtain ⟨y, hy, hs⟩ := hav k (List.mem_of_getElem? hk)
  obtain ⟨h1, h2, h3⟩ := this
  rw [hy, Option.some.injEq] at h3
  exact ⟨h1, h2, by rw [h3]; exact hs⟩

/-! ## Samples and violations -/

def linearA : CurveData ℚ := ⟨.constant, .constant, [key 0 0 .linear, key 1 2 .linear, key 3 0 .linear]⟩

def linearB : CurveData ℚ := ⟨.constant, .constant, [key (1 / 2) 4 .linear, key 1 5 .linear]⟩

def stepB : CurveData ℚ := ⟨.constant, .constant, [key (1 / 2) 4 .step, key 1 5 .step]⟩

def bezierA : CurveData ℚ := ⟨.constant, .constant, [⟨0, 1, .bezier, (-1 / 3, 1), (1 / 2, 1), 0, 0, 0⟩, ⟨1, 1, .bezier, (1 / 2, 1), (4 / 3, 1), 0, 0, 0⟩]⟩

example : AllSpaced [some linearA, none, some linearB] ∧ (∃ c, some c ∈ [some linearA, none, some linearB]) ∧
    (mergeTimes [some linearA, none, some linearB]).map (·.1) = [0, 1 / 2, 1, 3] ∧
    (mergeCurves true 12 [some linearA, none, some linearB] [7, 8]).map (·.map fun m => m.keys.map fun k => k.dims.map (·.output)) =
      some (some [[0, 8, 4], [1, 8, 4], [2, 8, 5], [0, 8, 5]]) := by
  refine ⟨?_, ⟨linearA, by simp⟩, ?_, ?_⟩
  · intro c hc
    simp only [List.mem_cons, List.not_mem_nil, or_false, Option.some.injEq, reduceCtorEq, false_or] at hc
    rcases hc with rfl | rfl
    · unfold Spaced; decide +kernel
    · unfold Spaced; decide +kernel
  · decide +kernel
  · decide +kernel

example : Apart [some linearA, none, some linearB] ∧ (∀ k, HasKey [some linearA, none, some linearB] k → k.interp = .linear) := by
  have hk : ∀ k, HasKey [some linearA, none, some linearB] k → k ∈ linearA.keys ++ linearB.keys := by
    rintro k ⟨c, hc, hk⟩
    simp only [List.mem_cons, List.not_mem_nil, or_false, Option.some.injEq, reduceCtorEq, false_or] at hc
    rcases hc with rfl | rfl
    · simp [hk]
    · simp [hk]
  have h1 : ∀ j ∈ linearA.keys ++ linearB.keys, ∀ k ∈ linearA.keys ++ linearB.keys, j.input < k.input → j.input + 1 / 10000 ≤ k.input := by decide +kernel
  have h2 : ∀ k ∈ linearA.keys ++ linearB.keys, k.interp = .linear := by decide +kernel
  exact ⟨fun j k hj h => h1 j (hk j hj) k (hk k h), fun k h => h2 k (hk k h)⟩

/-- C51 fails for keys closer than the tolerance: with keys at 0.00008 and 1 in one curve and at 0 and 0.00002 in another, both in order, the merged times are
0.00008, 0.00002 and 1. -/
theorem merge_order_violated : ∃ a b : CurveData ℚ, Sorted a.keys ∧ Sorted b.keys ∧
    (mergeCurves true 12 [some a, some b] []).map (·.map fun m => m.keys.map (·.input)) = some (some [1 / 12500, 1 / 50000, 1]) := by
  refine ⟨⟨.constant, .constant, [key (1 / 12500) 0 .linear, key 1 0 .linear]⟩, ⟨.constant, .constant, [key 0 0 .linear, key (1 / 50000) 0 .linear]⟩, ?_, ?_, ?_⟩
  · unfold Sorted; decide +kernel
  · unfold Sorted; decide +kernel
  · decide +kernel

/-- C81 fails for curves with other interpolations: a key of a STEP curve makes a LINEAR curve constant after it. -/
theorem merged_step_violated : ((mergeCurves true 12 [some linearA, some stepB] []).bind fun r => r.bind fun m => mEvaluate true 12 m (3 / 4) 0) = some 1 ∧
    evaluate true 12 linearA.pre linearA.post linearA.keys (3 / 4) = some (3 / 2) := by decide +kernel

/-- C81 fails for a Bezier curve alone: a curve whose value is 1 at all its keys and tangents has this value everywhere, and its merged curve does not. -/
theorem merged_bezier_violated : ((mergeCurves true 12 [some bezierA] []).bind fun r => r.bind fun m => mEvaluate true 12 m (1 / 2) 0) = some (3 / 4) ∧
    evaluate true 12 bezierA.pre bezierA.post bezierA.keys (1 / 2) = some 1 := by decide +kernel

/-- C81 fails for other infinities: the merged curve is constant outside of its keys. -/
theorem merged_infinity_violated : ((mergeCurves true 12 [some { linearA with post := .cycle }] []).bind fun r => r.bind fun m => mEvaluate true 12 m 4 0) = some 0 ∧
    evaluate true 12 .constant .cycle linearA.keys 4 = some 2 := by decide +kernel

/-- C81 fails for the default value if there are no keys at all: the merged curve has the value 0. -/
theorem merged_default_violated : ((mergeCurves true 12 [some (⟨.constant, .constant, []⟩ : CurveData ℚ), none] [3, 5]).bind fun r => r.bind fun m => mEvaluate true 12 m 0 1) = some 0 := by
  decide +kernel

/-- Collapsing a curve with a Bezier key is undefined. -/
theorem collapse_violated : ∃ m : Multi ℚ, mergeCurves true 12 [some bezierA] [] = some (some m) ∧ collapse average m = none := by
  refine ⟨_, merge_single true 12 bezierA (by unfold Sorted; decide +kernel) [], by decide +kernel⟩

example : ((mergeCurves true 12 [some linearA, none, some linearB] [7, 8]).bind fun r => r.bind fun m => (collapse average m).map (·.map (·.map fun k => (k.input, k.output)))) =
    some (some [(0, 4), (1 / 2, 13 / 3), (1, 5), (3, 13 / 3)]) := by decide +kernel

end Verif.Curve
