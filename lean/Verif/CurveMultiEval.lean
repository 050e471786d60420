import Verif.CurveMultiLemmas
import Verif.CurveProps
import Mathlib.Algebra.Order.Ring.Abs

/-!
# Merged curves: lemmas about the assembled result and about sampling
-/

namespace Verif.Curve

variable {K : Type} [Field K] [LinearOrder K]

/-! ## Assembling -/

theorem columns_some [FloorRing K] {twoD : Bool} {n : Nat} {times : List (K × Interp)} {defaults : List K} : ∀ {cs : List (Option (CurveData K))} {i : Nat},
    (∀ c ∈ cs, ∀ d, ∃ col, dimColumn twoD n times c d = some col ∧ col.length = times.length) →
    ∃ cols, columns twoD n times defaults cs i = some cols ∧ cols.length = cs.length ∧ (∀ col ∈ cols, col.length = times.length) ∧
      ∀ (j : Nat) c, cs[j]? = some c → ∃ col, cols[j]? = some col ∧ dimColumn twoD n times c (defaults[i + j]?.getD 0) = some col := by
  intro cs
  induction cs with
  | nil => intro i _; exact ⟨[], rfl, rfl, by simp, by simp⟩
  | cons c cs ih =>
    intro i h
    obtain ⟨col, h1, h2⟩ := h c (by simp) (defaults[i]?.getD 0)
    obtain ⟨cols, h3, h4, h5, h6⟩ := ih (i := i + 1) (fun d hd => h d (by simp [hd]))
    refine ⟨col :: cols, by rw [columns, h1, Option.bind_some, h3, Option.map_some], by simp [h4], ?_, ?_⟩
    · intro d hd
      rcases List.mem_cons.1 hd with rfl | hd
      · exact h2
      · exact h5 d hd
    · intro j d hj
      cases j with
      | zero =>
        obtain rfl : c = d := by simpa using hj
        exact ⟨col, by simp, h1⟩
      | succ j =>
        obtain ⟨col', a, b⟩ := h6 j d (by simpa using hj)
        exact ⟨col', by simpa using a, by rw [← b, Nat.add_comm j 1, Nat.add_assoc]⟩

omit [Field K] [LinearOrder K] in
theorem filterMap_at (k : Nat) : ∀ (cols : List (List (MDim K))), (∀ col ∈ cols, k < col.length) →
    (cols.filterMap fun col => col[k]?).length = cols.length ∧ ∀ j : Nat, (cols.filterMap fun col => col[k]?)[j]? = cols[j]?.bind fun col => col[k]? := by
  intro cols
  induction cols with
  | nil => intro _; simp
  | cons col cols ih =>
    intro h
    obtain ⟨h1, h2⟩ := ih (fun c hc => h c (by simp [hc]))
    have hk := h col (by simp)
    rw [List.filterMap_cons_some (b := col[k]) (by simp [hk])]
    refine ⟨by simp [h1], fun j => ?_⟩
    cases j with
    | zero => simp [hk]
    | succ j => simpa using h2 j

omit [Field K] [LinearOrder K] in
theorem assemble_at {times : List (K × Interp)} {cols : List (List (MDim K))} (k : Nat) :
    (assemble times cols)[k]? = times[k]?.map fun t => { input := t.1, interp := t.2, dims := cols.filterMap fun col => col[k]? } := by
  rw [assemble, List.getElem?_mapIdx]

omit [Field K] [LinearOrder K] in
theorem assemble_inputs {times : List (K × Interp)} {cols : List (List (MDim K))} : (assemble times cols).map (fun k => (k.input, k.interp)) = times := by
  apply List.ext_getElem?
  intro k
  rw [List.getElem?_map, assemble_at]
  cases times[k]? <;> rfl

/-! ## Search -/

/-- A key of several dimensions as a key with the same time. -/
def timeKey (k : MKey K) : Key K := ⟨k.input, 0, k.interp, (0, 0), (0, 0), 0, 0, 0⟩

theorem mBinLoop_eq (keys : List (MKey K)) (x : K) : ∀ (n s t : Nat), mBinLoop keys x n s t = binLoop (keys.map timeKey) x n s t := by
  intro n
  induction n with
  | zero => intro s t; rfl
  | succ n ih =>
    intro s t
    rw [mBinLoop, binLoop, List.getElem?_map]
    cases keys[(s + t) / 2]? with
    | none => rfl
    | some k => simp only [Option.bind_some, Option.map_some, timeKey, ih]

omit [Field K] in
theorem mLinLoop_ok {keys : List (MKey K)} {x : K} : ∀ (n it : Nat), it + n ≤ keys.length → ∃ r, mLinLoop keys x n it = some r ∧ it ≤ r ∧ r ≤ it + n ∧
    (∀ (j : Nat) k, it ≤ j → j < r → keys[j]? = some k → k.input ≤ x) ∧ (r < it + n → ∃ k, keys[r]? = some k ∧ x < k.input) := by
  intro n
  induction n with
  | zero =>
    intro it h
    exact ⟨it, rfl, by omega, by omega, by intro j k h1 h2; omega, by omega⟩
  | succ n ih =>
    intro it h
    have hlt : it < keys.length := by omega
    rw [mLinLoop, List.getElem?_eq_getElem hlt, Option.bind_some]
    by_cases hk : keys[it].input > x
    · rw [if_pos hk]
      exact ⟨it, rfl, by omega, by omega, by intro j k h1 h2; omega, fun _ => ⟨_, List.getElem?_eq_getElem hlt, hk⟩⟩
    · rw [if_neg hk]
      obtain ⟨r, r1, r2, r3, r4, r5⟩ := ih (it + 1) (by omega)
      refine ⟨r, r1, by omega, by omega, ?_, fun h => r5 (by omega)⟩
      intro j k h1 h2 hjk
      by_cases hj : j = it
      · subst hj
        rw [List.getElem?_eq_getElem hlt] at hjk
        cases hjk
        exact not_lt.mp hk
      · exact r4 j k (by omega) h2 hjk

/-- The search finds the first key behind the time. -/
theorem mSearch_ok {keys : List (MKey K)} {x : K} (hs : keys.Pairwise fun a b => a.input < b.input) (hne : keys ≠ []) :
    ∃ it, mSearch keys x = some it ∧ it ≤ keys.length ∧ (∀ (j : Nat) k, j < it → keys[j]? = some k → k.input ≤ x) ∧
      (it < keys.length → ∃ k, keys[it]? = some k ∧ x < k.input) := by
  have hpos : 0 < keys.length := List.length_pos_iff.mpr hne
  have hlen : (keys.map timeKey).length = keys.length := List.length_map ..
  have hlt : ∀ {i j : Nat} {a b : MKey K}, i < j → keys[i]? = some a → keys[j]? = some b → a.input < b.input := by
    intro i j a b hij ha hb
    obtain ⟨hi, rfl⟩ := List.getElem?_eq_some_iff.mp ha
    obtain ⟨hj, rfl⟩ := List.getElem?_eq_some_iff.mp hb
    exact List.pairwise_iff_getElem.mp hs i j hi hj hij
  obtain ⟨s, t, e1, e2, e3, e4, e5, e6⟩ := binLoop_ok (keys := keys.map timeKey) (x := x) keys.length 0 keys.length hpos (by rw [hlen]) (by omega) (Or.inl rfl)
    (Or.inl hlen.symm)
  rw [hlen] at e3 e6
  obtain ⟨r, r1, r2, r3, r4, r5⟩ := mLinLoop_ok (keys := keys) (x := x) (t - s) s (by omega)
  refine ⟨r, ?_, by omega, ?_, ?_⟩
  · rw [mSearch, mBinLoop_eq, e1, Option.bind_some]
    exact r1
  · intro j k hj hk
    by_cases hjs : s ≤ j
    · exact r4 j k hjs hj hk
    · rcases e5 with e5 | ⟨ks, s1, s2⟩
      · omega
      · rw [List.getElem?_map, Option.map_eq_some_iff] at s1
        obtain ⟨k', s1, rfl⟩ := s1
        exact le_of_lt (lt_of_lt_of_le (hlt (by omega) hk s1) s2)
  · intro hr
    by_cases h : r < s + (t - s)
    · exact r5 h
    · have hrt : r = t := by omega
      rcases e6 with e6 | ⟨k, k1, k2⟩
      · omega
      · rw [List.getElem?_map, Option.map_eq_some_iff] at k1
        obtain ⟨k', k1, rfl⟩ := k1
        exact ⟨k', by rw [hrt]; exact k1, k2⟩

/-! ## Linear curves -/

variable [IsStrictOrderedRing K] [FloorRing K]

/-- The value of a linear curve at its keys. -/
theorem linear_at (twoD : Bool) (n : Nat) (pre post : Infin) {keys : List (Key K)} (hs : Sorted keys) (hl : ∀ k ∈ keys, k.interp = .linear) {k : Key K} (hk : k ∈ keys) :
    evaluate twoD n pre post keys k.input = some k.output := by
  obtain ⟨i, hi⟩ := List.mem_iff_getElem?.1 hk
  refine at_key_partial twoD n pre post hs hi ?_
  cases i with
  | zero => exact .inl rfl
  | succ i =>
    have hlt : i < keys.length := by
      have := (List.getElem?_eq_some_iff.1 hi).1
      omega
    exact .inr ⟨keys[i], by simp [hlt], .inl (hl _ (List.getElem_mem hlt))⟩

/-- Between two times without a key between them, a linear curve is a line. -/
theorem linear_line (twoD : Bool) (n : Nat) {keys : List (Key K)} (hne : keys ≠ []) (hs : Sorted keys) (hl : ∀ k ∈ keys, k.interp = .linear) {a b x : K}
    (hab : a < b) (hax : a ≤ x) (hxb : x ≤ b) (hno : ∀ k ∈ keys, k.input ≤ a ∨ b ≤ k.input) :
    ∃ u v, evaluate twoD n .constant .constant keys a = some u ∧ evaluate twoD n .constant .constant keys b = some v ∧
      evaluate twoD n .constant .constant keys x = some (u + (x - a) / (b - a) * (v - u)) := by
  by_cases h2 : 2 ≤ keys.length
  · obtain ⟨f, g, c, d, h⟩ := exists_ends h2
    obtain ⟨hfd, hfg, hcd⟩ := hs.ends h
    have hcst := constant_infinity twoD n h (le_of_lt hfd)
    have hf : f ∈ keys := List.mem_of_getElem? h.first
    have hd : d ∈ keys := List.mem_of_getElem? h.last
    have before : ∀ y, y ≤ f.input → evaluate twoD n .constant .constant keys y = some f.output := by
      intro y hy
      rcases lt_or_eq_of_le hy with hy | rfl
      · exact (hcst y).1 _ hy
      · exact linear_at twoD n _ _ hs hl hf
    by_cases hbf : b ≤ f.input
    · exact ⟨f.output, f.output, before a (by linarith), before b hbf, by rw [before x (by linarith)]; simp⟩
    · by_cases hda : d.input ≤ a
      · exact ⟨d.output, d.output, (hcst a).2 _ hda, (hcst b).2 _ (by linarith), by rw [(hcst x).2 _ (by linarith)]; simp⟩
      · have hbd : b ≤ d.input := (hno d hd).resolve_left hda
        obtain ⟨i, s, e, i1, i2, i3, i4⟩ := exists_interval hs h.first h.last (not_le.1 hbf) hbd
        have hsm : s ∈ keys := List.mem_of_getElem? i1
        have hem : e ∈ keys := List.mem_of_getElem? i2
        have hsa : s.input ≤ a := (hno s hsm).resolve_right (not_le.2 i3)
        have hse : 0 < e.input - s.input := by linarith
        have val : ∀ y, s.input ≤ y → y ≤ e.input → evaluate twoD n .constant .constant keys y = some (s.output + (y - s.input) / (e.input - s.input) * (e.output - s.output)) := by
          intro y h1 h2
          rcases lt_or_eq_of_le h1 with h1 | rfl
          · rcases lt_or_eq_of_le h2 with h2 | rfl
            · obtain ⟨t, _, _, t3, t4⟩ := linear_segment twoD n .constant .constant hs i1 i2 h1 h2 (.inl (hl s hsm))
              rw [t4]
              have : (y - s.input) / (e.input - s.input) = t := by
                rw [div_eq_iff (ne_of_gt hse), t3]
                ring
              rw [this]
              congr 1
              ring
            · rw [linear_at twoD n _ _ hs hl hem, _root_.div_self (ne_of_gt hse)]
              congr 1
              ring
          · rw [linear_at twoD n _ _ hs hl hsm]
            simp
        refine ⟨_, _, val a hsa (by linarith), val b (by linarith) i4, ?_⟩
        rw [val x (by linarith) (by linarith)]
        have h1 : b - a ≠ 0 := ne_of_gt (by linarith)
        have h2 : e.input - s.input ≠ 0 := ne_of_gt hse
        congr 1
        field_simp
        ring
  · rcases keys with _ | ⟨k, _ | ⟨k', ks⟩⟩
    · exact absurd rfl hne
    · exact ⟨k.output, k.output, rfl, rfl, by simp [evaluate]⟩
    · simp at h2

/-- Before all keys, and behind all keys, the curve does not change. -/
theorem constant_outside (twoD : Bool) (n : Nat) {keys : List (Key K)} (hs : Sorted keys) {x y : K} (hl : ∀ k ∈ keys, k.interp = .linear)
    (h : (∀ k ∈ keys, x ≤ k.input ∧ y ≤ k.input) ∨ ∀ k ∈ keys, k.input ≤ x ∧ k.input ≤ y) :
    evaluate twoD n .constant .constant keys x = evaluate twoD n .constant .constant keys y := by
  by_cases h2 : 2 ≤ keys.length
  · obtain ⟨f, g, c, d, he⟩ := exists_ends h2
    obtain ⟨hfd, hfg, hcd⟩ := hs.ends he
    have hcst := constant_infinity twoD n he (le_of_lt hfd)
    have hf : f ∈ keys := List.mem_of_getElem? he.first
    have hd : d ∈ keys := List.mem_of_getElem? he.last
    rcases h with h | h
    · have before : ∀ y, y ≤ f.input → evaluate twoD n .constant .constant keys y = some f.output := by
        intro y hy
        rcases lt_or_eq_of_le hy with hy | rfl
        · exact (hcst y).1 _ hy
        · exact linear_at twoD n _ _ hs hl hf
      rw [before x (h f hf).1, before y (h f hf).2]
    · rw [(hcst x).2 _ (h d hd).1, (hcst y).2 _ (h d hd).2]
  · rcases keys with _ | ⟨k, _ | ⟨k', ks⟩⟩
    · rfl
    · rfl
    · simp at h2

/-! ## The merged curve -/

omit [FloorRing K] in
theorem close_abs {a b : K} : close a b = true ↔ |a - b| < 1 / 10000 := by
  rw [close_iff, abs_sub_lt_iff]

/-- The column of every dimension. -/
theorem dimColumn_some (twoD : Bool) {n : Nat} (hn : 12 ≤ n) {toMerge : List (Option (CurveData K))} (hs : ∀ c, some c ∈ toMerge → Sorted c.keys) :
    ∀ c ∈ toMerge, ∀ d, ∃ col, dimColumn twoD n (mergeTimes toMerge) c d = some col ∧ col.length = (mergeTimes toMerge).length := by
  intro c hc d
  cases c with
  | none => exact ⟨_, rfl, (defaultColumn_values d _ none).1⟩
  | some c =>
    rw [dimColumn]
    by_cases he : c.keys = []
    · rw [if_pos he]
      exact ⟨_, rfl, (defaultColumn_values d _ none).1⟩
    · rw [if_neg he]
      have hk := hs c hc
      obtain ⟨col, hcol⟩ := column_some (eval := evaluate twoD n c.pre c.post c.keys) (fun x => defined twoD hn c.pre c.post hk x) (mergeTimes toMerge) none none c.keys hk
        (by simp)
      exact ⟨col, hcol, (column_values _ _ _ _ _ hcol (fold_found toMerge [] hc)).1⟩

/-- What the merged curve is. -/
theorem merge_shape (twoD : Bool) {n : Nat} (hn : 12 ≤ n) {toMerge : List (Option (CurveData K))} (hs : ∀ c, some c ∈ toMerge → Sorted c.keys) (hsome : ∃ c, some c ∈ toMerge) (defaults : List K) :
    ∃ m, mergeCurves twoD n toMerge defaults = some (some m) ∧ m.dimension = toMerge.length ∧ m.keys.map (fun k => (k.input, k.interp)) = mergeTimes toMerge ∧
      (∀ key ∈ m.keys, key.dims.length = toMerge.length) ∧
      ∀ (i : Nat) c, toMerge[i]? = some c → ∃ col, dimColumn twoD n (mergeTimes toMerge) c (defaults[i]?.getD 0) = some col ∧
        ∀ (k : Nat) key, m.keys[k]? = some key → key.dims[i]? = col[k]? := by
  obtain ⟨cols, h1, h2, h3, h4⟩ := columns_some (i := 0) (defaults := defaults) (dimColumn_some twoD hn hs)
  obtain ⟨first, hf⟩ : ∃ f, toMerge.findSome? id = some f := by
    obtain ⟨c, hc⟩ := hsome
    rw [← Option.isSome_iff_exists, List.findSome?_isSome_iff]
    exact ⟨some c, hc, rfl⟩
  have hat : ∀ (k : Nat) key, (assemble (mergeTimes toMerge) cols)[k]? = some key → k < (mergeTimes toMerge).length ∧ key.dims = cols.filterMap fun col => col[k]? := by
    intro k key hk
    rw [assemble_at, Option.map_eq_some_iff] at hk
    obtain ⟨t, ht, rfl⟩ := hk
    exact ⟨(List.getElem?_eq_some_iff.1 ht).1, rfl⟩
  refine ⟨{ dimension := toMerge.length, pre := first.pre, post := first.post, keys := assemble (mergeTimes toMerge) cols },
    by rw [mergeCurves, hf]; simp only [h1, Option.map_some], rfl, assemble_inputs, ?_, ?_⟩
  · intro key hkey
    obtain ⟨k, hk⟩ := List.mem_iff_getElem?.1 hkey
    obtain ⟨a, b⟩ := hat k key hk
    rw [b, (filterMap_at k cols (fun col hcol => by rw [h3 col hcol]; exact a)).1, h2]
  · intro i c hi
    obtain ⟨col, c1, c2⟩ := h4 i c hi
    refine ⟨col, by simpa using c2, fun k key hk => ?_⟩
    obtain ⟨a, b⟩ := hat k key hk
    rw [b, (filterMap_at k cols (fun col hcol => by rw [h3 col hcol]; exact a)).2, c1, Option.bind_some]

omit [Field K] [LinearOrder K] [IsStrictOrderedRing K] [FloorRing K] in
theorem times_at {m : Multi K} {ts : List (K × Interp)} (h : m.keys.map (fun k => (k.input, k.interp)) = ts) (k : Nat) :
    ts[k]? = m.keys[k]?.map fun k => (k.input, k.interp) := by
  rw [← h, List.getElem?_map]

omit [IsStrictOrderedRing K] [FloorRing K] in
theorem mergeLoop_nil (keys : List (Key K)) : mergeLoop [] keys = keys.map fun k => (k.input, k.interp) := by
  induction keys with
  | nil => rw [mergeLoop]; rfl
  | cons k ks ih => rw [mergeLoop, ih]; rfl

omit [IsStrictOrderedRing K] [FloorRing K] in
theorem respan_same {input output : K} (t : K × K) {s : K} (h : s ≠ 0) : respan input output t s s = some t := by
  rw [respan, div_some h, div_some h, Option.bind_some, Option.map_some, div_mul_cancel₀ _ h, div_mul_cancel₀ _ h]
  simp

omit [FloorRing K] in
/-- The column of a curve among its own times. -/
theorem column_self {eval : K → Option K} : ∀ (keys : List (Key K)) (prev : Option K), Sorted keys → (∀ p, prev = some p → ∀ c ∈ keys, p < c.input) →
    ∃ col, column eval prev (keys.map fun k => (k.input, k.interp)) prev keys = some col ∧ (keys.map single).map (·.dims) = col.map fun d => [d] := by
  intro keys
  induction keys with
  | nil => intro prev _ _; exact ⟨[], by simp [column], rfl⟩
  | cons c cs ih =>
    intro prev hs hp
    obtain ⟨h1, h2⟩ := List.pairwise_cons.1 hs
    obtain ⟨col, e1, e2⟩ := ih (some c.input) h2 (by
      intro p hp' x hx
      obtain rfl := Option.some.inj hp'
      exact h1 x hx)
    have ho : previousSpan prev c.input ≠ 0 := by
      cases prev with
      | none => simp [previousSpan]
      | some p =>
        have := hp p rfl c (by simp)
        have : c.input - p ≠ 0 := ne_of_gt (sub_pos.2 this)
        simp [previousSpan, this]
    have hn : nextSpan (cs.head?.map (·.input)) c.input ≠ 0 := by
      cases cs with
      | nil => simp [nextSpan]
      | cons q cs =>
        have := h1 q (by simp)
        have : q.input - c.input ≠ 0 := ne_of_gt (sub_pos.2 this)
        simp [nextSpan, this]
    have hhead : ((cs.map fun k => (k.input, k.interp)).head?.map (·.1)) = cs.head?.map (·.input) := by
      cases cs <;> rfl
    have hm : ∃ d, matched c c.input c.interp (previousSpan prev c.input) (nextSpan (cs.head?.map (·.input)) c.input) (previousSpan prev c.input)
        (nextSpan (cs.head?.map (·.input)) c.input) = some d ∧ (single c).dims = [d] := by
      rw [single]
      cases hi : c.interp
      case bezier =>
        simp only [matched, hi, if_true, respan_same _ ho, respan_same _ hn, Option.bind_some, Option.map_some]
        exact ⟨_, rfl, by simp⟩
      all_goals
        simp only [matched, hi]
        exact ⟨_, rfl, by simp⟩
    obtain ⟨d, d1, d2⟩ := hm
    refine ⟨d :: col, ?_, by simp [d2, e2]⟩
    rw [List.map_cons, column, if_pos (close_self _), hhead, d1, Option.bind_some, e1, Option.map_some]

omit [IsStrictOrderedRing K] [FloorRing K] in
theorem mergeLoop_linear (ms : List (K × Interp)) (cs : List (Key K)) (hm : ∀ m ∈ ms, m.2 = .linear) (hc : ∀ c ∈ cs, c.interp = .linear) :
    ∀ x ∈ mergeLoop ms cs, x.2 = .linear := by
  induction ms, cs using mergeLoop.induct with
  | case1 => simp [mergeLoop]
  | case2 m ms => rwa [mergeLoop]
  | case3 c cs ih =>
    rw [mergeLoop, List.forall_mem_cons]
    exact ⟨hc c (by simp), ih hm (fun d hd => hc d (by simp [hd]))⟩
  | case4 m ms c cs hcl ih =>
    rw [mergeLoop, if_pos hcl, List.forall_mem_cons]
    exact ⟨by simp [hm m (by simp), hc c (by simp)], ih (fun d hd => hm d (by simp [hd])) (fun d hd => hc d (by simp [hd]))⟩
  | case5 m ms c cs hcl hlt ih =>
    rw [mergeLoop, if_neg hcl, if_pos hlt, List.forall_mem_cons]
    exact ⟨hm m (by simp), ih (fun d hd => hm d (by simp [hd])) hc⟩
  | case6 m ms c cs hcl hlt ih =>
    rw [mergeLoop, if_neg hcl, if_neg hlt, List.forall_mem_cons]
    exact ⟨hc c (by simp), ih hm (fun d hd => hc d (by simp [hd]))⟩

omit [IsStrictOrderedRing K] [FloorRing K] in
theorem fold_linear (cs : List (Option (CurveData K))) (ms : List (K × Interp)) (hm : ∀ m ∈ ms, m.2 = .linear) (hc : ∀ k, HasKey cs k → k.interp = .linear) :
    ∀ x ∈ cs.foldl mergeStep ms, x.2 = .linear := by
  induction cs generalizing ms with
  | nil => exact hm
  | cons c cs ih =>
    refine ih _ ?_ (fun k ⟨d, hd, hk⟩ => hc k ⟨d, by simp [hd], hk⟩)
    cases c with
    | none => exact hm
    | some c => exact mergeLoop_linear _ _ hm (fun k hk => hc k ⟨c, by simp, hk⟩)

omit [FloorRing K] in
/-- A dimension whose values at the keys are those of a function that is a line between neighbouring keys and constant outside is sampled as the function. -/
theorem mEvaluate_line (twoD : Bool) (n : Nat) {m : Multi K} (hs : m.keys.Pairwise fun a b => a.input < b.input) (hne : m.keys ≠ []) (hl : ∀ k ∈ m.keys, k.interp = .linear)
    {i : Nat} (hi : i < m.dimension) {f : K → Option K} (hf : ∀ k ∈ m.keys, (k.dims[i]?).map (·.output) = f k.input) (hsome : ∀ k ∈ m.keys, ∃ d, k.dims[i]? = some d) (x : K)
    (hout : ∀ k ∈ m.keys, ((∀ j ∈ m.keys, x ≤ j.input ∧ k.input ≤ j.input) ∨ ∀ j ∈ m.keys, j.input ≤ x ∧ j.input ≤ k.input) → f x = f k.input)
    (hline : ∀ a ∈ m.keys, ∀ b ∈ m.keys, a.input ≤ x → x < b.input → (∀ k ∈ m.keys, k.input ≤ a.input ∨ b.input ≤ k.input) →
      ∃ u v, f a.input = some u ∧ f b.input = some v ∧ f x = some (u + (x - a.input) / (b.input - a.input) * (v - u))) :
    mEvaluate twoD n m x i = f x := by
  have hlt : ∀ {p q : Nat} {a b : MKey K}, p < q → m.keys[p]? = some a → m.keys[q]? = some b → a.input < b.input := by
    intro p q a b hpq ha hb
    obtain ⟨h1, rfl⟩ := List.getElem?_eq_some_iff.mp ha
    obtain ⟨h2, rfl⟩ := List.getElem?_eq_some_iff.mp hb
    exact List.pairwise_iff_getElem.mp hs p q h1 h2 hpq
  rw [mEvaluate, if_neg (not_le.2 hi)]
  split
  · rename_i e; exact absurd e hne
  · rename_i k e
    have hk : k ∈ m.keys := by simp [e]
    rw [hf k hk]
    refine (hout k hk ?_).symm
    rcases le_total x k.input with h | h
    · left; intro j hj; rw [e, List.mem_singleton] at hj; subst hj; exact ⟨h, le_refl _⟩
    · right; intro j hj; rw [e, List.mem_singleton] at hj; subst hj; exact ⟨h, le_refl _⟩
  · rename_i k k2 ks e
    obtain ⟨it, s1, s2, s3, s4⟩ := mSearch_ok (x := x) hs hne
    rw [s1, Option.bind_some]
    have h0 : m.keys[0]? = some k := by simp [e]
    have hk : k ∈ m.keys := by simp [e]
    by_cases hend : it = m.keys.length
    · rw [if_pos hend]
      have hll : m.keys.length - 1 < m.keys.length := by rw [e]; simp
      have hlast : m.keys.getLast? = some (m.keys[m.keys.length - 1]) := by rw [List.getLast?_eq_getElem?, List.getElem?_eq_getElem hll]
      rw [hlast, Option.bind_some, hf _ (List.getElem_mem hll)]
      refine (hout _ (List.getElem_mem hll) (.inr ?_)).symm
      intro j hj
      obtain ⟨p, hp⟩ := List.mem_iff_getElem?.1 hj
      have hpl := (List.getElem?_eq_some_iff.1 hp).1
      refine ⟨s3 p j (by omega) hp, ?_⟩
      by_cases hpe : p = m.keys.length - 1
      · subst hpe
        rw [List.getElem?_eq_getElem hll] at hp
        rw [Option.some.inj hp]
      · exact le_of_lt (hlt (q := m.keys.length - 1) (by omega) hp (List.getElem?_eq_getElem hll))
    · rw [if_neg hend]
      obtain ⟨b, b1, b2⟩ := s4 (by omega)
      by_cases hz : it = 0
      · subst hz
        rw [if_pos rfl, hf k hk]
        rw [h0] at b1
        obtain rfl := Option.some.inj b1
        refine (hout k hk (.inl ?_)).symm
        intro j hj
        obtain ⟨p, hp⟩ := List.mem_iff_getElem?.1 hj
        have : k.input ≤ j.input := by
          by_cases hp0 : p = 0
          · subst hp0
            rw [h0] at hp
            rw [Option.some.inj hp]
          · exact le_of_lt (hlt (by omega) h0 hp)
        exact ⟨le_trans (le_of_lt b2) this, this⟩
      · have hpl : it - 1 < m.keys.length := by omega
        obtain ⟨a, a1⟩ : ∃ a, m.keys[it - 1]? = some a := ⟨_, List.getElem?_eq_getElem hpl⟩
        have ha := List.mem_of_getElem? a1
        have hb := List.mem_of_getElem? b1
        have hax : a.input ≤ x := s3 _ _ (by omega) a1
        obtain ⟨da, da1⟩ := hsome a ha
        obtain ⟨db, db1⟩ := hsome b hb
        obtain ⟨u, v, hu, hv, hx⟩ := hline a ha b hb hax b2 (by
          intro k' hk'
          obtain ⟨p, hp⟩ := List.mem_iff_getElem?.1 hk'
          rcases Nat.lt_trichotomy p (it - 1) with h | h | h
          · exact .inl (le_of_lt (hlt h hp a1))
          · subst h
            rw [a1] at hp
            exact .inl (by rw [Option.some.inj hp])
          · by_cases hpi : p = it
            · subst hpi
              rw [b1] at hp
              exact .inr (by rw [Option.some.inj hp])
            · exact .inr (le_of_lt (hlt (by omega) b1 hp)))
        have fa := hf a ha
        have fb := hf b hb
        rw [da1, hu, Option.map_some, Option.some_inj] at fa
        rw [db1, hv, Option.map_some, Option.some_inj] at fb
        rw [if_neg hz, a1, Option.bind_some, b1, Option.bind_some, da1, Option.bind_some, db1, Option.bind_some, mSegment, hl a ha]
        simp only [div_some (ne_of_gt (sub_pos.2 (lt_of_le_of_lt hax b2))), Option.map_some]
        rw [hx, fa, fb]

end Verif.Curve
