import Verif.CurveMultiSpec
import Verif.CurveEval
import Mathlib.Data.List.Forall2

/-!
# Merged curves: lemmas
-/

namespace Verif.Curve

variable {K : Type} [Field K] [LinearOrder K] [IsStrictOrderedRing K]

omit [IsStrictOrderedRing K] in
theorem close_iff {a b : K} : close a b = true ↔ a - b < 1 / 10000 ∧ b - a < 1 / 10000 := by simp [close]

theorem close_self (a : K) : close a a = true := by
  rw [close_iff]
  constructor <;> norm_num

theorem Spaced.sorted {keys : List (Key K)} (h : Spaced keys) : Sorted keys :=
  List.Pairwise.imp (fun {a b} e => by
    have : (0 : K) < 1 / 10000 := by norm_num
    linarith) h

/-- Times in strictly increasing order. -/
def TSorted (ms : List (K × Interp)) : Prop := ms.Pairwise fun a b => a.1 < b.1

omit [IsStrictOrderedRing K] in
theorem mergeLoop_mem (ms : List (K × Interp)) (cs : List (Key K)) {x : K × Interp} (h : x ∈ mergeLoop ms cs) :
    (∃ m ∈ ms, x.1 = m.1) ∨ ∃ c ∈ cs, x.1 = c.input := by
  induction ms, cs using mergeLoop.induct with
  | case1 => simp [mergeLoop] at h
  | case2 m ms =>
    rw [mergeLoop] at h
    exact .inl ⟨x, h, rfl⟩
  | case3 c cs ih =>
    rw [mergeLoop, List.mem_cons] at h
    rcases h with rfl | h
    · exact .inr ⟨c, by simp, rfl⟩
    · rcases ih h with ⟨m, hm, e⟩ | ⟨d, hd, e⟩
      · simp at hm
      · exact .inr ⟨d, by simp [hd], e⟩
  | case4 m ms c cs hc ih =>
    rw [mergeLoop, if_pos hc, List.mem_cons] at h
    rcases h with rfl | h
    · exact .inl ⟨m, by simp, rfl⟩
    · rcases ih h with ⟨m, hm, e⟩ | ⟨d, hd, e⟩
      · exact .inl ⟨m, by simp [hm], e⟩
      · exact .inr ⟨d, by simp [hd], e⟩
  | case5 m ms c cs hc hlt ih =>
    rw [mergeLoop, if_neg hc, if_pos hlt, List.mem_cons] at h
    rcases h with rfl | h
    · exact .inl ⟨x, by simp, rfl⟩
    · rcases ih h with ⟨m, hm, e⟩ | ⟨d, hd, e⟩
      · exact .inl ⟨m, by simp [hm], e⟩
      · exact .inr ⟨d, hd, e⟩
  | case6 m ms c cs hc hlt ih =>
    rw [mergeLoop, if_neg hc, if_neg hlt, List.mem_cons] at h
    rcases h with rfl | h
    · exact .inr ⟨c, by simp, rfl⟩
    · rcases ih h with ⟨m, hm, e⟩ | ⟨d, hd, e⟩
      · exact .inl ⟨m, hm, e⟩
      · exact .inr ⟨d, by simp [hd], e⟩

theorem mergeLoop_sorted (ms : List (K × Interp)) (cs : List (Key K)) (hm : TSorted ms) (hc : Spaced cs) : TSorted (mergeLoop ms cs) := by
  have tol : (0 : K) < 1 / 10000 := by norm_num
  induction ms, cs using mergeLoop.induct with
  | case1 => simp [mergeLoop, TSorted]
  | case2 m ms => rwa [mergeLoop]
  | case3 c cs ih =>
    obtain ⟨h1, h2⟩ := List.pairwise_cons.1 hc
    rw [mergeLoop]
    refine List.pairwise_cons.2 ⟨fun x hx => ?_, ih hm h2⟩
    rcases mergeLoop_mem _ _ hx with ⟨m, h, _⟩ | ⟨d, hd, e⟩
    · simp at h
    · have := h1 d hd
      simp only [e]
      linarith
  | case4 m ms c cs hcl ih =>
    obtain ⟨h1, h2⟩ := List.pairwise_cons.1 hc
    obtain ⟨m1, m2⟩ := List.pairwise_cons.1 hm
    rw [mergeLoop, if_pos hcl]
    refine List.pairwise_cons.2 ⟨fun x hx => ?_, ih m2 h2⟩
    rcases mergeLoop_mem _ _ hx with ⟨d, h, e⟩ | ⟨d, hd, e⟩
    · have := m1 d h
      simp only [e]
      exact this
    · have := h1 d hd
      have := (close_iff.1 hcl).1
      simp only [e]
      linarith
  | case5 m ms c cs hcl hlt ih =>
    obtain ⟨m1, m2⟩ := List.pairwise_cons.1 hm
    obtain ⟨h1, h2⟩ := List.pairwise_cons.1 hc
    rw [mergeLoop, if_neg hcl, if_pos hlt]
    refine List.pairwise_cons.2 ⟨fun x hx => ?_, ih m2 hc⟩
    rcases mergeLoop_mem _ _ hx with ⟨d, h, e⟩ | ⟨d, hd, e⟩
    · have := m1 d h
      simp only [e]
      exact this
    · simp only [e]
      rcases List.mem_cons.1 hd with rfl | hd
      · exact hlt
      · have := h1 d hd
        linarith
  | case6 m ms c cs hcl hlt ih =>
    obtain ⟨m1, m2⟩ := List.pairwise_cons.1 hm
    obtain ⟨h1, h2⟩ := List.pairwise_cons.1 hc
    rw [mergeLoop, if_neg hcl, if_neg hlt]
    have hcm : c.input < m.1 := by
      rcases lt_or_eq_of_le (not_lt.1 hlt) with h | h
      · exact h
      · rw [h] at hcl
        exact absurd (close_self _) hcl
    refine List.pairwise_cons.2 ⟨fun x hx => ?_, ih hm h2⟩
    rcases mergeLoop_mem _ _ hx with ⟨d, h, e⟩ | ⟨d, hd, e⟩
    · simp only [e]
      rcases List.mem_cons.1 h with rfl | h
      · exact hcm
      · exact lt_trans hcm (m1 d h)
    · have := h1 d hd
      simp only [e]
      linarith

omit [IsStrictOrderedRing K] in
/-- The times that are already there stay, in order. -/
theorem mergeLoop_keeps (ms : List (K × Interp)) (cs : List (Key K)) : (ms.map (·.1)).Sublist ((mergeLoop ms cs).map (·.1)) := by
  induction ms, cs using mergeLoop.induct with
  | case1 => simp
  | case2 m ms => rw [mergeLoop]
  | case3 c cs ih => simp
  | case4 m ms c cs hcl ih =>
    rw [mergeLoop, if_pos hcl]
    simpa using ih
  | case5 m ms c cs hcl hlt ih =>
    rw [mergeLoop, if_neg hcl, if_pos hlt]
    simpa using ih
  | case6 m ms c cs hcl hlt ih =>
    rw [mergeLoop, if_neg hcl, if_neg hlt]
    exact ih.trans (by simp)

/-- The keys of a curve are found among the times, in order. -/
def Found' (cs : List (Key K)) (ts : List K) : Prop := List.SublistForall₂ (fun (c : Key K) t => close t c.input = true) cs ts

theorem mergeLoop_found (ms : List (K × Interp)) (cs : List (Key K)) : Found' cs ((mergeLoop ms cs).map (·.1)) := by
  induction ms, cs using mergeLoop.induct with
  | case1 => exact .nil
  | case2 m ms => exact .nil
  | case3 c cs ih =>
    rw [mergeLoop]
    exact .cons (close_self _) ih
  | case4 m ms c cs hcl ih =>
    rw [mergeLoop, if_pos hcl]
    exact .cons hcl ih
  | case5 m ms c cs hcl hlt ih =>
    rw [mergeLoop, if_neg hcl, if_pos hlt]
    exact .cons_right ih
  | case6 m ms c cs hcl hlt ih =>
    rw [mergeLoop, if_neg hcl, if_neg hlt]
    exact .cons (close_self _) ih

omit [IsStrictOrderedRing K] in
theorem Found'.mono {cs : List (Key K)} {a b : List K} (h : Found' cs a) (hab : a.Sublist b) : Found' cs b := by
  induction hab generalizing cs with
  | slnil => exact h
  | cons x _ ih => exact .cons_right (ih h)
  | cons_cons x _ ih =>
    cases h with
    | nil => exact .nil
    | cons h1 h2 => exact .cons h1 (ih h2)
    | cons_right h => exact .cons_right (ih h)

omit [IsStrictOrderedRing K] in
theorem Found'.tail {c : Key K} {cs : List (Key K)} {ts : List K} (h : Found' (c :: cs) ts) : Found' cs ts := by
  induction ts with
  | nil => cases h
  | cons x l ih =>
    cases h with
    | cons _ h => exact .cons_right h
    | cons_right h => exact .cons_right (ih h)

/-! ## All curves -/

/-- One round of the loop over the curves. -/
def mergeStep (ms : List (K × Interp)) (c : Option (CurveData K)) : List (K × Interp) :=
  match c with
  | none => ms
  | some c => mergeLoop ms c.keys

omit [IsStrictOrderedRing K] in
theorem mergeTimes_eq (cs : List (Option (CurveData K))) : mergeTimes cs = cs.foldl mergeStep [] := rfl

theorem fold_sorted (cs : List (Option (CurveData K))) (h : AllSpaced cs) (ms : List (K × Interp)) (hm : TSorted ms) : TSorted (cs.foldl mergeStep ms) := by
  induction cs generalizing ms with
  | nil => exact hm
  | cons c cs ih =>
    refine ih (fun d hd => h d (by simp [hd])) _ ?_
    cases c with
    | none => exact hm
    | some c => exact mergeLoop_sorted _ _ hm (h c (by simp))

omit [IsStrictOrderedRing K] in
theorem fold_keeps (cs : List (Option (CurveData K))) (ms : List (K × Interp)) : (ms.map (·.1)).Sublist ((cs.foldl mergeStep ms).map (·.1)) := by
  induction cs generalizing ms with
  | nil => simp
  | cons c cs ih =>
    refine List.Sublist.trans ?_ (ih _)
    cases c with
    | none => exact List.Sublist.refl _
    | some c => exact mergeLoop_keeps _ _

theorem fold_found (cs : List (Option (CurveData K))) (ms : List (K × Interp)) {c : CurveData K} (h : some c ∈ cs) :
    Found' c.keys ((cs.foldl mergeStep ms).map (·.1)) := by
  induction cs generalizing ms with
  | nil => simp at h
  | cons d cs ih =>
    rcases List.mem_cons.1 h with rfl | h
    · exact (mergeLoop_found ms c.keys).mono (fold_keeps _ _)
    · exact ih _ h

omit [IsStrictOrderedRing K] in
theorem fold_mem (cs : List (Option (CurveData K))) (ms : List (K × Interp)) {x : K × Interp} (h : x ∈ cs.foldl mergeStep ms) :
    (∃ m ∈ ms, x.1 = m.1) ∨ ∃ k, HasKey cs k ∧ x.1 = k.input := by
  induction cs generalizing ms with
  | nil => exact .inl ⟨x, h, rfl⟩
  | cons d cs ih =>
    rcases ih _ h with ⟨m, hm, e⟩ | ⟨k, ⟨c, hc, hk⟩, e⟩
    · cases d with
      | none => exact .inl ⟨m, hm, e⟩
      | some d =>
        rcases mergeLoop_mem _ _ hm with ⟨m', h', e'⟩ | ⟨k, hk, e'⟩
        · exact .inl ⟨m', h', e.trans e'⟩
        · exact .inr ⟨k, ⟨d, by simp, hk⟩, e.trans e'⟩
    · exact .inr ⟨k, ⟨c, by simp [hc], hk⟩, e⟩

/-! ## Columns -/

omit [LinearOrder K] [IsStrictOrderedRing K] in
theorem sampled_output {eval : K → Option K} {input : K} {interp : Interp} {ps ns : K} {d : MDim K} (h : sampled eval input interp ps ns = some d) :
    eval input = some d.output := by
  rw [sampled, Option.bind_eq_some_iff] at h
  obtain ⟨v, hv, h⟩ := h
  split at h
  · rw [Option.map_eq_some_iff] at h
    obtain ⟨_, _, rfl⟩ := h
    exact hv
  · obtain rfl := Option.some.inj h
    exact hv

omit [IsStrictOrderedRing K] in
theorem matched_output {c : Key K} {input : K} {interp : Interp} {ps ns ops ons : K} {d : MDim K} (h : matched c input interp ps ns ops ons = some d) :
    d.output = c.output := by
  cases interp
  case bezier =>
    simp only [matched] at h
    split at h
    · simp only [Option.bind_eq_some_iff, Option.map_eq_some_iff] at h
      obtain ⟨_, _, _, _, rfl⟩ := h
      rfl
    · obtain rfl := Option.some.inj h
      rfl
  all_goals
    simp only [matched] at h
    obtain rfl := Option.some.inj h
    rfl

omit [IsStrictOrderedRing K] in
/-- The values of a column: those of the keys of the curve where there are any, else samples. -/
theorem column_values {eval : K → Option K} : ∀ (ts : List (K × Interp)) (prev prevC : Option K) (cs : List (Key K)) (col : List (MDim K)),
    column eval prev ts prevC cs = some col → Found' cs (ts.map (·.1)) →
    col.length = ts.length ∧
    (∀ (k : Nat) (t : K × Interp), ts[k]? = some t → ∃ d : MDim K, col[k]? = some d ∧ ((∃ c ∈ cs, close t.1 c.input = true ∧ d.output = c.output) ∨ eval t.1 = some d.output)) ∧
    (∀ c ∈ cs, ∃ (k : Nat) (t : K × Interp) (d : MDim K), ts[k]? = some t ∧ col[k]? = some d ∧ close t.1 c.input = true ∧ d.output = c.output) := by
  intro ts
  induction ts with
  | nil =>
    intro prev prevC cs col h hf
    cases hf
    simp [column] at h
    simp [← h]
  | cons t ts ih =>
    intro prev prevC cs col h hf
    obtain ⟨input, interp⟩ := t
    have samp : ∀ prevC cs d rest, sampled eval input interp (previousSpan prev input) (nextSpan (ts.head?.map (·.1)) input) = some d →
        column eval (some input) ts prevC cs = some rest → Found' cs (ts.map (·.1)) →
        (d :: rest).length = ((input, interp) :: ts).length ∧
        (∀ (k : Nat) (t : K × Interp), ((input, interp) :: ts)[k]? = some t → ∃ d' : MDim K, (d :: rest)[k]? = some d' ∧
          ((∃ c ∈ cs, close t.1 c.input = true ∧ d'.output = c.output) ∨ eval t.1 = some d'.output)) ∧
        (∀ c ∈ cs, ∃ (k : Nat) (t : K × Interp) (d' : MDim K), ((input, interp) :: ts)[k]? = some t ∧ (d :: rest)[k]? = some d' ∧ close t.1 c.input = true ∧ d'.output = c.output) := by
      intro prevC cs d rest hd hr hf
      obtain ⟨h1, h2, h3⟩ := ih _ _ _ _ hr hf
      refine ⟨by simp [h1], ?_, ?_⟩
      · intro k t hk
        cases k with
        | zero =>
          obtain rfl : (input, interp) = t := by simpa using hk
          exact ⟨d, by simp, .inr (sampled_output hd)⟩
        | succ k => simpa using h2 k t (by simpa using hk)
      · intro c hc
        obtain ⟨k, t, d', a, b, e⟩ := h3 c hc
        exact ⟨k + 1, t, d', by simpa using a, by simpa using b, e⟩
    cases cs with
    | nil =>
      simp only [column, Option.bind_eq_some_iff, Option.map_eq_some_iff] at h
      obtain ⟨d, hd, rest, hr, rfl⟩ := h
      exact samp _ _ _ _ hd hr .nil
    | cons c cs =>
      rw [column] at h
      by_cases hcl : close input c.input = true
      · rw [if_pos hcl] at h
        simp only [Option.bind_eq_some_iff, Option.map_eq_some_iff] at h
        obtain ⟨d, hd, rest, hr, rfl⟩ := h
        have hf' : Found' cs (ts.map (·.1)) := by
          cases hf with
          | cons _ h => exact h
          | cons_right h => exact Found'.tail h
        obtain ⟨h1, h2, h3⟩ := ih _ _ _ _ hr hf'
        refine ⟨by simp [h1], ?_, ?_⟩
        · intro k t hk
          cases k with
          | zero =>
            obtain rfl : (input, interp) = t := by simpa using hk
            exact ⟨d, by simp, .inl ⟨c, by simp, hcl, matched_output hd⟩⟩
          | succ k =>
            obtain ⟨d', hd', h⟩ := h2 k t (by simpa using hk)
            refine ⟨d', by simpa using hd', ?_⟩
            rcases h with ⟨c', hc', h⟩ | h
            · exact .inl ⟨c', by simp [hc'], h⟩
            · exact .inr h
        · intro c' hc'
          rcases List.mem_cons.1 hc' with rfl | hc'
          · exact ⟨0, (input, interp), d, by simp, by simp, hcl, matched_output hd⟩
          · obtain ⟨k, t, d', a, b, e⟩ := h3 c' hc'
            exact ⟨k + 1, t, d', by simpa using a, by simpa using b, e⟩
      · rw [if_neg hcl] at h
        simp only [Option.bind_eq_some_iff, Option.map_eq_some_iff] at h
        obtain ⟨d, hd, rest, hr, rfl⟩ := h
        refine samp _ _ _ _ hd hr ?_
        cases hf with
        | cons h _ => exact absurd h hcl
        | cons_right h => exact h

/-- Every column has a result. -/
theorem column_some {eval : K → Option K} (he : ∀ x, ∃ y, eval x = some y) : ∀ (ts : List (K × Interp)) (prev prevC : Option K) (cs : List (Key K)),
    Sorted cs → (∀ p, prevC = some p → ∀ c ∈ cs, p < c.input) → ∃ col, column eval prev ts prevC cs = some col := by
  have hs : ∀ input interp ps ns, ∃ d, sampled eval input interp ps ns = some d := by
    intro input interp ps ns
    obtain ⟨v, hv⟩ := he input
    obtain ⟨w, hw⟩ := he (input - 1 / 1000)
    rw [sampled, hv, Option.bind_some]
    split
    · rw [hw]; exact ⟨_, rfl⟩
    · exact ⟨_, rfl⟩
  intro ts
  induction ts with
  | nil => intro prev prevC cs _ _; exact ⟨[], by simp [column]⟩
  | cons t ts ih =>
    intro prev prevC cs hcs hp
    obtain ⟨input, interp⟩ := t
    obtain ⟨d, hd⟩ := hs input interp (previousSpan prev input) (nextSpan (ts.head?.map (·.1)) input)
    cases cs with
    | nil =>
      obtain ⟨rest, hr⟩ := ih (some input) prevC [] hcs hp
      exact ⟨d :: rest, by rw [column, hd, Option.bind_some, hr, Option.map_some]⟩
    | cons c cs =>
      rw [column]
      by_cases hcl : close input c.input = true
      · rw [if_pos hcl]
        obtain ⟨h1, h2⟩ := List.pairwise_cons.1 hcs
        obtain ⟨rest, hr⟩ := ih (some input) (some c.input) cs h2 (by
          intro p hp' x hx
          obtain rfl := Option.some.inj hp'
          exact h1 x hx)
        have ho : previousSpan prevC c.input ≠ 0 := by
          cases prevC with
          | none => simp [previousSpan]
          | some p =>
            have := hp p rfl c (by simp)
            have : c.input - p ≠ 0 := ne_of_gt (sub_pos.2 this)
            simp [previousSpan, this]
        have hn : nextSpan (cs.head?.map (·.input)) c.input ≠ 0 := by
          cases cs with
          | nil => simp [nextSpan]
          | cons q cs =>
            have := h1 q (by simp)
            have : q.input - c.input ≠ 0 := ne_of_gt (sub_pos.2 this)
            simp [nextSpan, this]
        have hm : ∀ ps ns, ∃ d, matched c input interp ps ns (previousSpan prevC c.input) (nextSpan (cs.head?.map (·.input)) c.input) = some d := by
          intro ps ns
          cases interp
          case bezier =>
            simp only [matched]
            split
            · simp only [respan, div_some ho, div_some hn, Option.bind_some, Option.map_some]
              exact ⟨_, rfl⟩
            · exact ⟨_, rfl⟩
          all_goals exact ⟨_, rfl⟩
        obtain ⟨d', hd'⟩ := hm (previousSpan prev input) (nextSpan (ts.head?.map (·.1)) input)
        exact ⟨d' :: rest, by rw [hd', Option.bind_some, hr, Option.map_some]⟩
      · rw [if_neg hcl]
        obtain ⟨rest, hr⟩ := ih (some input) prevC (c :: cs) hcs hp
        exact ⟨d :: rest, by rw [hd, Option.bind_some, hr, Option.map_some]⟩

omit [LinearOrder K] [IsStrictOrderedRing K] in
theorem defaultColumn_values (value : K) : ∀ (ts : List (K × Interp)) (prev : Option K),
    (defaultColumn value prev ts).length = ts.length ∧ ∀ d ∈ defaultColumn value prev ts, d.output = value := by
  intro ts
  induction ts with
  | nil => intro prev; simp [defaultColumn]
  | cons t ts ih =>
    intro prev
    obtain ⟨input, interp⟩ := t
    obtain ⟨h1, h2⟩ := ih (some input)
    rw [defaultColumn]
    refine ⟨by simp [h1], fun d hd => ?_⟩
    rcases List.mem_cons.1 hd with rfl | hd
    · rfl
    · exact h2 d hd

end Verif.Curve
