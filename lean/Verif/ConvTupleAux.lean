import Verif.ConvMore
import Verif.ConvFloatProps
import Verif.StrSearchProps

/-! # Lemmas for the properties in ConvTupleProps -/

namespace Verif.FConv

open Verif.FStr (Ch)

theorem tupleOld_eq {α : Type} {ok val} {p : List Ch → Option (α × List Ch)} (hp : ReadsToken ok val p) (count : Nat) :
    ∀ (as : List (Option (List α))) (row rest : List (List Ch)) (t : List Ch), 0 ∉ t → ok t → (t = [] ∨ tokens t ≠ []) →
      tokens t = row ++ rest → row.length = as.length → (∀ a ∈ as, ∀ l ∈ a, count < l.length) →
      ∃ t', tokens t' = rest ∧ (t' = [] ∨ tokens t' ≠ []) ∧ t'.length ≤ t.length ∧ 0 ∉ t' ∧ ok t' ∧
        (as ≠ [] → t'.length < t.length) ∧ ∀ post, tupleOld p count as (t ++ 0 :: post) =
          some (List.zipWith (fun a tok => a.map fun l => l.set count (val tok)) as row, t' ++ 0 :: post) := by
  intro as
  induction as with
  | nil =>
    intro row rest t h0 hok ht htok hl hc
    obtain rfl : row = [] := List.length_eq_zero_iff.1 hl
    exact ⟨t, by simpa using htok, ht, Nat.le_refl _, h0, hok, fun h => absurd rfl h, fun post => rfl⟩
  | cons a as ih =>
    intro row rest t h0 hok ht htok hl hc
    cases row with
    | nil => simp at hl
    | cons tok row =>
      have hne : tokens t ≠ [] := by rw [htok]; simp
      have hn : t ≠ [] := by rintro rfl; exact hne rfl
      obtain ⟨tok', u, e1, e2, e3, e4, e5, e6⟩ := hp t h0 hok hne
      rw [htok] at e1
      simp only [List.cons_append, List.cons.injEq] at e1
      obtain ⟨rfl, e1⟩ := e1
      obtain ⟨t', g1, g2, g3, g4, g5, g6, g7⟩ := ih row rest u e4 e5 e2 e1.symm (by simpa using hl)
        (fun b hb => hc b (by simp [hb]))
      refine ⟨t', g1, g2, by omega, g4, g5, fun _ => by omega, fun post => ?_⟩
      unfold tupleOld
      rw [deref_eq, Option.bind_some, if_neg (headD_ne h0 hn), e6 post, Option.bind_some]
      cases a with
      | none => simp only [g7 post, Option.map_some]; rfl
      | some l =>
        simp only
        rw [if_pos (hc (some l) (by simp) l rfl), g7 post, Option.map_some]; rfl

theorem tuplePush_eq {α : Type} {ok val} {p : List Ch → Option (α × List Ch)} (hp : ReadsToken ok val p) :
    ∀ (as : List (Option (List α))) (row rest : List (List Ch)) (t : List Ch), 0 ∉ t → ok t → (t = [] ∨ tokens t ≠ []) →
      tokens t = row ++ rest → row.length = as.length →
      ∃ t', tokens t' = rest ∧ (t' = [] ∨ tokens t' ≠ []) ∧ t'.length ≤ t.length ∧ 0 ∉ t' ∧ ok t' ∧
        (as ≠ [] → t'.length < t.length) ∧ ∀ post, tuplePush p as (t ++ 0 :: post) =
          some (List.zipWith (fun a tok => a.map fun l => l ++ [val tok]) as row, true, t' ++ 0 :: post) := by
  intro as
  induction as with
  | nil =>
    intro row rest t h0 hok ht htok hl
    obtain rfl : row = [] := List.length_eq_zero_iff.1 hl
    exact ⟨t, by simpa using htok, ht, Nat.le_refl _, h0, hok, fun h => absurd rfl h, fun post => rfl⟩
  | cons a as ih =>
    intro row rest t h0 hok ht htok hl
    cases row with
    | nil => simp at hl
    | cons tok row =>
      have hne : tokens t ≠ [] := by rw [htok]; simp
      have hn : t ≠ [] := by rintro rfl; exact hne rfl
      obtain ⟨tok', u, e1, e2, e3, e4, e5, e6⟩ := hp t h0 hok hne
      rw [htok] at e1
      simp only [List.cons_append, List.cons.injEq] at e1
      obtain ⟨rfl, e1⟩ := e1
      obtain ⟨t', g1, g2, g3, g4, g5, g6, g7⟩ := ih row rest u e4 e5 e2 e1.symm (by simpa using hl)
      refine ⟨t', g1, g2, by omega, g4, g5, fun _ => by omega, fun post => ?_⟩
      unfold tuplePush
      rw [deref_eq, Option.bind_some, if_neg (headD_ne h0 hn), e6 post, Option.bind_some, g7 post, Option.map_some]
      rfl

/-- The arrays after the rows `done`: the columns read, then what is left of the old elements. -/
def state {α : Type} (d : α) (old : List (Option (List α))) (done : List (List α)) : List (Option (List α)) :=
  old.mapIdx fun i a => a.map fun l => done.map (·.getD i d) ++ l.drop done.length

theorem state_set {α : Type} (d : α) (old : List (Option (List α))) (done : List (List α)) (row : List α)
    (hl : row.length = old.length) (hc : ∀ a ∈ old, ∀ l ∈ a, done.length < l.length) :
    List.zipWith (fun a v => a.map fun l => l.set done.length v) (state d old done) row = state d old (done ++ [row]) := by
  apply List.ext_getElem
  · simp [state, hl]
  · intro i h1 h2
    simp only [state, List.getElem_zipWith, List.getElem_mapIdx]
    have hi : i < old.length := by simpa [state] using h2
    cases ha : old[i] with
    | none => rfl
    | some l =>
      have := hc (some l) (ha ▸ List.getElem_mem hi) l rfl
      simp only [Option.map_some]
      congr 1
      rw [List.set_append_right _ _ (by simp), List.length_map, Nat.sub_self, List.drop_eq_getElem_cons this, List.set_cons_zero]
      have hr : i < row.length := by omega
      simp [List.getD_eq_getElem?_getD, hr]

theorem state_push {α : Type} (d : α) (old : List (Option (List α))) (done : List (List α)) (row : List α)
    (hl : row.length = old.length) (hc : ∀ a ∈ old, ∀ l ∈ a, l.length ≤ done.length) :
    List.zipWith (fun a v => a.map fun l => l ++ [v]) (state d old done) row = state d old (done ++ [row]) := by
  apply List.ext_getElem
  · simp [state, hl]
  · intro i h1 h2
    simp only [state, List.getElem_zipWith, List.getElem_mapIdx]
    have hi : i < old.length := by simpa [state] using h2
    cases ha : old[i] with
    | none => rfl
    | some l =>
      have := hc (some l) (ha ▸ List.getElem_mem hi) l rfl
      simp only [Option.map_some]
      congr 1
      have hr : i < row.length := by omega
      rw [List.drop_eq_nil_of_le this, List.drop_eq_nil_of_le (by simp; omega)]
      simp [List.getD_eq_getElem?_getD, hr]

theorem zipWith_val {α β : Type} (val : List Ch → α) (f : β → α → β) (as : List β) (row : List (List Ch)) :
    List.zipWith (fun a tok => f a (val tok)) as row = List.zipWith f as (row.map val) := by
  rw [List.zipWith_map_right]

theorem tuplePush_part {α : Type} {ok val} {p : List Ch → Option (α × List Ch)} (hp : ReadsToken ok val p) :
    ∀ (as : List (Option (List α))) (part : List (List Ch)) (t : List Ch), 0 ∉ t → ok t → (t = [] ∨ tokens t ≠ []) →
      tokens t = part → part.length < as.length → ∀ post, ∃ more : List (List α), more.length = as.length ∧
        tuplePush p as (t ++ 0 :: post) = some (List.zipWith (fun a x => a.map (· ++ x)) as more, false, 0 :: post) := by
  intro as
  induction as with
  | nil => intro part t _ _ _ _ hl; simp at hl
  | cons a as ih =>
    intro part t h0 hok ht htok hl post
    have hnil : ∀ bs : List (Option (List α)), List.zipWith (fun a x => a.map (· ++ x)) bs (List.replicate bs.length []) = bs := by
      intro bs
      induction bs with
      | nil => rfl
      | cons b bs ihb =>
        rw [List.length_cons, List.replicate_succ, List.zipWith_cons_cons, ihb]
        cases b <;> simp
    cases part with
    | nil =>
      have : t = [] := ht.resolve_right fun h => h htok
      subst this
      exact ⟨List.replicate (a :: as).length [], by simp, by rw [hnil]; simp [tuplePush, deref]⟩
    | cons tok part =>
      have hne : tokens t ≠ [] := by rw [htok]; simp
      have hn : t ≠ [] := by rintro rfl; exact hne rfl
      obtain ⟨tok', u, e1, e2, e3, e4, e5, e6⟩ := hp t h0 hok hne
      rw [htok] at e1
      simp only [List.cons.injEq] at e1
      obtain ⟨rfl, e1⟩ := e1
      obtain ⟨more, g1, g2⟩ := ih part u e4 e5 e2 e1.symm (by simpa using hl) post
      refine ⟨[val tok] :: more, by simp [g1], ?_⟩
      unfold tuplePush
      rw [deref_eq, Option.bind_some, if_neg (headD_ne h0 hn), e6 post, Option.bind_some, g2, Option.map_some]
      rfl

theorem interOld_eq {α : Type} (d : α) {ok val} {p : List Ch → Option (α × List Ch)} (hp : ReadsToken ok val p)
    (old : List (Option (List α))) (hold : old ≠ []) (n0 : Nat) (hn0 : ∀ a ∈ old, ∀ l ∈ a, l.length = n0)
    (rest : List (List Ch)) :
    ∀ (n : Nat) (rows : List (List (List Ch))) (done : List (List α)) (t : List Ch), done.length + n = n0 → 0 ∉ t → ok t →
      (t = [] ∨ tokens t ≠ []) → tokens t = rows.flatten ++ rest → (∀ r ∈ rows, r.length = old.length) → (rest ≠ [] → n ≤ rows.length) →
      ∃ t', tokens t' = (rows.drop n).flatten ++ rest ∧ (t' = [] ∨ tokens t' ≠ []) ∧ 0 ∉ t' ∧ ok t' ∧ ∀ post,
        interOld p n done.length (state d old done) (t ++ 0 :: post) =
          some (state d old (done ++ (rows.take n).map (·.map val)), (done ++ (rows.take n).map (·.map val)).length, t' ++ 0 :: post) := by
  intro n
  induction n with
  | zero => intro rows done t _ h0 hok ht htok hr _; exact ⟨t, by simpa using htok, ht, h0, hok, fun post => by simp [interOld]⟩
  | succ n ih =>
    intro rows done t hd h0 hok ht htok hr hre
    cases rows with
    | nil =>
      obtain rfl : rest = [] := by
        by_contra h
        have := hre h
        simp at this
      have : t = [] := ht.resolve_right fun h => h htok
      subst this
      exact ⟨[], by simp [tokens, tokensFrom], Or.inl rfl, h0, hok, fun post => by simp [interOld, deref]⟩
    | cons row rows =>
      have hl := hr row (by simp)
      have hc : ∀ a ∈ state d old done, ∀ l ∈ a, done.length < l.length := by
        intro a ha l hm
        obtain ⟨i, hi, rfl⟩ := List.getElem_of_mem ha
        have hi' : i < old.length := by simpa [state] using hi
        simp only [state, List.getElem_mapIdx] at hm
        obtain ⟨l', hl', rfl⟩ := Option.map_eq_some_iff.1 hm
        have := hn0 _ (List.getElem_mem hi') l' hl'
        simp; omega
      obtain ⟨t', g1, g2, g3, g4, g5, g6, g7⟩ := tupleOld_eq hp done.length (state d old done) row (rows.flatten ++ rest) t h0 hok ht
        (by rw [htok]; simp) (by rw [hl]; simp [state]) hc
      have hst : state d old done ≠ [] := by
        intro e
        have := congrArg List.length e
        simp [state] at this; exact hold this
      have hlt := g6 hst
      have hn : t ≠ [] := by rintro rfl; simp at hlt
      obtain ⟨t'', f1, f2, f3, f4, f5⟩ := ih rows (done ++ [row.map val]) t' (by simp; omega) g4 g5 g2 g1
        (fun r hm => hr r (by simp [hm])) (fun h => by have := hre h; simpa using this)
      refine ⟨t'', by simpa using f1, f2, f3, f4, fun post => ?_⟩
      unfold interOld
      rw [deref_eq, Option.bind_some, if_neg (headD_ne h0 hn), g7 post, Option.bind_some]
      simp only
      rw [zipWith_val val (fun (a : Option (List α)) v => a.map fun l => l.set done.length v),
        state_set d old done (row.map val) (by simpa using hl) (fun a ha l hm => by rw [hn0 a ha l hm]; omega)]
      have := f5 post
      rw [List.length_append] at this
      simp only [List.length_singleton] at this
      rw [this]
      simp

theorem zipWith_none {α : Type} (bs : List (Option (List α))) :
    List.zipWith (fun a x => a.map (· ++ x)) bs (List.replicate bs.length []) = bs := by
  induction bs with
  | nil => rfl
  | cons b bs ihb =>
    rw [List.length_cons, List.replicate_succ, List.zipWith_cons_cons, ihb]
    cases b <;> simp

theorem interPush_eq {α : Type} (d : α) {ok val} {p : List Ch → Option (α × List Ch)} (hp : ReadsToken ok val p)
    (old : List (Option (List α))) (hold : old ≠ [])
    (rest : List (List Ch)) (hrest : rest.length < old.length) :
    ∀ (rows : List (List (List Ch))) (fuel : Nat) (done : List (List α)) (t : List Ch), t.length < fuel → 0 ∉ t → ok t →
      (t = [] ∨ tokens t ≠ []) → tokens t = rows.flatten ++ rest → (∀ r ∈ rows, r.length = old.length) →
      (rows ≠ [] → ∀ a ∈ old, ∀ l ∈ a, l.length ≤ done.length) → ∀ post,
        ∃ more : List (List α), more.length = old.length ∧ interPush p fuel done.length (state d old done) (t ++ 0 :: post) =
          some (List.zipWith (fun a x => a.map (· ++ x)) (state d old (done ++ rows.map (·.map val))) more,
            (done ++ rows.map (·.map val)).length) := by
  intro rows
  induction rows with
  | nil =>
    intro fuel done t hf h0 hok ht htok hr hc post
    obtain ⟨f, rfl⟩ : ∃ f, fuel = f + 1 := ⟨fuel - 1, by omega⟩
    rw [List.flatten_nil, List.nil_append] at htok
    have hlen : (state d old done).length = old.length := by simp [state]
    by_cases hn : t = []
    · subst hn
      refine ⟨List.replicate (state d old done).length [], by simp [hlen], ?_⟩
      rw [List.map_nil, List.append_nil, zipWith_none]
      simp [interPush, deref]
    · obtain ⟨more, g1, g2⟩ := tuplePush_part hp (state d old done) rest t h0 hok ht htok (by rw [hlen]; exact hrest) post
      refine ⟨more, by rw [g1, hlen], ?_⟩
      have : 0 < t.length := List.length_pos_iff.2 hn
      obtain ⟨g, rfl⟩ : ∃ g, f = g + 1 := ⟨f - 1, by omega⟩
      unfold interPush
      rw [deref_eq, Option.bind_some, if_neg (headD_ne h0 hn), g2, Option.bind_some]
      simp [interPush, deref]
  | cons row rows ih =>
    intro fuel done t hf h0 hok ht htok hr hc post
    obtain ⟨f, rfl⟩ : ∃ f, fuel = f + 1 := ⟨fuel - 1, by omega⟩
    have hl := hr row (by simp)
    obtain ⟨t', g1, g2, g3, g4, g5, g6, g7⟩ := tuplePush_eq hp (state d old done) row (rows.flatten ++ rest) t h0 hok ht
      (by rw [htok]; simp) (by rw [hl]; simp [state])
    have hst : state d old done ≠ [] := by
      intro e
      have := congrArg List.length e
      simp [state] at this; exact hold this
    have hlt := g6 hst
    have hn : t ≠ [] := by rintro rfl; simp at hlt
    have hc' := hc (by simp)
    unfold interPush
    rw [deref_eq, Option.bind_some, if_neg (headD_ne h0 hn), g7 post, Option.bind_some]
    simp only [if_true]
    rw [zipWith_val val (fun (a : Option (List α)) v => a.map fun l => l ++ [v]),
      state_push d old done (row.map val) (by simpa using hl) hc']
    obtain ⟨more, m1, m2⟩ := ih f (done ++ [row.map val]) t' (by omega) g4 g5 g2 g1 (fun r hm => hr r (by simp [hm]))
      (fun _ a ha l hm => by have := hc' a ha l hm; simp; omega) post
    refine ⟨more, m1, ?_⟩
    rw [List.length_append] at m2
    simp only [List.length_singleton] at m2
    rw [m2]
    simp

theorem toInterleaved_eq {α : Type} (d : α) {ok val} {p : List Ch → Option (α × List Ch)} (hp : ReadsToken ok val p)
    (old : List (Option (List α))) (l0 : List α) (h1 : old.head? = some (some l0))
    (hn0 : ∀ a ∈ old, ∀ l ∈ a, l.length = l0.length) (rows : List (List (List Ch))) (rest : List (List Ch)) (t post : List Ch) (h0 : 0 ∉ t) (hok : ok t)
    (ht : t = [] ∨ tokens t ≠ []) (htok : tokens t = rows.flatten ++ rest) (hr : ∀ r ∈ rows, r.length = old.length)
    (hrest : rest.length < old.length) (hre : rest ≠ [] → l0.length ≤ rows.length) :
    toInterleaved p d (t ++ 0 :: post) old =
      some (old.mapIdx fun i a => a.map fun _ => rows.map fun r => (r.map val).getD i d) := by
  have hold : old ≠ [] := by rintro rfl; simp at h1
  have hpos : 0 < old.length := List.length_pos_iff.2 hold
  unfold toInterleaved
  rw [deref_eq, Option.bind_some]
  by_cases hn : t = []
  · subst hn
    have : rows = [] := by
      cases rows with
      | nil => rfl
      | cons r rows =>
        have h2 := congrArg List.length htok
        have h3 := hr r (by simp)
        rw [List.length_append, List.flatten_cons, List.length_append] at h2
        simp [tokens, tokensFrom] at h2
        omega
    subst this
    rw [if_pos (show ([] : List Ch).headD 0 = 0 ∨ old.length = 0 from Or.inl rfl)]
    congr 1
    apply List.ext_getElem
    · simp
    · intro i hi _
      have hi' : i < old.length := by simpa using hi
      simp only [List.getElem_map, List.getElem_mapIdx]
      cases old[i] <;> simp [resizeTo]
  · rw [if_neg (by rintro (h | h); exact headD_ne h0 hn h; omega), h1]
    simp only
    obtain ⟨t', e1, e2, e3, e4, e5⟩ := interOld_eq d hp old hold l0.length hn0 rest l0.length rows [] t (by simp) h0 hok ht htok
      hr hre
    have hs : state d old [] = old := by
      apply List.ext_getElem
      · simp [state]
      · intro i _ _
        simp only [state, List.getElem_mapIdx]
        cases old[i] <;> simp
    have e5' := e5 post
    rw [hs] at e5'
    simp only [List.length_nil, List.nil_append] at e5'
    rw [e5', Option.bind_some]
    simp only
    obtain ⟨more, m1, m2⟩ := interPush_eq d hp old hold rest hrest (rows.drop l0.length) ((t' ++ 0 :: post).length + 1)
      ((rows.take l0.length).map (·.map val)) t' (by simp; omega) e3 e4 e2 e1 (fun r hm => hr r (List.mem_of_mem_drop hm)) (by
        intro hne a ha l hm
        have hlt : l0.length < rows.length := by
          by_contra hge
          exact hne (List.drop_eq_nil_of_le (by omega))
        rw [hn0 a ha l hm]
        simp; omega) post
    rw [m2, Option.map_some]
    · simp only
      rw [← List.map_append, List.take_append_drop]
      congr 1
      apply List.ext_getElem
      · simp [state, m1]
      · intro i hi hj
        have hi' : i < old.length := by simpa using hj
        simp only [List.getElem_map, List.getElem_mapIdx, state, List.getElem_zipWith]
        cases old[i] with
        | none => rfl
        | some l =>
          simp only [Option.map_some]
          congr 1
          unfold resizeTo
          rw [List.append_assoc, List.take_left' (by simp)]
          simp

theorem decimal_length_le : ∀ (w n : Nat), 0 < w → n < 10 ^ w → (FBld.decimal n).length ≤ w := by
  intro w
  induction w with
  | zero => intro n h; omega
  | succ w ih =>
    intro n _ hn
    unfold FBld.decimal
    split
    · simp
    · rename_i h10
      rcases Nat.eq_zero_or_pos w with rfl | hw
      · omega
      · have := ih (n / 10) hw (by rw [Nat.pow_succ] at hn; omega)
        simp; omega

theorem padded_length (w n : Nat) (hw : 0 < w) (hn : n < 10 ^ w) : (padded w n).length = w := by
  have := decimal_length_le w n hw hn
  simp [padded]; omega

theorem padded_digits (w n : Nat) : ∀ c ∈ padded w n, digit c = true := by
  intro c hc
  rcases List.mem_append.1 hc with hc | hc
  · obtain ⟨_, rfl⟩ := List.mem_replicate.1 hc; decide
  · exact decimal_digits n c hc

theorem decVal_padded (w n : Nat) : decVal (padded w n) = n := by
  unfold padded
  generalize w - (FBld.decimal n).length = k
  induction k with
  | zero => simpa using decVal_decimal n
  | succ k ih =>
    rw [List.replicate_succ, List.cons_append, decVal, ih]
    simp

theorem strlen_eq (t post : List Ch) (h : 0 ∉ t) : FStr.strlen (t ++ 0 :: post) = some t.length := by
  induction t with
  | nil => simp [FStr.strlen]
  | cons c t ih =>
    have hc : c ≠ 0 := by rintro rfl; simp at h
    have ht : 0 ∉ t := fun x => h (by simp [x])
    simp [FStr.strlen, hc, ih ht]

theorem uintAt_padded (w n : Nat) (hw : 0 < w) (hn : n < 10 ^ w) (hw2 : w ≤ 4) (sep : Ch) (hs : digit sep = false)
    (rest post : List Ch) (h0 : 0 ∉ sep :: rest) : uintAt (padded w n ++ sep :: (rest ++ 0 :: post)) = some n := by
  have hz : 0 ∉ padded w n ++ sep :: rest := by
    intro h
    rcases List.mem_append.1 h with h | h
    · exact (digit_cases (padded_digits w n 0 h)).1 rfl
    · exact h0 h
  have hne : padded w n ≠ [] := by
    intro e
    have := padded_length w n hw hn
    rw [e] at this
    simp at this; omega
  have hcat : padded w n ++ sep :: (rest ++ 0 :: post) = (padded w n ++ sep :: rest) ++ 0 :: post := by simp
  unfold uintAt
  rw [hcat, toUInt32_eq _ _ hz, Option.map_some]
  have hd : (padded w n ++ sep :: rest).dropWhile blank = padded w n ++ sep :: rest := by
    apply dropWhile_of_neg
    obtain ⟨c, u, e⟩ := List.exists_cons_of_ne_nil hne
    intro x hx
    rw [e] at hx
    simp at hx; subst hx
    exact digit_not_blank (padded_digits w n c (by rw [e]; simp))
  have ht : (padded w n ++ sep :: rest).takeWhile digit = padded w n := by
    rw [List.takeWhile_append_of_pos (padded_digits w n), List.takeWhile_cons_of_neg (by simp [hs])]
    simp
  have hlt : n < 2 ^ 32 := by
    have : 10 ^ w ≤ 10 ^ 4 := Nat.pow_le_pow_right (by decide) hw2
    omega
  simp only [hd, ht, decVal_padded, Nat.mod_eq_of_lt hlt]

theorem nameLoop_eq (post : List Ch) : ∀ (fuel : Nat) (done : List (List Ch)) (t : List Ch), 0 ∉ t → t.length < fuel →
    (∀ c ∈ t.head?, blank c = false) → nameLoop fuel done [] (t ++ 0 :: post) = some (done ++ tokens t) := by
  intro fuel
  induction fuel with
  | zero => intro _ _ _ h; omega
  | succ fuel ih =>
    intro done t h0 hf hb
    unfold nameLoop
    rw [deref_eq, Option.bind_some]
    by_cases hn : t = []
    · subst hn
      rw [if_pos (show ([] : List Ch).headD 0 = 0 from rfl)]
      simp [tokens, tokensFrom]
    · rw [if_neg (headD_ne h0 hn), skipWhile_eq _ _ _ h0, Option.bind_some,
        skipWhile_eq _ _ _ (notMem_of_suffix (List.dropWhile_suffix _) h0), Option.bind_some]
      simp only
      have hsplit := List.takeWhile_append_dropWhile (p := fun c => !blank c) (l := t)
      have hlen := congrArg List.length hsplit
      rw [List.length_append] at hlen
      have hword : (t ++ 0 :: post).take ((t ++ 0 :: post).length - (t.dropWhile (fun c => !blank c) ++ 0 :: post).length) =
          t.takeWhile fun c => !blank c := by
        have e : (t ++ 0 :: post).length - (t.dropWhile (fun c => !blank c) ++ 0 :: post).length =
            (t.takeWhile fun c => !blank c).length := by
          simp only [List.length_append]; omega
        rw [e]
        have e2 : t ++ 0 :: post = (t.takeWhile fun c => !blank c) ++ ((t.dropWhile fun c => !blank c) ++ 0 :: post) := by
          rw [← List.append_assoc, hsplit]
        rw [e2]
        exact List.take_left' rfl
      rw [hword]
      have hpos : 0 < (t.takeWhile fun c => !blank c).length := by
        obtain ⟨c, u, rfl⟩ := List.exists_cons_of_ne_nil hn
        have := hb c rfl
        rw [List.takeWhile_cons_of_pos (by simp [this])]; simp
      have hsuf := (List.dropWhile_suffix blank (l := t.dropWhile fun c => !blank c))
      have := hsuf.length_le
      rw [ih _ _ (notMem_of_suffix (hsuf.trans (List.dropWhile_suffix _)) h0) (by omega) (head_dropWhile _ _),
        tokens_cons hn hb, tokens_dropWhile]
      simp

end Verif.FConv
