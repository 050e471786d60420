import Verif.ConvFloat
import Verif.ConvLemmas

/-!
# Decimal literals (specification) and how `ToFloat` reads them
-/

namespace Verif.FConv

open Verif.FStr (Ch)

/-- A decimal literal: sign, integer digits, optional fraction digits, optional exponent (the letter, its sign, its digits). -/
structure Lit where
  neg : Bool
  int : List Ch
  frac : Option (List Ch)
  ex : Option (Ch × Bool × List Ch)

/-- The exponent part as written. -/
def exText (x : Ch × Bool × List Ch) : List Ch := x.1 :: ((if x.2.1 then [45] else []) ++ x.2.2)

/-- The fraction part as written. -/
def fracText : Option (List Ch) → List Ch
  | none => []
  | some F => 46 :: F

/-- The literal as written. -/
def Lit.text (L : Lit) : List Ch :=
  (if L.neg then [45] else []) ++ L.int ++ fracText L.frac ++
    (match L.ex with | none => [] | some x => exText x)

/-- The value of the fraction part. -/
def fracVal : Option (List Ch) → ℚ
  | none => 0
  | some F => decVal F / 10 ^ F.length

/-- The number it denotes. -/
def Lit.value (L : Lit) : ℚ :=
  (if L.neg then -1 else 1) *
    (decVal L.int + fracVal L.frac) *
    (match L.ex with | none => 1 | some x => 10 ^ ((if x.2.1 then -1 else 1) * (decVal x.2.2 : Int)))

/-- Well-formed: digits where digits belong, at least one digit in the mantissa and in the exponent, and an exponent that an `int`
holds. -/
def Lit.WF (L : Lit) : Prop :=
  (∀ c ∈ L.int, IsDigit c) ∧ (∀ F ∈ L.frac, ∀ c ∈ F, IsDigit c) ∧ (L.int ≠ [] ∨ ∃ F ∈ L.frac, F ≠ []) ∧
  ∀ x ∈ L.ex, (x.1 = 101 ∨ x.1 = 69) ∧ x.2.2 ≠ [] ∧ (∀ c ∈ x.2.2, IsDigit c) ∧ decVal x.2.2 + 48 < 2 ^ 31

theorem isDigit_digit {c : Ch} (h : IsDigit c) : digit c = true := by rw [digit_iff]; exact decide_eq_true h

theorem digit_cases {c : Ch} (h : digit c = true) : c ≠ 0 ∧ c ≠ 46 ∧ c ≠ 101 ∧ c ≠ 69 ∧ c ≠ 73 ∧ c ≠ 45 := by
  refine ⟨?_, ?_, ?_, ?_, ?_, ?_⟩ <;> (rintro rfl; revert h; decide)

theorem intCast_toNat_digit {c : Int} (h : digit c = true) : ((c - 48 : Int) : ℚ) = (((c - 48).toNat : Nat) : ℚ) := by
  have h1 : (((c - 48).toNat : Nat) : Int) = c - 48 := by
    have : IsDigit c := by rw [digit_iff] at h; exact of_decide_eq_true h
    unfold IsDigit at this
    exact Int.toNat_of_nonneg (Int.sub_nonneg_of_le this.1)
  rw [← Int.cast_natCast, h1]

theorem floatLoop_digits (ov : Ov) (D : List Ch) (hD : ∀ c ∈ D, digit c = true) : ∀ (st : FState) (rest : List Ch),
    floatLoop ov st (D ++ rest) =
      floatLoop ov { st with val := st.val * 10 ^ D.length + decVal D, dec := st.dec * 10 ^ D.length } rest := by
  induction D with
  | nil => intro st rest; simp [decVal]
  | cons c D ih =>
    intro st rest
    have hc := hD c (by simp)
    obtain ⟨h1, h2, _⟩ := digit_cases hc
    rw [List.cons_append]
    conv => lhs; unfold floatLoop
    rw [if_neg h1, if_neg h2, if_pos hc, ih fun d hd => hD d (by simp [hd])]
    congr 1
    simp only [FState.mk.injEq, and_true]
    constructor
    · rw [decVal]
      have : ((c - 48 : Int) : ℚ) = (((c - 48).toNat : Nat) : ℚ) := by
        exact (intCast_toNat_digit hc)
      rw [this]
      push_cast
      rw [List.length_cons, pow_succ]
      ring
    · rw [List.length_cons, pow_succ]; ring

/-- The text ends here or a blank follows. -/
def Ends (u : List Ch) : Prop := ∀ c ∈ u.head?, blank c = true

theorem blank_cases {c : Ch} (h : blank c = true) : c ≠ 0 ∧ c ≠ 46 ∧ digit c = false ∧ c ≠ 101 ∧ c ≠ 69 ∧ c ≠ 73 ∧ c ≠ 45 := by
  have h7 : digit c = false := by
    cases hd : digit c with
    | false => rfl
    | true => rw [digit_not_blank hd] at h; cases h
  refine ⟨?_, ?_, h7, ?_, ?_, ?_, ?_⟩ <;> (rintro rfl; revert h; decide)

theorem floatLoop_end (ov : Ov) (st : FState) (u post : List Ch) (hu : Ends u) :
    floatLoop ov st (u ++ 0 :: post) = some (st, u ++ 0 :: post) := by
  cases u with
  | nil => simp [floatLoop]
  | cons c u =>
    obtain ⟨h1, h2, h3, h4, h5, h6, _⟩ := blank_cases (hu c (by simp))
    simp [floatLoop, h1, h2, h3, h4, h5, h6]

/-- The state after the mantissa. -/
def mantissa (int : List Ch) (frac : Option (List Ch)) : FState :=
  match frac with
  | none => ⟨decVal int, 0, 0, false⟩
  | some F => ⟨decVal int * 10 ^ F.length + decVal F, 10 ^ F.length, 0, false⟩

theorem floatLoop_mantissa (ov : Ov) (int : List Ch) (frac : Option (List Ch)) (h1 : ∀ c ∈ int, digit c = true)
    (h2 : ∀ F ∈ frac, ∀ c ∈ F, digit c = true) (rest : List Ch) :
    floatLoop ov ⟨0, 0, 0, false⟩ (int ++ (fracText frac ++ rest)) =
      floatLoop ov (mantissa int frac) rest := by
  rw [floatLoop_digits ov int h1]
  cases frac with
  | none => simp [mantissa, fracText]
  | some F =>
    show floatLoop ov _ (46 :: (F ++ rest)) = _
    conv => lhs; unfold floatLoop
    rw [if_neg (by decide), if_pos rfl, floatLoop_digits ov F (h2 F rfl)]
    simp [mantissa]

theorem ends_dropWhile_nonblank {u : List Ch} (hu : Ends u) : (u.dropWhile fun c => !blank c) = u :=
  dropWhile_of_neg fun c hc => by simp [hu c hc]

theorem takeWhile_digits_ends {X u : List Ch} (hX : ∀ c ∈ X, digit c = true) (hu : Ends u) :
    (X ++ u).takeWhile digit = X ∧ (X ++ u).dropWhile digit = u := by
  have h1 : u.takeWhile digit = [] := by
    cases u with
    | nil => rfl
    | cons c u => exact List.takeWhile_cons_of_neg (by simp [(blank_cases (hu c (by simp))).2.2.1])
  have h2 : u.dropWhile digit = u := dropWhile_of_neg fun c hc => (blank_cases (hu c hc)).2.2.1
  rw [List.takeWhile_append_of_pos hX, List.dropWhile_append_of_pos hX, h1, h2]
  simp

theorem exponent_split (s : Bool) (X u : List Ch) (hX : ∀ c ∈ X, digit c = true) (hne : X ≠ []) :
    splitSign ((((if s then [45] else []) ++ X) ++ u).dropWhile blank) = (if s then -1 else 1, X ++ u) := by
  obtain ⟨x, X', rfl⟩ := List.exists_cons_of_ne_nil hne
  have hx := hX x (by simp)
  cases s with
  | true => rfl
  | false =>
    have hd : ((([] : List Ch) ++ x :: X') ++ u).dropWhile blank = x :: X' ++ u := by
      rw [List.nil_append]
      apply dropWhile_of_neg
      intro c hc; simp at hc; subst hc; exact digit_not_blank hx
    show splitSign (((([] : List Ch) ++ x :: X') ++ u).dropWhile blank) = (1, x :: X' ++ u)
    rw [hd]
    exact if_neg (digit_cases hx).2.2.2.2.2

theorem stepBack_eq (A : List Ch) (a : Ch) (x : List Ch) : stepBack (A ++ a :: x) x = a :: x := by
  unfold stepBack
  have : (A ++ a :: x).length - (x.length + 1) = A.length := by simp
  rw [this, List.drop_left]

theorem skipToken_back (a : Ch) (x post : List Ch) (h0 : 0 ∉ a :: x) (hx : ∀ c ∈ x.head?, blank c = false)
    (ha : blank a = true ∨ x = []) : skipToken (a :: x ++ 0 :: post) = some (x ++ 0 :: post) := by
  rw [skipToken_eq _ _ h0]
  by_cases hb : blank a = true
  · rw [List.dropWhile_cons_of_neg (by simp [hb]), List.dropWhile_cons_of_pos hb, dropWhile_of_neg hx]
  · have := ha.resolve_left hb; subst this
    rw [List.dropWhile_cons_of_pos (by simpa using hb)]; rfl

/-- The exponent: its value, and that the cursor ends up after the blanks behind the literal. -/
theorem floatLoop_exponent (ov : Ov) (st : FState) (e : Ch) (he : e = 101 ∨ e = 69) (s : Bool) (X u post : List Ch)
    (hX : ∀ c ∈ X, digit c = true) (hne : X ≠ []) (hb : decVal X + 48 < 2 ^ 31) (hu : Ends u) (h0 : 0 ∉ u) (h13 : 13 ∉ u) :
    ∃ s2, floatLoop ov st (exText (e, s, X) ++ (u ++ 0 :: post)) =
        some ({ st with exp := (if s then -1 else 1) * (decVal X : Int) }, s2) ∧
      skipToken s2 = some (u.dropWhile blank ++ 0 :: post) := by
  have hX0 : 0 ∉ X := fun h => (digit_cases (hX 0 h)).1 rfl
  have hX13 : 13 ∉ X := fun h => by have := digit_not_blank (hX 13 h); revert this; decide
  have hmem : ∀ k : Ch, k ≠ 45 → k ∉ X → k ∉ u → k ∉ ((if s then [45] else []) ++ X) ++ u := by
    intro k h1 h2 h3 h
    rcases List.mem_append.1 h with h | h
    · rcases List.mem_append.1 h with h | h
      · cases s <;> simp at h; exact h1 h
      · exact h2 h
    · exact h3 h
  have ht0 := hmem 0 (by decide) hX0 h0
  have ht13 := hmem 13 (by decide) hX13 h13
  obtain ⟨hd1, hd2⟩ := takeWhile_digits_ends hX hu
  have hsp := exponent_split s X u hX hne
  have hid : intDigits (((if s then [45] else []) ++ X) ++ u) = X := by
    unfold intDigits; rw [hsp]; exact hd1
  have haf : afterInt (((if s then [45] else []) ++ X) ++ u) = u.dropWhile blank := by
    unfold afterInt
    rw [hsp, rest3_eq]
    · show List.dropWhile blank (List.dropWhile _ ((X ++ u).dropWhile digit)) = _
      rw [hd2, ends_dropWhile_nonblank hu]
    · show 13 ∉ (X ++ u).dropWhile digit
      rw [hd2]; exact h13
  have hint := toInt32_small ov (((if s then [45] else []) ++ X) ++ u) post ht0 (by rw [hid]; exact hb)
  rw [hid, haf, hsp] at hint
  -- the character before the cursor
  have hpre : ∃ A a, e :: (((if s then [45] else []) ++ X) ++ u) = A ++ a :: u.dropWhile blank ∧
      (blank a = true ∨ u.dropWhile blank = []) ∧ a ≠ 0 := by
    have hsplit : u.takeWhile blank ++ u.dropWhile blank = u := List.takeWhile_append_dropWhile
    by_cases hB : u.takeWhile blank = []
    · have hun : u = [] := by
        cases u with
        | nil => rfl
        | cons c u => rw [List.takeWhile_cons_of_pos (hu c (by simp))] at hB; cases hB
      subst hun
      refine ⟨e :: ((if s then [45] else []) ++ X.dropLast), X.getLast hne, ?_, Or.inr rfl, ?_⟩
      · simp only [List.append_nil, List.dropWhile_nil, List.cons_append, List.append_assoc]
        rw [List.dropLast_append_getLast]
      · intro hz; exact hX0 (hz ▸ List.getLast_mem hne)
    · have hla : blank ((u.takeWhile blank).getLast hB) = true := List.mem_takeWhile_imp (List.getLast_mem hB)
      refine ⟨e :: ((if s then [45] else []) ++ X ++ (u.takeWhile blank).dropLast), (u.takeWhile blank).getLast hB, ?_,
        Or.inl hla, (blank_cases hla).1⟩
      conv => lhs; rw [← hsplit, ← List.dropLast_append_getLast hB]
      simp
  obtain ⟨A, a, hA, ha, ha0⟩ := hpre
  refine ⟨a :: u.dropWhile blank ++ 0 :: post, ?_, ?_⟩
  · have hee : exText (e, s, X) ++ (u ++ 0 :: post) = e :: ((((if s then [45] else []) ++ X) ++ u) ++ 0 :: post) := by
      simp [exText]
    rw [hee]
    conv => lhs; unfold floatLoop
    have n1 : e ≠ 0 := by rcases he with rfl | rfl <;> decide
    have n2 : e ≠ 46 := by rcases he with rfl | rfl <;> decide
    have n3 : ¬ digit e = true := by rcases he with rfl | rfl <;> decide
    rw [if_neg n1, if_neg n2, if_neg n3, if_pos he, hint, Option.map_some]
    congr 2
    have : e :: ((((if s then [45] else []) ++ X) ++ u) ++ 0 :: post) = A ++ a :: (u.dropWhile blank ++ 0 :: post) := by
      rw [← List.cons_append, hA]; simp
    show stepBack (e :: ((((if s then [45] else []) ++ X) ++ u) ++ 0 :: post)) (u.dropWhile blank ++ 0 :: post) = _
    rw [this, stepBack_eq]; rfl
  · apply skipToken_back
    · intro h
      rcases List.mem_cons.1 h with h | h
      · exact ha0 h.symm
      · exact notMem_of_suffix (List.dropWhile_suffix _) h0 h
    · exact head_dropWhile _ _
    · exact ha

theorem mantissa_value (int : List Ch) (frac : Option (List Ch)) (sg : Int) (ex : Int) :
    floatValue sg { mantissa int frac with exp := ex } =
      sg * (decVal int + fracVal frac) * 10 ^ ex := by
  have hexp : ∀ v : ℚ, (if ex ≠ 0 then v * 10 ^ ex else v) = v * 10 ^ ex := by
    intro v; split
    · rfl
    · rename_i h; have : ex = 0 := by omega
      subst this; simp
  cases frac with
  | none =>
    show (if ex ≠ 0 then ((decVal int : ℚ) * sg / (if (0 : ℚ) = 0 then 1 else 0)) * 10 ^ ex
      else ((decVal int : ℚ) * sg / (if (0 : ℚ) = 0 then 1 else 0))) = _
    rw [hexp, if_pos rfl, fracVal]; ring
  | some F =>
    show (if ex ≠ 0 then (((decVal int : ℚ) * 10 ^ F.length + decVal F) * sg /
        (if (10 : ℚ) ^ F.length = 0 then 1 else 10 ^ F.length)) * 10 ^ ex
      else (((decVal int : ℚ) * 10 ^ F.length + decVal F) * sg / (if (10 : ℚ) ^ F.length = 0 then 1 else 10 ^ F.length))) = _
    have hp : (10 : ℚ) ^ F.length ≠ 0 := pow_ne_zero _ (by norm_num)
    rw [hexp, if_neg hp, fracVal]
    congr 1
    field_simp

theorem lit_nonblank (L : Lit) (h : L.WF) : L.text ≠ [] ∧ ∀ c ∈ L.text, blank c = false ∧ c ≠ 0 ∧ c ≠ 13 := by
  obtain ⟨h1, h2, h3, h4⟩ := h
  have dg : ∀ c : Ch, IsDigit c → blank c = false ∧ c ≠ 0 ∧ c ≠ 13 := by
    intro c hc
    have := isDigit_digit hc
    refine ⟨digit_not_blank this, (digit_cases this).1, ?_⟩
    rintro rfl; revert this; decide
  constructor
  · intro he
    simp only [Lit.text, List.append_eq_nil_iff] at he
    rcases h3 with h3 | ⟨F, hF, hne⟩
    · exact h3 he.1.1.2
    · rw [Option.mem_def.1 hF] at he; simp [fracText] at he
  · intro c hc
    rw [Lit.text] at hc
    rcases List.mem_append.1 hc with hc | hc
    · rcases List.mem_append.1 hc with hc | hc
      · rcases List.mem_append.1 hc with hc | hc
        · cases hn : L.neg <;> simp [hn] at hc
          subst hc; decide
        · exact dg c (h1 c hc)
      · cases hf : L.frac with
        | none => rw [hf] at hc; cases hc
        | some F =>
          rw [hf] at hc
          rcases List.mem_cons.1 hc with rfl | hc
          · decide
          · exact dg c (h2 F hf c hc)
    · cases hx : L.ex with
      | none => rw [hx] at hc; cases hc
      | some x =>
        rw [hx] at hc
        obtain ⟨e1, e2, e3, e4⟩ := h4 x hx
        rcases List.mem_cons.1 hc with rfl | hc
        · rcases e1 with e | e <;> rw [e] <;> decide
        · rcases List.mem_append.1 hc with hc | hc
          · cases hs : x.2.1 <;> simp [hs] at hc
            subst hc; decide
          · exact dg c (e3 c hc)

/-- `ToFloat` on a literal behind blanks. -/
theorem toFloat_lit (ov : Ov) (L : Lit) (hL : L.WF) (w u post : List Ch) (hw : ∀ c ∈ w, blank c = true) (hu : Ends u)
    (h0 : 0 ∉ u) (h13 : L.ex = none ∨ 13 ∉ u) :
    toFloat ov (w ++ (L.text ++ (u ++ 0 :: post))) = some (L.value, u.dropWhile blank ++ 0 :: post) := by
  obtain ⟨hne, hnb⟩ := lit_nonblank L hL
  obtain ⟨h1, h2, h3, h4⟩ := hL
  have ht0 : 0 ∉ w ++ (L.text ++ u) := by
    intro h
    rcases List.mem_append.1 h with h | h
    · exact (blank_cases (hw 0 h)).1 rfl
    · rcases List.mem_append.1 h with h | h
      · exact (hnb 0 h).2.1 rfl
      · exact h0 h
  have hdw : (w ++ (L.text ++ u)).dropWhile blank = L.text ++ u := by
    rw [List.dropWhile_append_of_pos hw]
    obtain ⟨c, v, hv⟩ := List.exists_cons_of_ne_nil hne
    rw [hv]
    exact List.dropWhile_cons_of_neg (by simp [(hnb c (by rw [hv]; simp)).1])
  have hassoc : w ++ (L.text ++ (u ++ 0 :: post)) = (w ++ (L.text ++ u)) ++ 0 :: post := by simp
  -- the sign
  obtain ⟨B, hB, hBt, hB45⟩ : ∃ B, L.text = (if L.neg then [45] else []) ++ B ∧
      B = L.int ++ (fracText L.frac ++ (match L.ex with | none => [] | some x => exText x)) ∧
      B.head? ≠ some 45 := by
    refine ⟨_, ?_, rfl, ?_⟩
    · simp [Lit.text]
    · cases hi : L.int with
      | cons c v =>
        simp
        rintro rfl
        exact absurd (h1 45 (by rw [hi]; simp)) (by decide)
      | nil =>
        rcases h3 with h3 | ⟨F, hF, _⟩
        · exact absurd hi h3
        · rw [Option.mem_def.1 hF]; simp [fracText]
  have hsign : signI ((L.text ++ u) ++ 0 :: post) = some (if L.neg then -1 else 1, B ++ (u ++ 0 :: post)) := by
    rw [hB]
    cases hn : L.neg with
    | true => simp [signI]
    | false =>
      cases B with
      | nil =>
        exfalso
        rw [hn] at hB; exact hne hB
      | cons c v =>
        have : c ≠ 45 := by simpa using hB45
        simp [signI, this]
  unfold toFloat
  rw [hassoc, deref_eq, Option.bind_some, if_neg (headD_ne ht0 (by simp [hne])), skipWhile_eq _ _ _ ht0, Option.bind_some, hdw, hsign,
    Option.bind_some]
  simp only
  have hm := floatLoop_mantissa ov L.int L.frac (fun c hc => isDigit_digit (h1 c hc)) (fun F hF c hc => isDigit_digit (h2 F hF c hc))
  have hval : ∀ ex : Int, (match L.ex with
        | none => (1 : ℚ)
        | some x => 10 ^ ((if x.2.1 then -1 else 1) * (decVal x.2.2 : Int))) = 10 ^ ex →
      floatValue (if L.neg then -1 else 1) { mantissa L.int L.frac with exp := ex } = L.value := by
    intro ex hex
    rw [mantissa_value, Lit.value, hex]
    congr 2
    split <;> simp
  have hinf : ∀ ex : Int, ({ mantissa L.int L.frac with exp := ex } : FState).inf = false := by
    intro ex; cases L.frac <;> rfl
  cases hx : L.ex with
  | none =>
    rw [hx] at hBt
    rw [hBt]
    simp only [List.append_nil]
    rw [List.append_assoc, hm, floatLoop_end _ _ _ _ hu, Option.bind_some]
    have he : mantissa L.int L.frac = { mantissa L.int L.frac with exp := 0 } := by cases L.frac <;> rfl
    simp only
    rw [he, hinf]
    simp only [Bool.false_eq_true, if_false, Option.bind_some]
    rw [skipToken_eq _ _ h0, ends_dropWhile_nonblank hu, Option.map_some, hval 0 (by rw [hx]; simp)]
  | some x =>
    obtain ⟨e1, e2, e3, e4⟩ := h4 x hx
    obtain ⟨s2, f1, f2⟩ := floatLoop_exponent ov (mantissa L.int L.frac) x.1 e1 x.2.1 x.2.2 u post
      (fun c hc => isDigit_digit (e3 c hc)) e2 e4 hu h0 (by rcases h13 with h | h; rw [hx] at h; cases h; exact h)
    rw [hx] at hBt
    have hcat : B ++ (u ++ 0 :: post) =
        L.int ++ (fracText L.frac ++ (exText (x.1, x.2.1, x.2.2) ++ (u ++ 0 :: post))) := by
      rw [hBt]; simp
    rw [hcat, hm, f1, Option.bind_some]
    have hv := hval _ (show _ = (10 : ℚ) ^ ((if x.2.1 then -1 else 1) * (decVal x.2.2 : Int)) by rw [hx])
    have hi := hinf ((if x.2.1 then -1 else 1) * (decVal x.2.2 : Int))
    generalize ({ mantissa L.int L.frac with exp := (if x.2.1 then -1 else 1) * (decVal x.2.2 : Int) } : FState) = st at hv hi ⊢
    simp only [hi, Bool.false_eq_true, if_false, Option.bind_some]
    rw [f2, Option.map_some, hv]

end Verif.FConv
