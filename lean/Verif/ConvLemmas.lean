import Verif.Conv
import Verif.ConvSpec
import Verif.BuilderLemmas
import Mathlib.Data.List.TakeWhile

namespace Verif.FConv

open Verif.FStr (Ch)

theorem notMem_of_suffix {t t' : List Ch} (h : t' <:+ t) {c : Ch} (hc : c ∉ t) : c ∉ t' := fun h' => hc (h.subset h')

theorem skipWhile_eq (p : Ch → Bool) (t post : List Ch) (h : 0 ∉ t) :
    skipWhile p (t ++ 0 :: post) = some (t.dropWhile p ++ 0 :: post) := by
  induction t with
  | nil => simp [skipWhile]
  | cons c t ih =>
    have hc : c ≠ 0 := by rintro rfl; simp at h
    have ht : 0 ∉ t := fun x => h (by simp [x])
    rw [List.cons_append]
    unfold skipWhile
    by_cases hp : p c = true
    · rw [if_pos ⟨hc, hp⟩, ih ht, List.dropWhile_cons_of_pos hp]
    · rw [if_neg (fun x => hp x.2), List.dropWhile_cons_of_neg hp]; rfl

theorem deref_eq (t post : List Ch) : deref (t ++ 0 :: post) = some (t.headD 0) := by cases t <;> rfl

theorem skipToken3_eq (t post : List Ch) (h : 0 ∉ t) :
    skipToken3 (t ++ 0 :: post) = some ((t.dropWhile fun c => !blank3 c).dropWhile blank3 ++ 0 :: post) := by
  unfold skipToken3
  rw [skipWhile_eq _ _ _ h, Option.bind_some, skipWhile_eq _ _ _ (notMem_of_suffix (List.dropWhile_suffix _) h)]

theorem skipToken_eq (t post : List Ch) (h : 0 ∉ t) :
    skipToken (t ++ 0 :: post) = some ((t.dropWhile fun c => !blank c).dropWhile blank ++ 0 :: post) := by
  unfold skipToken
  rw [skipWhile_eq _ _ _ h, Option.bind_some, skipWhile_eq _ _ _ (notMem_of_suffix (List.dropWhile_suffix _) h)]

/-- Horner evaluation. -/
def horner (v : Nat) (ds : List Ch) : Nat := ds.foldl (fun v c => v * 10 + (c - 48).toNat) v

theorem horner_eq (ds : List Ch) : ∀ v, horner v ds = v * 10 ^ ds.length + decVal ds := by
  induction ds with
  | nil => intro v; simp [horner, decVal]
  | cons c ds ih =>
    intro v
    show horner (v * 10 + (c - 48).toNat) ds = _
    rw [ih, List.length_cons, decVal, Nat.pow_succ]
    rw [Nat.add_mul, Nat.mul_assoc, Nat.mul_comm 10, Nat.add_assoc]

theorem horner_zero (ds : List Ch) : horner 0 ds = decVal ds := by simp [horner_eq]

theorem digitsU_eq (t : List Ch) : ∀ (v : Nat) (post : List Ch), 0 ∉ t →
    digitsU (v % 2 ^ 32) (t ++ 0 :: post) =
      some (horner v (t.takeWhile digit) % 2 ^ 32, t.dropWhile digit ++ 0 :: post) := by
  induction t with
  | nil => intro v post _; simp [digitsU, horner]
  | cons c t ih =>
    intro v post h
    have hc : c ≠ 0 := by rintro rfl; simp at h
    have ht : 0 ∉ t := fun x => h (by simp [x])
    rw [List.cons_append]
    unfold digitsU
    by_cases hp : digit c = true
    · rw [if_pos ⟨hc, hp⟩, List.dropWhile_cons_of_pos hp, List.takeWhile_cons_of_pos hp]
      have : (v % 2 ^ 32 * 10 + (c - 48).toNat) % 2 ^ 32 = (v * 10 + (c - 48).toNat) % 2 ^ 32 := by
        generalize (c - 48).toNat = k; omega
      rw [this, ih _ _ ht]
      rfl
    · rw [if_neg (fun x => hp x.2), List.dropWhile_cons_of_neg hp, List.takeWhile_cons_of_neg hp]; rfl

theorem toUInt32_eq (t post : List Ch) (h : 0 ∉ t) :
    toUInt32 (t ++ 0 :: post) =
      some (decVal ((t.dropWhile blank).takeWhile digit) % 2 ^ 32,
        (((t.dropWhile blank).dropWhile digit).dropWhile fun c => !blank3 c).dropWhile blank3 ++ 0 :: post) := by
  unfold toUInt32
  rw [deref_eq, Option.bind_some]
  cases t with
  | nil => simp [decVal]
  | cons c t =>
    have hc : c ≠ 0 := by rintro rfl; simp at h
    rw [List.headD_cons, if_neg hc, skipWhile_eq _ _ _ h, Option.bind_some]
    have h1 := notMem_of_suffix (List.dropWhile_suffix blank) h
    have := digitsU_eq ((c :: t).dropWhile blank) 0 post h1
    rw [Nat.zero_mod] at this
    rw [this, Option.bind_some, skipToken3_eq _ _ (notMem_of_suffix (List.dropWhile_suffix _) h1), horner_zero]
    rfl

theorem int32_wrap (x : Int) : int32 .wrap x = some (Int.bmod x (2 ^ 32)) := by
  unfold int32
  split
  · rename_i h
    rw [Int.bmod_eq_of_le] <;> omega
  · rfl

theorem int32_in (ov : Ov) (x : Int) (h : -2 ^ 31 ≤ x ∧ x < 2 ^ 31) : int32 ov x = some x := by
  unfold int32; rw [if_pos h]

theorem stepI_wrap (v : Int) (c : Ch) : stepI .wrap (Int.bmod v (2 ^ 32)) c = some (Int.bmod (v * 10 + (c - 48)) (2 ^ 32)) := by
  unfold stepI
  simp only [int32_wrap, Option.bind_some]
  congr 1
  have e1 : (Int.bmod v (2 ^ 32) * 10).bmod (2 ^ 32) = (v * 10).bmod (2 ^ 32) := Int.bmod_mul_bmod
  rw [e1, Int.bmod_add_bmod, Int.bmod_sub_bmod]
  congr 1
  exact Int.add_sub_assoc _ _ _

theorem digitI_toNat {c : Ch} (h : digit c = true) : (c - 48 : Int) = ((c - 48).toNat : Int) := by
  simp [digit] at h
  have := h.1
  exact (Int.toNat_of_nonneg (Int.sub_nonneg_of_le this)).symm

theorem digitsI_wrap (t : List Ch) : ∀ (v : Nat) (post : List Ch), 0 ∉ t →
    digitsI .wrap (Int.bmod v (2 ^ 32)) (t ++ 0 :: post) =
      some (Int.bmod (horner v (t.takeWhile digit)) (2 ^ 32), t.dropWhile digit ++ 0 :: post) := by
  induction t with
  | nil => intro v post _; simp [digitsI, horner]
  | cons c t ih =>
    intro v post h
    have hc : c ≠ 0 := by rintro rfl; simp at h
    have ht : 0 ∉ t := fun x => h (by simp [x])
    rw [List.cons_append]
    unfold digitsI
    by_cases hp : digit c = true
    · rw [if_pos ⟨hc, hp⟩, List.dropWhile_cons_of_pos hp, List.takeWhile_cons_of_pos hp, stepI_wrap, Option.bind_some]
      have := ih (v * 10 + (c - 48).toNat) post ht
      rw [digitI_toNat hp]
      push_cast at this ⊢
      rw [this]
      rfl
    · rw [if_neg (fun x => hp x.2), List.dropWhile_cons_of_neg hp, List.takeWhile_cons_of_neg hp]; rfl

theorem horner_mono (ds : List Ch) (v : Nat) : v ≤ horner v ds := by
  rw [horner_eq]
  have : 0 < 10 ^ ds.length := Nat.pow_pos (by omega)
  exact Nat.le_trans (Nat.le_mul_of_pos_right v this) (Nat.le_add_right _ _)

/-- No overflow as long as the final number is at most 2^31 - 49. -/
theorem digitsI_small (ov : Ov) (t : List Ch) : ∀ (v : Nat) (post : List Ch), 0 ∉ t → horner v (t.takeWhile digit) + 48 < 2 ^ 31 →
    digitsI ov v (t ++ 0 :: post) = some (((horner v (t.takeWhile digit) : Nat) : Int), t.dropWhile digit ++ 0 :: post) := by
  induction t with
  | nil => intro v post _ _; simp [digitsI, horner]
  | cons c t ih =>
    intro v post h hb
    have hc : c ≠ 0 := by rintro rfl; simp at h
    have ht : 0 ∉ t := fun x => h (by simp [x])
    rw [List.cons_append]
    unfold digitsI
    by_cases hp : digit c = true
    · rw [List.takeWhile_cons_of_pos hp] at hb ⊢
      rw [if_pos ⟨hc, hp⟩, List.dropWhile_cons_of_pos hp]
      have hb' : horner (v * 10 + (c - 48).toNat) (t.takeWhile digit) + 48 < 2 ^ 31 := hb
      have hm := horner_mono (t.takeWhile digit) (v * 10 + (c - 48).toNat)
      have hd : ((c - 48).toNat : Int) = c - 48 := (digitI_toNat hp).symm
      have hcc : (c : Int) = ((c - 48).toNat : Int) + 48 := by rw [hd]; exact (Int.sub_add_cancel _ _).symm
      have hs : stepI ov v c = some ((v * 10 + (c - 48).toNat : Nat) : Int) := by
        unfold stepI
        rw [hcc]
        generalize (c - 48).toNat = k at *
        rw [int32_in ov _ (by omega), Option.bind_some, int32_in ov _ (by omega), Option.bind_some, int32_in ov _ (by omega)]
        congr 1; push_cast; omega
      rw [hs, Option.bind_some]
      exact ih _ _ ht hb'
    · rw [if_neg (fun x => hp x.2), List.dropWhile_cons_of_neg hp, List.takeWhile_cons_of_neg hp]; rfl

/-- The sign and the text after it. -/
def splitSign : List Ch → Int × List Ch
  | [] => (1, [])
  | c :: rest => if c = 45 then (-1, rest) else (1, c :: rest)

theorem splitSign_suffix (t : List Ch) : (splitSign t).2 <:+ t := by
  cases t with
  | nil => exact List.suffix_refl _
  | cons c t =>
    show (if c = 45 then ((-1 : Int), t) else (1, c :: t)).2 <:+ c :: t
    split
    · exact List.suffix_cons _ _
    · exact List.suffix_refl _

theorem signI_eq (t post : List Ch) : signI (t ++ 0 :: post) = some ((splitSign t).1, (splitSign t).2 ++ 0 :: post) := by
  cases t with
  | nil => simp [signI, splitSign]
  | cons c t =>
    rw [List.cons_append]
    show (if c = 45 then some ((-1 : Int), t ++ 0 :: post) else some (1, c :: (t ++ 0 :: post))) =
      some ((if c = 45 then ((-1 : Int), t) else (1, c :: t)).1, (if c = 45 then ((-1 : Int), t) else (1, c :: t)).2 ++ 0 :: post)
    split <;> simp

/-- What is left of a text after one integer. -/
def afterInt (t : List Ch) : List Ch :=
  ((((splitSign (t.dropWhile blank)).2).dropWhile digit).dropWhile fun c => !blank3 c).dropWhile blank3

/-- The digits of the integer at the start of a text. -/
def intDigits (t : List Ch) : List Ch := (splitSign (t.dropWhile blank)).2.takeWhile digit

theorem suffixes (t : List Ch) : (splitSign (t.dropWhile blank)).2 <:+ t :=
  (splitSign_suffix _).trans (List.dropWhile_suffix _)

theorem toInt32_wrap (t post : List Ch) (h : 0 ∉ t) :
    toInt32 .wrap (t ++ 0 :: post) =
      some (Int.bmod ((splitSign (t.dropWhile blank)).1 * decVal (intDigits t)) (2 ^ 32), afterInt t ++ 0 :: post) := by
  unfold toInt32
  rw [skipWhile_eq _ _ _ h, Option.bind_some, signI_eq, Option.bind_some]
  have h1 := notMem_of_suffix (suffixes t) h
  have := digitsI_wrap _ 0 post h1
  rw [show Int.bmod ((0 : Nat) : Int) (2 ^ 32) = 0 from by decide] at this
  simp only [this, Option.bind_some, int32_wrap]
  rw [skipToken3_eq _ _ (notMem_of_suffix (List.dropWhile_suffix _) h1), horner_zero]
  simp only [Option.map_some, intDigits, afterInt]
  rw [Int.bmod_mul_bmod, Int.mul_comm]

theorem toInt32_small (ov : Ov) (t post : List Ch) (h : 0 ∉ t) (hb : decVal (intDigits t) + 48 < 2 ^ 31) :
    toInt32 ov (t ++ 0 :: post) =
      some ((splitSign (t.dropWhile blank)).1 * decVal (intDigits t), afterInt t ++ 0 :: post) := by
  unfold toInt32
  rw [skipWhile_eq _ _ _ h, Option.bind_some, signI_eq, Option.bind_some]
  have h1 := notMem_of_suffix (suffixes t) h
  have := digitsI_small ov _ 0 post h1 (by rw [horner_zero]; exact hb)
  rw [show ((0 : Nat) : Int) = 0 from rfl] at this
  simp only [this, Option.bind_some]
  have hs : (splitSign (t.dropWhile blank)).1 = 1 ∨ (splitSign (t.dropWhile blank)).1 = -1 := by
    generalize t.dropWhile blank = u
    cases u with
    | nil => exact Or.inl rfl
    | cons c u =>
      show (if c = 45 then ((-1 : Int), u) else (1, c :: u)).1 = 1 ∨ (if c = 45 then ((-1 : Int), u) else (1, c :: u)).1 = -1
      split <;> simp
  rw [horner_zero]
  show (int32 ov ((decVal (intDigits t) : Int) * _)).bind _ = _
  rw [int32_in ov _ (by rcases hs with e | e <;> rw [e] <;> omega), Option.bind_some,
    skipToken3_eq _ _ (notMem_of_suffix (List.dropWhile_suffix _) h1)]
  simp only [Option.map_some, intDigits, afterInt]
  rw [Int.mul_comm]

/-! ## numerals -/

theorem decVal_append (a b : List Ch) : decVal (a ++ b) = decVal a * 10 ^ b.length + decVal b := by
  rw [← horner_zero, ← horner_zero a, horner, List.foldl_append]
  show horner (horner 0 a) b = _
  rw [horner_eq]

theorem digit_of (n : Nat) (h : n < 10) : digit (48 + (n : Int)) = true := by
  have h1 : (48 : Int) ≤ 48 + n := by omega
  have h2 : (48 + n : Int) ≤ 57 := by omega
  simp only [digit, Bool.and_eq_true, decide_eq_true_eq]
  exact ⟨h1, h2⟩

theorem decimal_digits (n : Nat) : ∀ c ∈ FBld.decimal n, digit c = true := by
  induction n using Nat.strongRecOn with
  | ind n ih =>
    unfold FBld.decimal
    split
    · rename_i h; intro c hc; rw [List.mem_singleton.1 hc]; exact digit_of n h
    · intro c hc
      rcases List.mem_append.1 hc with hc | hc
      · exact ih (n / 10) (by omega) c hc
      · rw [List.mem_singleton.1 hc]; exact digit_of _ (by omega)

theorem decVal_decimal (n : Nat) : decVal (FBld.decimal n) = n := by
  induction n using Nat.strongRecOn with
  | ind n ih =>
    unfold FBld.decimal
    split
    · simp [decVal]; omega
    · rw [decVal_append, ih (n / 10) (by omega)]
      simp only [decVal, List.length_singleton, List.length_nil]
      have : (48 + ((n % 10 : Nat) : Int) - 48).toNat = n % 10 := by omega
      rw [this]; omega

theorem decimal_ne_nil (n : Nat) : FBld.decimal n ≠ [] := by
  unfold FBld.decimal; split <;> simp

theorem digit_not_blank {c : Ch} (h : digit c = true) : blank c = false := by
  simp only [digit, blank, Bool.and_eq_true, decide_eq_true_eq, Bool.or_eq_false_iff, decide_eq_false_iff_not] at *
  obtain ⟨h1, h2⟩ := h
  have h1 : (48 : Int) ≤ c := h1
  refine ⟨⟨⟨?_, ?_⟩, ?_⟩, ?_⟩ <;> (intro e; rw [e] at h1; exact absurd h1 (by decide))

theorem digit_not_blank3 {c : Ch} (h : digit c = true) : blank3 c = false := by
  have := digit_not_blank h
  simp only [blank, blank3, Bool.or_eq_false_iff] at *
  exact ⟨this.1.1, this.2⟩

theorem dropWhile_of_neg {p : Ch → Bool} {t : List Ch} (h : ∀ c ∈ t.head?, p c = false) : t.dropWhile p = t := by
  cases t with
  | nil => rfl
  | cons c t => rw [List.dropWhile_cons_of_neg]; simp [h c (by simp)]

theorem takeWhile_all {p : Ch → Bool} {t : List Ch} (h : ∀ c ∈ t, p c = true) : t.takeWhile p = t := by
  rw [List.takeWhile_eq_self_iff]; exact h

theorem dropWhile_all {p : Ch → Bool} {t : List Ch} (h : ∀ c ∈ t, p c = true) : t.dropWhile p = [] := by
  rw [List.dropWhile_eq_nil_iff]; exact h

/-! ## tokens -/

theorem blank_iff (c : Ch) : blank c = true ↔ IsSpace c := by
  simp only [blank, IsSpace, Bool.or_eq_true, decide_eq_true_eq]
  constructor
  · rintro (((h | h) | h) | h)
    · exact Or.inl h
    · exact Or.inr (Or.inl h)
    · exact Or.inr (Or.inr (Or.inr h))
    · exact Or.inr (Or.inr (Or.inl h))
  · rintro (h | h | h | h)
    · exact Or.inl (Or.inl (Or.inl h))
    · exact Or.inl (Or.inl (Or.inr h))
    · exact Or.inr h
    · exact Or.inl (Or.inr h)

theorem digit_iff (c : Ch) : digit c = decide (IsDigit c) := by
  rw [Bool.eq_iff_iff]
  simp only [digit, Bool.and_eq_true, decide_eq_true_eq]
  exact Iff.rfl

theorem tokens_space {c : Ch} (h : IsSpace c) (t : List Ch) : tokens (c :: t) = tokens t := by
  simp [tokens, tokensFrom, h]

theorem tokens_dropWhile (t : List Ch) : tokens (t.dropWhile blank) = tokens t := by
  induction t with
  | nil => rfl
  | cons c t ih =>
    by_cases h : blank c = true
    · rw [List.dropWhile_cons_of_pos h, ih, tokens_space ((blank_iff c).1 h)]
    · rw [List.dropWhile_cons_of_neg h]

theorem tokensFrom_run (t : List Ch) : ∀ cur, cur ≠ [] →
    tokensFrom cur t = (cur ++ t.takeWhile fun c => !blank c) :: tokens (t.dropWhile fun c => !blank c) := by
  induction t with
  | nil => intro cur h; simp [tokensFrom, h, tokens]
  | cons c t ih =>
    intro cur h
    by_cases hb : blank c = true
    · have hs := (blank_iff c).1 hb
      rw [List.takeWhile_cons_of_neg (by simp [hb]), List.dropWhile_cons_of_neg (by simp [hb]), tokens_space hs]
      simp [tokensFrom, hs, h, tokens]
    · have hs : ¬ IsSpace c := fun x => hb ((blank_iff c).2 x)
      rw [List.takeWhile_cons_of_pos (by simp [hb]), List.dropWhile_cons_of_pos (by simp [hb])]
      unfold tokensFrom
      rw [if_neg hs, ih _ (by simp)]
      simp

/-- A text starting with a non-blank: its first token and the rest. -/
theorem tokens_cons {t : List Ch} (h : t ≠ []) (hb : ∀ c ∈ t.head?, blank c = false) :
    tokens t = (t.takeWhile fun c => !blank c) :: tokens (t.dropWhile fun c => !blank c) := by
  obtain ⟨c, u, rfl⟩ := List.exists_cons_of_ne_nil h
  have hc : blank c = false := hb c (by simp)
  have hs : ¬ IsSpace c := fun x => by rw [(blank_iff c).2 x] at hc; cases hc
  rw [List.takeWhile_cons_of_pos (by simp [hc]), List.dropWhile_cons_of_pos (by simp [hc])]
  show tokensFrom [] (c :: u) = _
  unfold tokensFrom
  rw [if_neg hs, List.nil_append, tokensFrom_run _ _ (by simp)]
  rfl

theorem head_dropWhile (p : Ch → Bool) (t : List Ch) : ∀ c ∈ (t.dropWhile p).head?, p c = false := by
  intro c hc
  cases h : t.dropWhile p with
  | nil => rw [h] at hc; simp at hc
  | cons d u =>
    rw [h] at hc
    simp at hc; subst hc
    have := List.head_dropWhile_not (p := p) (l := t) (by rw [h]; simp)
    simpa [h] using this

theorem tokens_nil_iff (t : List Ch) : tokens t = [] ↔ t.dropWhile blank = [] := by
  constructor
  · intro h
    by_contra hn
    rw [← tokens_dropWhile, tokens_cons hn (head_dropWhile _ _)] at h
    cases h
  · intro h; rw [← tokens_dropWhile, h]; rfl

/-! ## list parsers -/

/-- `p` reads one token: it returns the token's value and leaves the rest, blanks after the token skipped. The text must have a token
and satisfy `ok`, which the rest then satisfies as well. -/
def ReadsToken {α : Type} (ok : List Ch → Prop) (val : List Ch → α) (p : List Ch → Option (α × List Ch)) : Prop :=
  ∀ t, 0 ∉ t → ok t → tokens t ≠ [] → ∃ tok t', tokens t = tok :: tokens t' ∧ (t' = [] ∨ tokens t' ≠ []) ∧ t'.length < t.length ∧
    0 ∉ t' ∧ ok t' ∧ ∀ post, p (t ++ 0 :: post) = some (val tok, t' ++ 0 :: post)

theorem headD_ne {t : List Ch} (h : 0 ∉ t) (hn : t ≠ []) : t.headD 0 ≠ 0 := by
  cases t with
  | nil => exact absurd rfl hn
  | cons c t => rintro e; simp at e; subst e; simp at h

theorem pushRest_eq {α : Type} {ok val} {p : List Ch → Option (α × List Ch)} (hp : ReadsToken ok val p) (post : List Ch) :
    ∀ (fuel : Nat) (t : List Ch) (acc : List α), t.length < fuel → 0 ∉ t → ok t → (t = [] ∨ tokens t ≠ []) →
      pushRest p acc fuel (t ++ 0 :: post) = some (acc ++ (tokens t).map val) := by
  intro fuel
  induction fuel with
  | zero => intro t acc h; omega
  | succ fuel ih =>
    intro t acc hf h hok ht
    unfold pushRest
    rw [deref_eq, Option.bind_some]
    by_cases hn : t = []
    · subst hn; simp [tokens, tokensFrom]
    · rw [if_neg (headD_ne h hn)]
      obtain ⟨tok, t', e1, e2, e3, e4, e5, e6⟩ := hp t h hok (ht.resolve_left hn)
      rw [e6 post, Option.bind_some, ih t' _ (by omega) e4 e5 e2, e1]
      simp

theorem fillOld_eq {α : Type} {ok val} {p : List Ch → Option (α × List Ch)} (hp : ReadsToken ok val p) (post : List Ch) :
    ∀ (old : List α) (t : List Ch) (done : List α), 0 ∉ t → ok t → (t = [] ∨ tokens t ≠ []) →
      ∃ t', fillOld p done old (t ++ 0 :: post) =
          some (done ++ ((tokens t).take old.length).map val, old.drop (tokens t).length, t' ++ 0 :: post) ∧
        tokens t' = (tokens t).drop old.length ∧ (t' = [] ∨ tokens t' ≠ []) ∧ t'.length ≤ t.length ∧ 0 ∉ t' ∧ ok t' := by
  intro old
  induction old with
  | nil => intro t done h hok ht; exact ⟨t, by simp [fillOld], by simp, ht, Nat.le_refl _, h, hok⟩
  | cons o old ih =>
    intro t done h hok ht
    unfold fillOld
    rw [deref_eq, Option.bind_some]
    by_cases hn : t = []
    · subst hn; exact ⟨[], by simp [tokens, tokensFrom], by simp [tokens, tokensFrom], Or.inl rfl, Nat.le_refl _, h, hok⟩
    · rw [if_neg (headD_ne h hn)]
      obtain ⟨tok, t', e1, e2, e3, e4, e5, e6⟩ := hp t h hok (ht.resolve_left hn)
      obtain ⟨t'', f1, f2, f3, f4, f5, f6⟩ := ih t' (done ++ [val tok]) e4 e5 e2
      refine ⟨t'', ?_, ?_, f3, by omega, f5, f6⟩
      · rw [e6 post, Option.bind_some, f1, e1]; simp
      · rw [f2, e1]; simp

theorem length_dropWhile_le (p : Ch → Bool) (t : List Ch) : (t.dropWhile p).length ≤ t.length :=
  (List.dropWhile_suffix p).length_le

theorem countLoop_eq (post : List Ch) : ∀ (fuel : Nat) (t : List Ch) (k : Nat), t.length < fuel → 0 ∉ t →
    countLoop k fuel (t ++ 0 :: post) = some (k + (tokens t).length) := by
  intro fuel
  induction fuel with
  | zero => intro t k h; omega
  | succ fuel ih =>
    intro t k hf h
    unfold countLoop
    rw [deref_eq, Option.bind_some]
    by_cases hn : t = []
    · subst hn; simp [tokens, tokensFrom]
    · rw [if_neg (headD_ne h hn), skipWhile_eq _ _ _ h, Option.bind_some, deref_eq, Option.bind_some]
      have h1 := notMem_of_suffix (List.dropWhile_suffix blank) h
      by_cases hd : t.dropWhile blank = []
      · rw [hd, (tokens_nil_iff t).2 hd]; simp
      · rw [if_neg (headD_ne h1 hd), skipWhile_eq _ _ _ h1, Option.bind_some]
        have hh := head_dropWhile blank t
        rw [← tokens_dropWhile t, tokens_cons hd hh]
        have hlt : ((t.dropWhile blank).dropWhile fun c => !blank c).length < (t.dropWhile blank).length := by
          generalize t.dropWhile blank = u at *
          obtain ⟨c, u, rfl⟩ := List.exists_cons_of_ne_nil hd
          rw [List.dropWhile_cons_of_pos (by simp [hh c (by simp)])]
          exact Nat.lt_succ_of_le (length_dropWhile_le _ _)
        have := length_dropWhile_le blank t
        rw [ih _ _ (by omega) (notMem_of_suffix (List.dropWhile_suffix _) h1), List.length_cons]
        congr 1; omega

theorem countValues_eq (t post : List Ch) (h : 0 ∉ t) :
    countValues (t ++ 0 :: post) = some (if t.headD 0 > 0 then (tokens t).length else 0) := by
  unfold countValues
  rw [deref_eq, Option.bind_some]
  split
  · rw [countLoop_eq _ _ _ _ (by simp) h]; simp
  · rfl

theorem toList_eq {α : Type} {ok val} {p : List Ch → Option (α × List Ch)} (hp : ReadsToken ok val p) (d : α) (t post : List Ch)
    (array : List α) (h : 0 ∉ t) (hok : ok t) (ht : t = [] ∨ tokens t ≠ []) :
    toList p d (t ++ 0 :: post) array = some ((tokens t).map val) := by
  unfold toList
  rw [deref_eq, Option.bind_some]
  by_cases hn : t = []
  · subst hn; simp [resizeTo, tokens, tokensFrom]
  · rw [if_neg (headD_ne h hn)]
    obtain ⟨t', e1, e2, e3, e4, e5, e6⟩ := fillOld_eq hp post array t [] h hok ht
    rw [e1, Option.bind_some]
    simp only
    rw [countValues_eq _ _ e5, Option.bind_some,
      pushRest_eq hp post _ t' [] (by simp; omega) e5 e6 e3, Option.map_some, e2]
    simp only [resizeTo, List.nil_append]
    congr 1
    by_cases hl : (tokens t).length ≤ array.length
    · rw [List.drop_eq_nil_of_le (as := tokens t) hl, List.take_of_length_le (l := tokens t) hl]
      simp
    · rw [List.drop_eq_nil_of_le (as := array) (by omega), List.append_nil, ← List.map_append, List.take_append_drop]
      rw [List.take_of_length_le (by simp; omega)]
      simp; omega

theorem blank3_eq {c : Ch} (h : c ≠ 13) : blank3 c = blank c := by
  simp [blank, blank3, h]

theorem dropWhile_congr' {p q : Ch → Bool} {t : List Ch} (h : ∀ c ∈ t, p c = q c) : t.dropWhile p = t.dropWhile q := by
  induction t with
  | nil => rfl
  | cons c t ih =>
    have := h c (by simp)
    by_cases hp : p c = true
    · rw [List.dropWhile_cons_of_pos hp, List.dropWhile_cons_of_pos (by rw [← this]; exact hp)]
      exact ih fun d hd => h d (by simp [hd])
    · rw [List.dropWhile_cons_of_neg hp, List.dropWhile_cons_of_neg (by rw [← this]; exact hp)]

theorem dropWhile_absorb {p q : Ch → Bool} (hpq : ∀ c, p c = true → q c = true) (t : List Ch) :
    (t.dropWhile p).dropWhile q = t.dropWhile q := by
  induction t with
  | nil => rfl
  | cons c t ih =>
    by_cases hp : p c = true
    · rw [List.dropWhile_cons_of_pos hp, List.dropWhile_cons_of_pos (hpq c hp), ih]
    · rw [List.dropWhile_cons_of_neg hp]

theorem takeWhile_absorb {p q : Ch → Bool} (hpq : ∀ c, p c = true → q c = true) (t : List Ch) :
    (t.takeWhile q).takeWhile p = t.takeWhile p := by
  induction t with
  | nil => rfl
  | cons c t ih =>
    by_cases hp : p c = true
    · rw [List.takeWhile_cons_of_pos hp, List.takeWhile_cons_of_pos (hpq c hp), List.takeWhile_cons_of_pos hp, ih]
    · rw [List.takeWhile_cons_of_neg hp]
      by_cases hq : q c = true
      · rw [List.takeWhile_cons_of_pos hq, List.takeWhile_cons_of_neg hp]
      · rw [List.takeWhile_cons_of_neg hq]; rfl

/-- What all the token readers leave: the rest after the token and the blanks that follow. -/
theorem rest_props (u : List Ch) (hu : u ≠ []) (hb : ∀ c ∈ u.head?, blank c = false) :
    let t' := (u.dropWhile fun c => !blank c).dropWhile blank
    tokens u = (u.takeWhile fun c => !blank c) :: tokens t' ∧ (t' = [] ∨ tokens t' ≠ []) ∧ t'.length < u.length ∧ t' <:+ u := by
  intro t'
  refine ⟨by rw [tokens_cons hu hb, tokens_dropWhile], ?_, ?_, ?_⟩
  · by_cases h : t' = []
    · exact Or.inl h
    · refine Or.inr fun hn => h ?_
      have := (tokens_nil_iff t').1 hn
      rwa [dropWhile_of_neg (head_dropWhile blank _)] at this
  · obtain ⟨c, v, rfl⟩ := List.exists_cons_of_ne_nil hu
    have : (List.dropWhile (fun c => !blank c) (c :: v)).length ≤ v.length := by
      rw [List.dropWhile_cons_of_pos (by simp [hb c (by simp)])]
      exact length_dropWhile_le _ _
    have h2 := length_dropWhile_le blank (List.dropWhile (fun c => !blank c) (c :: v))
    show (List.dropWhile blank _).length < _
    simp at this h2 ⊢; omega
  · exact (List.dropWhile_suffix _).trans (List.dropWhile_suffix _)

theorem rest3_eq {t : List Ch} (h : 13 ∉ t) :
    (t.dropWhile fun c => !blank3 c).dropWhile blank3 = (t.dropWhile fun c => !blank c).dropWhile blank := by
  have e1 : (t.dropWhile fun c => !blank3 c) = t.dropWhile fun c => !blank c :=
    dropWhile_congr' fun c hc => by rw [blank3_eq]; rintro rfl; exact h hc
  rw [e1]
  exact dropWhile_congr' fun c hc => blank3_eq (by rintro rfl; exact notMem_of_suffix (List.dropWhile_suffix _) h hc)

theorem digit_nonblank (c : Ch) (h : digit c = true) : (!blank c) = true := by simp [digit_not_blank h]

theorem readsToken_u : ReadsToken (fun t => 13 ∉ t) (fun tok => tokNat tok % 2 ^ 32) toUInt32 := by
  intro t h h13 hne
  have hd : t.dropWhile blank ≠ [] := fun e => hne ((tokens_nil_iff t).2 e)
  obtain ⟨r1, r2, r3, r4⟩ := rest_props (t.dropWhile blank) hd (head_dropWhile _ _)
  have hs := r4.trans (List.dropWhile_suffix blank)
  refine ⟨_, _, by rw [← tokens_dropWhile t]; exact r1, r2, Nat.lt_of_lt_of_le r3 (length_dropWhile_le _ _), notMem_of_suffix hs h,
    notMem_of_suffix hs h13, ?_⟩
  intro post
  have hsd : (t.dropWhile blank).dropWhile digit <:+ t := (List.dropWhile_suffix _).trans (List.dropWhile_suffix _)
  rw [toUInt32_eq t post h, rest3_eq (notMem_of_suffix hsd h13), dropWhile_absorb digit_nonblank]
  congr 2
  unfold tokNat
  congr 2
  rw [← takeWhile_absorb digit_nonblank]
  congr 1
  funext c; exact digit_iff c

theorem splitSign_tok (u : List Ch) : (splitSign u).1 * decVal ((splitSign u).2.takeWhile digit) =
      tokInt (u.takeWhile fun c => !blank c) ∧
    ((splitSign u).2.dropWhile digit).dropWhile (fun c => !blank c) = u.dropWhile fun c => !blank c := by
  have hfun : (fun c => decide (IsDigit c)) = digit := by funext c; exact (digit_iff c).symm
  cases u with
  | nil => exact ⟨by decide, rfl⟩
  | cons c u =>
    by_cases hc : c = 45
    · subst hc
      rw [show splitSign (45 :: u) = (-1, u) from rfl]
      rw [List.takeWhile_cons_of_pos (by decide), List.dropWhile_cons_of_pos (by decide)]
      refine ⟨?_, dropWhile_absorb digit_nonblank u⟩
      show _ = -((tokNat _ : Nat) : Int)
      unfold tokNat
      rw [hfun, takeWhile_absorb digit_nonblank]
      exact Int.neg_one_mul _
    · have e : splitSign (c :: u) = (1, c :: u) := if_neg hc
      rw [e]
      refine ⟨?_, dropWhile_absorb digit_nonblank _⟩
      have e2 : ∀ v : List Ch, v.head? ≠ some 45 → tokInt v = tokNat v := by
        intro v hv
        unfold tokInt
        split
        · simp at hv
        · rfl
      rw [e2]
      · unfold tokNat
        rw [hfun, takeWhile_absorb digit_nonblank]
        exact Int.one_mul _
      · cases hb : blank c with
        | false => rw [List.takeWhile_cons_of_pos (by simp [hb])]; simpa using hc
        | true => rw [List.takeWhile_cons_of_neg (by simp [hb])]; simp

theorem afterInt_eq {t : List Ch} (h13 : 13 ∉ t) :
    afterInt t = ((t.dropWhile blank).dropWhile fun c => !blank c).dropWhile blank := by
  unfold afterInt
  have hsd : (splitSign (t.dropWhile blank)).2.dropWhile digit <:+ t := (List.dropWhile_suffix _).trans (suffixes t)
  rw [rest3_eq (notMem_of_suffix hsd h13), (splitSign_tok _).2]

theorem readsToken_i_wrap : ReadsToken (fun t => 13 ∉ t) (fun tok => Int.bmod (tokInt tok) (2 ^ 32)) (toInt32 .wrap) := by
  intro t h h13 hne
  have hd : t.dropWhile blank ≠ [] := fun e => hne ((tokens_nil_iff t).2 e)
  obtain ⟨r1, r2, r3, r4⟩ := rest_props (t.dropWhile blank) hd (head_dropWhile _ _)
  have hs := r4.trans (List.dropWhile_suffix blank)
  refine ⟨_, _, by rw [← tokens_dropWhile t]; exact r1, r2, Nat.lt_of_lt_of_le r3 (length_dropWhile_le _ _), notMem_of_suffix hs h,
    notMem_of_suffix hs h13, ?_⟩
  intro post
  rw [toInt32_wrap t post h, afterInt_eq h13]
  congr 3
  exact (splitSign_tok _).1

/-! ## reading only up to the terminator -/

/-- The parser reads a terminated text without looking past the terminator (the result does not depend on what follows, and is defined
when nothing follows), leaves the cursor inside the text or on its terminator, and makes progress unless the text is at its end. The
text must have none of the characters in `bad`. -/
def StaysInside {α : Type} (bad : List Ch) (p : List Ch → Option (α × List Ch)) : Prop :=
  ∀ t, 0 ∉ t → (∀ k ∈ bad, k ∉ t) → ∃ v t', t' <:+ t ∧ (t ≠ [] → t'.length < t.length) ∧ ∀ post, p (t ++ 0 :: post) = some (v, t' ++ 0 :: post)

theorem rest3_progress (t u : List Ch) (hu : u <:+ t) (hne : t ≠ [])
    (h : u.length < t.length ∨ ∀ c ∈ u.head?, blank c = false) :
    ((u.dropWhile fun c => !blank3 c).dropWhile blank3).length < t.length := by
  have h1 := length_dropWhile_le blank3 (u.dropWhile fun c => !blank3 c)
  have h2 := length_dropWhile_le (fun c => !blank3 c) u
  have h3 := hu.length_le
  rcases h with h | h
  · omega
  · cases u with
    | nil =>
      have : 0 < t.length := List.length_pos_iff.2 hne
      simpa using this
    | cons c u =>
      have hc : blank3 c = false := by
        have := h c (by simp)
        simp only [blank, blank3, Bool.or_eq_false_iff] at *
        exact ⟨this.1.1, this.2⟩
      have h4 : ((c :: u).dropWhile fun c => !blank3 c).length ≤ u.length := by
        rw [List.dropWhile_cons_of_pos (by simp [hc])]; exact length_dropWhile_le _ _
      simp at h3; omega

theorem dropWhile_lt_or (t : List Ch) : (t.dropWhile blank).length < t.length ∨ t.dropWhile blank = t := by
  cases t with
  | nil => exact Or.inr rfl
  | cons c t =>
    by_cases h : blank c = true
    · left; rw [List.dropWhile_cons_of_pos h]; exact Nat.lt_succ_of_le (length_dropWhile_le _ _)
    · right; exact List.dropWhile_cons_of_neg h

theorem inside_u : StaysInside [] toUInt32 := by
  intro t h _
  refine ⟨_, _, ?_, ?_, fun post => toUInt32_eq t post h⟩
  · exact (List.dropWhile_suffix _).trans ((List.dropWhile_suffix _).trans ((List.dropWhile_suffix _).trans (List.dropWhile_suffix _)))
  · intro hne
    apply rest3_progress t _ ((List.dropWhile_suffix _).trans (List.dropWhile_suffix _)) hne
    have h2 := length_dropWhile_le digit (t.dropWhile blank)
    rcases dropWhile_lt_or t with h1 | h1
    · left; omega
    · by_cases hd : (t.dropWhile blank).dropWhile digit = t.dropWhile blank
      · right; rw [hd]; exact head_dropWhile _ _
      · left
        have hs := List.dropWhile_suffix digit (l := t.dropWhile blank)
        have : ((t.dropWhile blank).dropWhile digit).length ≠ (t.dropWhile blank).length := fun e => hd (hs.eq_of_length e)
        have := length_dropWhile_le blank t
        omega

theorem inside_i : StaysInside [] (toInt32 .wrap) := by
  intro t h _
  refine ⟨_, _, ?_, ?_, fun post => toInt32_wrap t post h⟩
  · exact (List.dropWhile_suffix _).trans ((List.dropWhile_suffix _).trans ((List.dropWhile_suffix _).trans (suffixes t)))
  · intro hne
    have hsu := (List.dropWhile_suffix digit (l := (splitSign (t.dropWhile blank)).2)).trans (suffixes t)
    apply rest3_progress t _ hsu hne
    by_cases hd : (splitSign (t.dropWhile blank)).2.dropWhile digit = t
    · right
      rw [hd]
      have h1 : (t.dropWhile blank) = t := by
        apply (List.dropWhile_suffix blank).eq_of_length
        have a := hd ▸ length_dropWhile_le digit (splitSign (t.dropWhile blank)).2
        have b := (splitSign_suffix (t.dropWhile blank)).length_le
        have c := length_dropWhile_le blank t
        omega
      rw [← h1]; exact head_dropWhile _ _
    · left
      have := hsu.length_le
      have : ((splitSign (t.dropWhile blank)).2.dropWhile digit).length ≠ t.length := fun e => hd (hsu.eq_of_length e)
      omega

theorem hexLoop_inside (n : Nat) : ∀ (t : List Ch) (v : Nat), 0 ∉ t →
    ∃ w t', t' <:+ t ∧ ∀ post, hexLoop v n (t ++ 0 :: post) = some (w, t' ++ 0 :: post) := by
  induction n with
  | zero => intro t v _; exact ⟨v, t, List.suffix_refl _, fun post => rfl⟩
  | succ n ih =>
    intro t v h
    cases t with
    | nil => exact ⟨v, [], List.suffix_refl _, fun post => by simp [hexLoop]⟩
    | cons c t =>
      have hc : c ≠ 0 := by rintro rfl; simp at h
      have ht : 0 ∉ t := fun x => h (by simp [x])
      cases hx : hexVal c with
      | none => exact ⟨v, c :: t, List.suffix_refl _, fun post => by simp [hexLoop, hc, hx]⟩
      | some d =>
        obtain ⟨w, t', h1, h2⟩ := ih t ((v * 16 + d) % 2 ^ 32) ht
        exact ⟨w, t', h1.trans (List.suffix_cons _ _), fun post => by
          rw [List.cons_append]; unfold hexLoop; rw [if_neg hc, hx]; exact h2 post⟩

theorem hex_inside (count : Nat) (t : List Ch) (h : 0 ∉ t) :
    ∃ w t', t' <:+ t ∧ ∀ post, hexToUInt32 (t ++ 0 :: post) count = some (w, t' ++ 0 :: post) := by
  cases t with
  | nil => exact ⟨0, [], List.suffix_refl _, fun post => by simp [hexToUInt32, deref]⟩
  | cons c t =>
    have hc : c ≠ 0 := by rintro rfl; simp at h
    have ht : 0 ∉ t := fun x => h (by simp [x])
    have key : ∃ u, u <:+ c :: t ∧ ∀ post, skip0x (c :: t ++ 0 :: post) = some (u ++ 0 :: post) := by
      by_cases h48 : c = 48
      · cases t with
        | nil => exact ⟨[c], List.suffix_refl _, fun post => by simp [skip0x, h48, deref]⟩
        | cons d t =>
          by_cases hd : d = 120 ∨ d = 88
          · exact ⟨t, (List.suffix_cons _ _).trans (List.suffix_cons _ _), fun post => by simp [skip0x, h48, deref, hd]⟩
          · exact ⟨c :: d :: t, List.suffix_refl _, fun post => by simp [skip0x, h48, deref, hd]⟩
      · exact ⟨c :: t, List.suffix_refl _, fun post => by simp [skip0x, h48]⟩
    obtain ⟨u, hu, e⟩ := key
    obtain ⟨w, t', h1, h2⟩ := hexLoop_inside count u 0 (notMem_of_suffix hu h)
    refine ⟨w, t', h1.trans hu, fun post => ?_⟩
    unfold hexToUInt32
    rw [deref_eq, Option.bind_some, List.headD_cons, if_neg hc, e post, Option.bind_some, h2 post]

theorem pushRest_inside {α : Type} {p : List Ch → Option (α × List Ch)} {bad : List Ch} (hp : StaysInside bad p) :
    ∀ (n : Nat) (t : List Ch) (acc : List α), t.length ≤ n → 0 ∉ t → (∀ k ∈ bad, k ∉ t) →
      ∃ l, ∀ fuel post, t.length < fuel → pushRest p acc fuel (t ++ 0 :: post) = some l := by
  intro n
  induction n with
  | zero =>
    intro t acc hl h hk
    obtain rfl := List.length_eq_zero_iff.1 (Nat.le_zero.1 hl)
    refine ⟨acc, fun fuel post hf => ?_⟩
    obtain ⟨k, rfl⟩ : ∃ k, fuel = k + 1 := ⟨fuel - 1, by omega⟩
    simp [pushRest, deref]
  | succ n ih =>
    intro t acc hl h hk
    by_cases hn : t = []
    · subst hn
      refine ⟨acc, fun fuel post hf => ?_⟩
      obtain ⟨k, rfl⟩ : ∃ k, fuel = k + 1 := ⟨fuel - 1, by omega⟩
      simp [pushRest, deref]
    · obtain ⟨v, t', h1, h2, h3⟩ := hp t h hk
      have := h2 hn
      obtain ⟨l, hl⟩ := ih t' (acc ++ [v]) (by omega) (notMem_of_suffix h1 h) fun k hb => notMem_of_suffix h1 (hk k hb)
      refine ⟨l, fun fuel post hf => ?_⟩
      obtain ⟨k, rfl⟩ : ∃ k, fuel = k + 1 := ⟨fuel - 1, by omega⟩
      unfold pushRest
      rw [deref_eq, Option.bind_some, if_neg (headD_ne h hn), h3 post, Option.bind_some]
      exact hl k post (by omega)

theorem fillOld_inside {α : Type} {p : List Ch → Option (α × List Ch)} {bad : List Ch} (hp : StaysInside bad p) :
    ∀ (old : List α) (t : List Ch) (done : List α), 0 ∉ t → (∀ k ∈ bad, k ∉ t) →
      ∃ a b t', t' <:+ t ∧ ∀ post, fillOld p done old (t ++ 0 :: post) = some (a, b, t' ++ 0 :: post) := by
  intro old
  induction old with
  | nil => intro t done _ _; exact ⟨done, [], t, List.suffix_refl _, fun post => rfl⟩
  | cons o old ih =>
    intro t done h hk
    by_cases hn : t = []
    · subst hn
      exact ⟨done, o :: old, [], List.suffix_refl _, fun post => by simp [fillOld, deref]⟩
    · obtain ⟨v, t', h1, h2, h3⟩ := hp t h hk
      obtain ⟨a, b, t'', g1, g2⟩ := ih t' (done ++ [v]) (notMem_of_suffix h1 h) fun k hb => notMem_of_suffix h1 (hk k hb)
      refine ⟨a, b, t'', g1.trans h1, fun post => ?_⟩
      unfold fillOld
      rw [deref_eq, Option.bind_some, if_neg (headD_ne h hn), h3 post, Option.bind_some]
      exact g2 post

theorem toList_inside {α : Type} {p : List Ch → Option (α × List Ch)} {bad : List Ch} (hp : StaysInside bad p) (d : α) (t : List Ch) (array : List α)
    (h : 0 ∉ t) (hk : ∀ k ∈ bad, k ∉ t) : ∃ l, ∀ post, toList p d (t ++ 0 :: post) array = some l := by
  by_cases hn : t = []
  · subst hn; exact ⟨resizeTo d array 0, fun post => by simp [toList, deref]⟩
  · obtain ⟨a, b, t', h1, h2⟩ := fillOld_inside hp array t [] h hk
    have h' := notMem_of_suffix h1 h
    obtain ⟨l, hl⟩ := pushRest_inside hp t'.length t' [] (Nat.le_refl _) h' fun k hb => notMem_of_suffix h1 (hk k hb)
    refine ⟨resizeTo d (a ++ b ++ l) (a.length + l.length), fun post => ?_⟩
    unfold toList
    rw [deref_eq, Option.bind_some, if_neg (headD_ne h hn), h2 post, Option.bind_some]
    simp only
    rw [countValues_eq _ _ h', Option.bind_some, hl _ post (by simp; omega), Option.map_some]

theorem boolLoop_eq (post : List Ch) : ∀ (fuel : Nat) (t : List Ch) (acc : List Bool), t.length < fuel → 0 ∉ t →
    (∀ c ∈ t.head?, blank c = false) →
    boolLoop acc fuel (t ++ 0 :: post) =
      some (acc ++ (tokens t).map fun tok => !(tok.headD 0 = 48 || tok.headD 0 = 102 || tok.headD 0 = 70)) := by
  intro fuel
  induction fuel with
  | zero => intro t acc h; omega
  | succ fuel ih =>
    intro t acc hf h hb
    unfold boolLoop
    rw [deref_eq, Option.bind_some]
    by_cases hn : t = []
    · subst hn; simp [tokens, tokensFrom]
    · rw [if_neg (headD_ne h hn)]
      obtain ⟨r1, r2, r3, r4⟩ := rest_props t hn hb
      unfold toBoolean
      rw [deref_eq, Option.map_some, Option.bind_some, skipToken_eq _ _ h, Option.bind_some,
        ih _ _ (by omega) (notMem_of_suffix r4 h) (head_dropWhile _ _), r1]
      obtain ⟨c, u, rfl⟩ := List.exists_cons_of_ne_nil hn
      have hc : c ≠ 0 := by rintro rfl; simp at h
      have : (List.takeWhile (fun c => !blank c) (c :: u)).headD 0 = c := by
        rw [List.takeWhile_cons_of_pos (by simp [hb c (by simp)])]; rfl
      rw [List.map_cons, this]
      simp [hc]

end Verif.FConv
