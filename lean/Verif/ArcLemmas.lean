import Verif.ArcSpec

/-! # Lemmas about the trees and texts of saved files -/

namespace Verif.FArc

open Verif.FStr (Ch)
open Verif.FEff (Text text)
open Verif.FConv (Ov Lit Formats shown tokens)

theorem text_inj {a b : String} : text a = text b ↔ a = b := by
  constructor
  · intro h
    have h2 : a.toList = b.toList := by
      have hinj : Function.Injective fun c : Char => (c.toNat : Int) := by
        intro x y hxy
        have : x.toNat = y.toNat := Int.ofNat.inj hxy
        exact Char.toNat_inj.1 this
      exact List.map_injective_iff.2 hinj h
    exact String.toList_inj.1 h2
  · rintro rfl; rfl

theorem decode_plain {t : Text} (h : Plain t) : decode t = some t := by
  have he : ∀ t : Text, FXml.escaped (fun _ => true) t = t := by
    intro t
    induction t with
    | nil => rfl
    | cons c t ih => simp [FXml.escaped]
  obtain ⟨b, e, hb⟩ := FXml.decodeLoop_holds (fun _ => true) t [] (fun c hc => (h c hc).1) (fun c hc _ => (h c hc).2) ((t ++ [0]).length + 1) (FXml.ofReserve_holds 32)
    (by rw [he]; simp; omega)
  rw [he] at e
  unfold decode FXml.xmlToString
  rw [e, Option.bind_some]
  exact FXml.toText_holds (by simpa using hb) (fun h0 => (h 0 h0).1.2.2 rfl)

theorem decode_encode {t : Text} (h : Plain t) : decode (encode t) = some t := by
  obtain ⟨x, e1, e2⟩ := FXml.content_roundtrip_partial t [] [] (fun c hc => (h c hc).1) (fun hc => (h 37 hc).2 rfl)
  unfold decode encode
  rw [e1]
  exact e2

@[simp] theorem decode_nil : decode [] = some [] := by decide +kernel

theorem textAt_total : ∀ (l : List Ch) (rest : List (Option Ch)), ∃ r, FBld.textAt (l.map some ++ some 0 :: rest) = some r
  | [], rest => ⟨[], by simp [FBld.textAt]⟩
  | c :: l, rest => by
    obtain ⟨r, hr⟩ := textAt_total l rest
    by_cases hc : c = 0
    · exact ⟨[], by simp [FBld.textAt, hc]⟩
    · exact ⟨c :: r, by simp [FBld.textAt, hc, hr]⟩

theorem decodeLoop_total : ∀ (fuel : Nat) (t : Text) (b : FBld.Bld) (l : List Ch), 0 ∉ t → t.length < fuel → FBld.Holds b l →
    ∃ b' l', FXml.decodeLoop fuel b (t ++ [0]) = some b' ∧ FBld.Holds b' l'
  | 0, _, _, _, _, h, _ => absurd h (by omega)
  | fuel + 1, [], b, l, _, _, hb => ⟨b, l, by simp [FXml.decodeLoop], hb⟩
  | fuel + 1, c :: t, b, l, h0, hl, hb => by
    have hc : c ≠ 0 := fun h => h0 (by simp [h])
    have ht : (0 : Ch) ∉ t := fun h => h0 (by simp [h])
    rw [List.cons_append, FXml.decodeLoop, if_neg hc]
    by_cases h37 : c = 37
    · rw [if_neg (by simpa using h37)]
      obtain ⟨v, t', hs, hv⟩ := (FConv.parsers_stay_inside_partial t ht).2.2.1 2
      obtain ⟨b1, e1, h1⟩ := FBld.appendChar_holds hb (FXml.toChar v)
      rw [hv [], Option.bind_some, e1, Option.bind_some]
      exact decodeLoop_total fuel t' b1 _ (fun h => ht (hs.subset h)) (by have := hs.length_le; simp at hl; omega) h1
    · rw [if_pos h37]
      obtain ⟨b1, e1, h1⟩ := FBld.appendChar_holds hb c
      rw [e1, Option.bind_some]
      exact decodeLoop_total fuel t b1 _ ht (by simp at hl; omega) h1

/-- Decoding reads nothing outside the text. -/
theorem decode_total (t : Text) (h0 : 0 ∉ t) : ∃ r, decode t = some r := by
  obtain ⟨b, l, e, hb⟩ := decodeLoop_total ((t ++ [0]).length + 1) t _ [] h0 (by simp; omega) (FXml.ofReserve_holds 32)
  obtain ⟨v', j, e', hb', _⟩ := FBld.toCharPtr_holds hb
  obtain ⟨r, hr⟩ := textAt_total l j
  refine ⟨r, ?_⟩
  unfold decode FXml.xmlToString
  rw [e, Option.bind_some]
  unfold FBld.toText
  rw [e', Option.bind_some, hb']
  exact hr

theorem textAt_ne_zero : ∀ (b : List (Option Ch)) (r : List Ch), FBld.textAt b = some r → (0 : Ch) ∉ r
  | [], _, h => by simp [FBld.textAt] at h
  | none :: b, r, h => by simp [FBld.textAt] at h
  | some c :: b, r, h => by
    rw [FBld.textAt] at h
    by_cases hc : c = 0
    · rw [if_pos hc] at h
      obtain rfl := Option.some.inj h
      simp
    · rw [if_neg hc] at h
      obtain ⟨r', h', rfl⟩ := Option.map_eq_some_iff.1 h
      have := textAt_ne_zero b r' h'
      simp [this, Ne.symm hc]

theorem encode_ne_zero (t : Text) : (0 : Ch) ∉ encode t := by
  unfold encode FXml.addContent FBld.toText
  cases h : (FXml.escapeLoop FXml.xmlTable (FBld.ofReserve 32) (t ++ [0])).bind fun v => (FBld.toCharPtr v).bind fun v' => FBld.textAt v'.buf with
  | none => simp
  | some r =>
    obtain ⟨v, -, h⟩ := Option.bind_eq_some_iff.1 h
    obtain ⟨v', -, h⟩ := Option.bind_eq_some_iff.1 h
    exact textAt_ne_zero _ _ h

theorem fullTexts_append : ∀ a b : List Node, fullTexts (a ++ b) = fullTexts a ++ fullTexts b
  | [], b => by simp [fullTexts]
  | k :: a, b => by simp [fullTexts, fullTexts_append a b]

theorem plain_nil : Plain [] := by intro c hc; cases hc

theorem plain_append {a b : Text} (ha : Plain a) (hb : Plain b) : Plain (a ++ b) := by
  intro c hc
  rcases List.mem_append.1 hc with h | h
  · exact ha c h
  · exact hb c h

theorem plain_cons {c : Ch} {b : Text} (hc : FXml.IsChar c ∧ c ≠ 37) (hb : Plain b) : Plain (c :: b) := by
  intro d hd
  rcases List.mem_cons.1 hd with h | h
  · exact h ▸ hc
  · exact hb d h

/-! ## Accessors -/

section
variable (n : Text) (as : List (Text × Text)) (t : Text) (ks : List Node)

@[simp] theorem name_elem : (Node.elem n as t ks).name = n := rfl
@[simp] theorem attrs_elem : (Node.elem n as t ks).attrs = as := rfl
@[simp] theorem direct_elem : (Node.elem n as t ks).direct = t := rfl
@[simp] theorem kids_elem : (Node.elem n as t ks).kids = ks := rfl

@[simp] theorem raw_nil (a : Text) : (Node.elem n [] t ks).raw a = none := rfl

theorem raw_cons (x v a : Text) : (Node.elem n ((x, v) :: as) t ks).raw a = if x = a then some v else (Node.elem n as t ks).raw a := by
  by_cases h : x = a <;> simp [Node.raw, h]

theorem raw_append (bs : List (Text × Text)) (a : Text) : (Node.elem n (as ++ bs) t ks).raw a = ((Node.elem n as t ks).raw a).or ((Node.elem n bs t ks).raw a) := by
  induction as with
  | nil => simp
  | cons x as ih =>
    obtain ⟨x, v⟩ := x
    rw [List.cons_append, raw_cons, raw_cons, ih]
    split <;> simp

@[simp] theorem child_nil (a : Text) : (Node.elem n as t []).child a = none := rfl

theorem child_cons (k : Node) (a : Text) : (Node.elem n as t (k :: ks)).child a = if k.name = a then some k else (Node.elem n as t ks).child a := by
  by_cases h : k.name = a <;> simp [Node.child, h]

theorem child_append (js : List Node) (a : Text) : (Node.elem n as t (ks ++ js)).child a = ((Node.elem n as t ks).child a).or ((Node.elem n as t js).child a) := by
  simp [Node.child, List.find?_append]

@[simp] theorem children_nil (a : Text) : (Node.elem n as t []).children a = [] := rfl

theorem children_cons (k : Node) (a : Text) : (Node.elem n as t (k :: ks)).children a = if k.name = a then k :: (Node.elem n as t ks).children a else (Node.elem n as t ks).children a := by
  by_cases h : k.name = a <;> simp [Node.children, h]

theorem children_append (js : List Node) (a : Text) : (Node.elem n as t (ks ++ js)).children a = (Node.elem n as t ks).children a ++ (Node.elem n as t js).children a := by
  simp [Node.children]

end

@[simp] theorem fullText_leaf (n : Text) (as : List (Text × Text)) (t : Text) : fullText (.elem n as t []) = t := by simp [fullText, fullTexts]

theorem content_textChild {n t : Text} (h : Plain t) : content (textChild n t) = some t := by
  unfold content textChild
  rw [fullText_leaf, decode_encode h]

theorem content_valueChild {n t : Text} (h : Plain t) : content (valueChild n t) = some t := by
  unfold content valueChild
  rw [fullText_leaf, decode_plain h]

/-! ## Numbers -/

theorem digit_plain {c : Ch} (h : FConv.digit c = true) : FXml.IsChar c ∧ c ≠ 37 := by
  rw [FConv.digit_iff] at h
  have := of_decide_eq_true h
  obtain ⟨h1, h2⟩ := this
  refine ⟨⟨Int.le_trans (by decide) h1, Int.le_trans h2 (by decide), ?_⟩, ?_⟩ <;> (rintro rfl; exact absurd h1 (by decide))

theorem natText_plain (n : Nat) : Plain (natText n) := fun c hc => digit_plain (FConv.decimal_digits _ c hc)

theorem readNat_natText (n : Nat) (h : n < 2 ^ 32) : readNat (natText n) = some n := by
  obtain ⟨b, _, _, h3⟩ := FConv.uint32_roundtrip 0 n h
  unfold readNat natText
  rw [Nat.mod_eq_of_lt h, FBld.decimal_eq_numeral, h3 []]
  rfl

theorem intText_plain (i : Int) : Plain (intText i) := by
  unfold intText FBld.decimalInt
  split
  · exact plain_cons ⟨⟨by decide, by decide, by decide⟩, by decide⟩ fun c hc => digit_plain (FConv.decimal_digits _ c hc)
  · exact fun c hc => digit_plain (FConv.decimal_digits _ c hc)

theorem readInt_intText (ov : Ov) (i : Int) (h : i.natAbs + 48 < 2 ^ 31) : readInt ov (intText i) = some i := by
  unfold readInt intText
  rw [FConv.toInt32_small ov _ [] (FBld.decimalInt_ne_zero i) (by rw [FConv.intDigits_decimalInt, FConv.decVal_decimal]; exact h), FConv.splitSign_decimalInt, FConv.intDigits_decimalInt,
    FConv.decVal_decimal, FConv.sign_natAbs]
  rfl

theorem lit_plain (L : Lit) (h : L.WF) : Plain L.text := by
  obtain ⟨h1, h2, _, h4⟩ := h
  have dg : ∀ l : List Ch, (∀ c ∈ l, FConv.IsDigit c) → Plain l := fun l hl c hc => digit_plain (FConv.isDigit_digit (hl c hc))
  have hm : Plain [45] := plain_cons ⟨⟨by decide, by decide, by decide⟩, by decide⟩ plain_nil
  unfold Lit.text
  refine plain_append (plain_append (plain_append ?_ (dg _ h1)) ?_) ?_
  · split
    · exact hm
    · exact plain_nil
  · cases hf : L.frac with
    | none => exact plain_nil
    | some F => exact plain_cons ⟨⟨by decide, by decide, by decide⟩, by decide⟩ (dg F (h2 F hf))
  · cases hx : L.ex with
    | none => exact plain_nil
    | some x =>
      obtain ⟨e1, _, e3, _⟩ := h4 x hx
      refine plain_cons ?_ (plain_append ?_ (dg _ e3))
      · rcases e1 with e | e <;> rw [e] <;> exact ⟨⟨by decide, by decide, by decide⟩, by decide⟩
      · split
        · exact hm
        · exact plain_nil

/-- Each number has a literal that stands for it in every written text. -/
theorem lits {fmt rnd} (hf : Formats fmt rnd) : ∃ L : ℚ → Lit, (∀ q, (L q).WF) ∧ (∀ q, (L q).value = shown rnd q) ∧ (∀ q, numText fmt q = (L q).text) ∧
    ∀ qs, numsText fmt qs = FConv.joined ((qs.map L).map Lit.text) := by
  choose L h1 h2 h3 using fun q => FConv.shown_lit hf q
  refine ⟨L, h1, h3, fun q => by rw [numText, h2]; rfl, fun qs => ?_⟩
  have : FConv.spaced (fun q => FConv.floatText fmt (.fin q)) qs = some (FConv.joined ((qs.map L).map Lit.text)) := by
    induction qs with
    | nil => rfl
    | cons q qs ih =>
      cases qs with
      | nil => exact h2 q
      | cons r qs =>
        rw [FConv.spaced, ih]
        show (FConv.floatText fmt (.fin q)).bind _ = _
        rw [h2 q]
        rfl
  rw [numsText, this]
  rfl

theorem readNum_numText (ov : Ov) {fmt rnd} (hf : Formats fmt rnd) (q : ℚ) : readNum ov (numText fmt q) = some (shown rnd q) := by
  obtain ⟨L, h1, h2, h3, _⟩ := lits hf
  unfold readNum
  rw [h3]
  have := FConv.toFloat_lit ov (L q) (h1 q) [] [] [] (by simp) (by intro c hc; simp at hc) (by simp) (Or.inr (by simp))
  simp only [List.nil_append] at this
  rw [this, ← h2 q]
  rfl

theorem numText_plain {fmt rnd} (hf : Formats fmt rnd) (q : ℚ) : Plain (numText fmt q) := by
  obtain ⟨L, h1, _, h3, _⟩ := lits hf
  rw [h3]
  exact lit_plain _ (h1 q)

theorem numsText_plain {fmt rnd} (hf : Formats fmt rnd) (qs : List ℚ) : Plain (numsText fmt qs) := by
  obtain ⟨L, h1, _, _, h4⟩ := lits hf
  rw [h4]
  intro c hc
  rcases FConv.mem_joined hc with rfl | ⟨a, ha, hc⟩
  · exact ⟨⟨by decide, by decide, by decide⟩, by decide⟩
  · simp only [List.map_map, List.mem_map] at ha
    obtain ⟨q, _, rfl⟩ := ha
    exact lit_plain _ (h1 q) c hc

theorem readList_numsText (ov : Ov) {fmt rnd} (hf : Formats fmt rnd) (qs old : List ℚ) :
    FConv.toList (FConv.toFloat ov) 0 (numsText fmt qs ++ [0]) old = some (qs.map (shown rnd)) := by
  obtain ⟨txt, h1, _, h3⟩ := FConv.floats_roundtrip ov hf qs old
  unfold numsText
  rw [h1]
  exact h3 []

theorem readFloats_numsText (ov : Ov) {fmt rnd} (hf : Formats fmt rnd) (qs : List ℚ) (hq : qs ≠ []) :
    FConv.readFloats ov qs.length (numsText fmt qs ++ [0]) = some (qs.map (shown rnd), [0]) := by
  obtain ⟨L, h1, h2, _, h4⟩ := lits hf
  rw [h4]
  have := FConv.readFloats_joined ov (qs.map L) (fun x hx => by obtain ⟨q, _, rfl⟩ := List.mem_map.1 hx; exact h1 q) (by simpa using hq) []
  rw [List.length_map] at this
  rw [this, List.map_map]
  congr 2
  exact List.map_congr_left fun q _ => h2 q

theorem readVecs_numsText (ov : Ov) {fmt rnd} (hf : Formats fmt rnd) (k : Nat) (hk : 0 < k) (vs : List (List ℚ)) (hv : ∀ v ∈ vs, v.length = k) (old : List (List ℚ)) :
    FConv.toVecList (FConv.toVector ov k) (numsText fmt vs.flatten ++ [0]) old = some (vs.map (·.map (shown rnd))) := by
  obtain ⟨L, h1, h2, _, h4⟩ := lits hf
  rw [h4]
  have hw : ∀ x ∈ vs.flatten.map L, x.WF := fun x hx => by obtain ⟨q, _, rfl⟩ := List.mem_map.1 hx; exact h1 q
  obtain ⟨a1, a2, a3⟩ := FConv.joined_lits _ hw
  rw [FConv.vector_list_rows ov k hk _ [] (vs.map (·.map L)) a1 a2.1 ?_ ?_ ?_ old]
  · rw [List.map_map]
    congr 1
    apply List.map_congr_left
    intro v _
    simp only [Function.comp_apply, List.map_map]
    exact List.map_congr_left fun q _ => h2 q
  · intro r hr
    obtain ⟨v, hv', rfl⟩ := List.mem_map.1 hr
    exact ⟨by simpa using hv v hv', fun x hx => by obtain ⟨q, _, rfl⟩ := List.mem_map.1 hx; exact h1 q⟩
  · rw [a3]
    simp [List.map_flatten, Function.comp_def]
  · cases vs with
    | nil => left; rfl
    | cons v vs => right; simp

/-! ## Matrices -/

theorem matOfList_entries (f : ℚ → ℚ) (m : FConv.Mat) : FConv.matOfList ((FConv.matEntries m).map f) = fun i j => f (m i j) := by
  funext i j
  fin_cases i <;> fin_cases j <;> rfl

theorem toMatrix_step (ov : Ov) (t : Text) (h0 : 0 ∉ t) (hok : FConv.FloatOk t) (row rest : List (List Ch)) (htok : tokens t = row ++ rest) (hr : row.length = 16) (old : FConv.Mat) :
    ∃ t', tokens t' = rest ∧ (t' = [] ∨ tokens t' ≠ []) ∧ 0 ∉ t' ∧ FConv.FloatOk t' ∧ t'.length < t.length ∧
      FConv.toMatrix ov (t ++ [0]) old = some (FConv.matOfList (row.map (FConv.tokFloat ov)), t' ++ [0]) := by
  have hne : t ≠ [] := by
    rintro rfl
    rw [FConv.tokens_nil] at htok
    have := congrArg List.length htok
    simp [hr] at this
    omega
  have hx : tokens t ≠ [] := by rw [htok]; intro e; have := congrArg List.length e; simp [hr] at this
  obtain ⟨t', b1, b2, b3, b4, b5, b6, b7⟩ := FConv.readFloats_eq ov 16 t h0 hok (Or.inr hx)
  refine ⟨t', ?_, b2, b3, b4, b5 (by decide) hne, ?_⟩
  · rw [b1, htok, ← hr, List.drop_left]
  · unfold FConv.toMatrix
    rw [FConv.deref_eq, Option.bind_some, if_neg (FConv.headD_ne h0 hne), b7 [], htok]
    have : 16 - (row ++ rest).length = 0 := by simp; omega
    rw [this, ← hr, List.take_left]
    simp

theorem matRest_eq (ov : Ov) : ∀ (rows : List (List (List Ch))) (t : Text) (fuel : Nat), t.length < fuel → 0 ∉ t → FConv.FloatOk t → (t = [] ∨ tokens t ≠ []) → tokens t = rows.flatten →
    (∀ r ∈ rows, r.length = 16) → matRest ov fuel (t ++ [0]) = some (rows.map fun r => FConv.matOfList (r.map (FConv.tokFloat ov))) := by
  intro rows
  induction rows with
  | nil =>
    intro t fuel hf _ _ ht htok _
    obtain ⟨f, rfl⟩ : ∃ f, fuel = f + 1 := ⟨fuel - 1, by omega⟩
    have : t = [] := by rcases ht with h | h; exact h; exact absurd htok h
    subst this
    rfl
  | cons r rows ih =>
    intro t fuel hf h0 hok ht htok hr
    obtain ⟨f, rfl⟩ : ∃ f, fuel = f + 1 := ⟨fuel - 1, by omega⟩
    rw [List.flatten_cons] at htok
    have hne : t ≠ [] := by
      rintro rfl
      rw [FConv.tokens_nil] at htok
      have := congrArg List.length htok
      simp [hr r (by simp)] at this
      omega
    obtain ⟨t', c1, c2, c3, c4, c5, c6⟩ := toMatrix_step ov t h0 hok r rows.flatten htok (hr r (by simp)) identity
    unfold matRest
    rw [FConv.deref_eq, Option.bind_some, if_neg (FConv.headD_ne h0 hne), c6, Option.bind_some, ih t' f (by omega) c3 c4 c2 c1 fun x hx => hr x (by simp [hx])]
    rfl

theorem matOld_eq (ov : Ov) : ∀ (rows : List (List (List Ch))) (old : List FConv.Mat) (t : Text), 0 ∉ t → FConv.FloatOk t → (t = [] ∨ tokens t ≠ []) → tokens t = rows.flatten →
    (∀ r ∈ rows, r.length = 16) → ∃ t', matOld ov old (t ++ [0]) = some ((rows.take old.length).map (fun r => FConv.matOfList (r.map (FConv.tokFloat ov))), t' ++ [0]) ∧
      tokens t' = (rows.drop old.length).flatten ∧ (t' = [] ∨ tokens t' ≠ []) ∧ 0 ∉ t' ∧ FConv.FloatOk t' := by
  intro rows
  induction rows with
  | nil =>
    intro old t h0 hok ht htok _
    have : t = [] := by rcases ht with h | h; exact h; exact absurd htok h
    subst this
    refine ⟨[], ?_, by simp [FConv.tokens_nil], Or.inl rfl, h0, hok⟩
    cases old <;> rfl
  | cons r rows ih =>
    intro old t h0 hok ht htok hr
    cases old with
    | nil => exact ⟨t, rfl, htok, ht, h0, hok⟩
    | cons m old =>
      rw [List.flatten_cons] at htok
      have hne : t ≠ [] := by
        rintro rfl
        rw [FConv.tokens_nil] at htok
        have := congrArg List.length htok
        simp [hr r (by simp)] at this
        omega
      obtain ⟨t', c1, c2, c3, c4, c5, c6⟩ := toMatrix_step ov t h0 hok r rows.flatten htok (hr r (by simp)) m
      obtain ⟨t'', d1, d2, d3, d4, d5⟩ := ih old t' c3 c4 c2 c1 fun x hx => hr x (by simp [hx])
      refine ⟨t'', ?_, by simpa using d2, d3, d4, d5⟩
      unfold matOld
      rw [FConv.deref_eq, Option.bind_some, if_neg (FConv.headD_ne h0 hne), c6, Option.bind_some, d1]
      rfl

theorem toMatrixList_eq (ov : Ov) (rows : List (List (List Ch))) (old : List FConv.Mat) (t : Text) (h0 : 0 ∉ t) (hok : FConv.FloatOk t) (ht : t = [] ∨ tokens t ≠ [])
    (htok : tokens t = rows.flatten) (hr : ∀ r ∈ rows, r.length = 16) :
    toMatrixList ov (t ++ [0]) old = some (rows.map fun r => FConv.matOfList (r.map (FConv.tokFloat ov))) := by
  unfold toMatrixList
  rw [FConv.deref_eq, Option.bind_some]
  by_cases hn : t = []
  · subst hn
    rw [if_pos (show ([] : List Ch).headD 0 = 0 from rfl)]
    rw [FConv.tokens_nil] at htok
    cases rows with
    | nil => rfl
    | cons r rows =>
      have := congrArg List.length htok
      simp [hr r (by simp)] at this
      omega
  · rw [if_neg (FConv.headD_ne h0 hn)]
    obtain ⟨t', d1, d2, d3, d4, d5⟩ := matOld_eq ov rows old t h0 hok ht htok hr
    rw [d1, Option.bind_some, matRest_eq ov (rows.drop old.length) t' _ (by simp; omega) d4 d5 d3 d2 fun x hx => hr x (List.mem_of_mem_drop hx), Option.map_some, ← List.map_append,
      List.take_append_drop]

theorem readMats_numsText (ov : Ov) {fmt rnd} (hf : Formats fmt rnd) (ms old : List FConv.Mat) :
    toMatrixList ov (numsText fmt (ms.flatMap FConv.matEntries) ++ [0]) old = some (ms.map (shownMat rnd)) := by
  obtain ⟨L, h1, h2, _, h4⟩ := lits hf
  rw [h4]
  have hw : ∀ x ∈ (ms.flatMap FConv.matEntries).map L, x.WF := fun x hx => by obtain ⟨q, _, rfl⟩ := List.mem_map.1 hx; exact h1 q
  obtain ⟨a1, a2, a3⟩ := FConv.joined_lits _ hw
  rw [toMatrixList_eq ov (ms.map fun m => ((FConv.matEntries m).map L).map Lit.text) old _ a1 a2 ?_ ?_ ?_]
  · rw [List.map_map]
    congr 1
    apply List.map_congr_left
    intro m _
    simp only [Function.comp_apply]
    rw [FConv.tokens_values ov _ fun x hx => by obtain ⟨q, _, rfl⟩ := List.mem_map.1 hx; exact h1 q]
    rw [List.map_map, show Lit.value ∘ L = shown rnd from funext h2, matOfList_entries]
    rfl
  · rw [a3]
    cases ms with
    | nil => left; rfl
    | cons m ms => right; simp [FConv.matEntries]
  · rw [a3]
    simp [List.flatMap, List.map_flatten, Function.comp_def]
  · intro r hr
    obtain ⟨m, _, rfl⟩ := List.mem_map.1 hr
    simp [FConv.matEntries]

/-! ## Words -/

theorem nameLoop_empty (post : List Ch) : ∀ (fuel : Nat) (done : List (List Ch)) (k : Nat) (t : List Ch), 0 ∉ t → t.length < fuel →
    (∀ c ∈ t.head?, FConv.blank c = false) → FConv.nameLoop fuel done (List.replicate k []) (t ++ 0 :: post) = FConv.nameLoop fuel done [] (t ++ 0 :: post) := by
  intro fuel
  induction fuel with
  | zero => intro _ _ _ _ h; omega
  | succ fuel ih =>
    intro done k t h0 hf hb
    cases k with
    | zero => rfl
    | succ k =>
      rw [List.replicate_succ]
      unfold FConv.nameLoop
      rw [FConv.deref_eq, Option.bind_some, Option.bind_some]
      by_cases hn : t = []
      · subst hn; rfl
      · rw [if_neg (FConv.headD_ne h0 hn), if_neg (FConv.headD_ne h0 hn), FConv.skipWhile_eq _ _ _ h0, Option.bind_some, Option.bind_some,
          FConv.skipWhile_eq _ _ _ (FConv.notMem_of_suffix (List.dropWhile_suffix _) h0), Option.bind_some, Option.bind_some]
        simp only [List.nil_append]
        have hlen := congrArg List.length (List.takeWhile_append_dropWhile (p := fun c => !FConv.blank c) (l := t))
        rw [List.length_append] at hlen
        have hpos : 0 < (t.takeWhile fun c => !FConv.blank c).length := by
          obtain ⟨c, u, rfl⟩ := List.exists_cons_of_ne_nil hn
          have := hb c rfl
          rw [List.takeWhile_cons_of_pos (by simp [this])]; simp
        have hsuf := (List.dropWhile_suffix FConv.blank (l := t.dropWhile fun c => !FConv.blank c))
        have := hsuf.length_le
        exact ih _ k _ (FConv.notMem_of_suffix (hsuf.trans (List.dropWhile_suffix _)) h0) (by omega) (FConv.head_dropWhile _ _)

theorem toStringList_empty (k : Nat) (t : Text) (h0 : 0 ∉ t) : FConv.toStringList (t ++ [0]) (List.replicate k []) = some (tokens t) := by
  have h := FConv.string_list_partial t [] h0
  unfold FConv.toStringList at h ⊢
  rw [FConv.skipWhile_eq _ _ _ h0, Option.bind_some] at h ⊢
  rw [nameLoop_empty [] _ _ _ _ (FConv.notMem_of_suffix (List.dropWhile_suffix _) h0) (by simp) (FConv.head_dropWhile _ _)]
  exact h

theorem wordsText_eq : ∀ ws : List Text, wordsText ws = FConv.joined ws
  | [] => rfl
  | [_] => rfl
  | a :: b :: rest => by rw [wordsText, FConv.joined, wordsText_eq (b :: rest)]

theorem words_tokens (ws : List Text) (h : ∀ w ∈ ws, Word w) : tokens (wordsText ws) = ws ∧ 0 ∉ wordsText ws := by
  rw [wordsText_eq]
  refine ⟨FConv.tokens_joined ws fun w hw => ⟨(h w hw).1, fun c hc => ?_⟩, fun h0 => ?_⟩
  · have := (h w hw).2.2 c hc
    rw [← FConv.blank_iff] at this
    simpa using this
  · rcases FConv.mem_joined h0 with e | ⟨a, ha, hc⟩
    · exact absurd e (by decide)
    · exact (h a ha).2.1 hc

/-- A format that writes 3/2 for everything, to show that the hypothesis can be met. -/
theorem formats_ok : Formats (fun _ => text "1.5") (fun _ => 3 / 2) := by
  intro q _
  refine ⟨⟨false, [49], some [53], none⟩, ⟨by decide, by decide, by decide, ?_, ?_⟩, rfl, ?_⟩
  · intro F hF; cases hF; decide
  · intro x hx; cases hx
  · have h1 : FConv.decVal [49] = 1 := by decide
    have h2 : FConv.decVal [53] = 5 := by decide
    simp only [FConv.GText.value, FConv.fracVal, h1, h2]
    norm_num

end Verif.FArc
