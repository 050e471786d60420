import Verif.ArcStateSpec
import Verif.ArcPolyLemmas
import Verif.ArcInstLemmas
import Verif.ArcCamProps

/-!
# Lemmas about the saving and loading of render states
-/

namespace Verif.FArc

open Verif.FEff (Text text)
open Verif.FConv (Ov Formats shown)
open Verif.FPass (Cell)

/-! ## Memory -/

theorem scal_bytes (s : Scal) (v : SV) (hs : s ≠ .chars) : scalBytes s v = valBytes s v := by
  cases s <;> cases v <;> simp_all [scalBytes, valBytes, FPass.Val.bytes, FPass.le, FPass.flBytes, FPass.ieee, Nat.div_div_eq_div_mul, List.range_succ]
  all_goals (next b => cases b <;> rfl)

theorem scal_back (s : Scal) (v : SV) (hs : s ≠ .chars) (h : GoodSV s v) (r : List Cell) : readScal s (valBytes s v ++ r) = some (v, r) := by
  have he : ∀ n, n < 2 ^ 32 → n % 256 + 256 * (n / 256 % 256) + 65536 * (n / 256 / 256 % 256) + 16777216 * (n / 256 / 256 / 256 % 256) = n := fun n hn => by omega
  have hen : ∀ e, ∀ n ∈ enumValues e, n < 2 ^ 32 := by intro e; cases e <;> decide +kernel
  cases s <;> cases v <;> simp only [GoodSV] at h
  · next e n => simp only [valBytes, FPass.le, List.cons_append, List.nil_append, readScal, he n (hen e n h)]
  · next n => simp only [valBytes, FPass.le, List.cons_append, List.nil_append, readScal, Nat.mod_eq_of_lt (show n < 256 by omega)]
  · next n => simp only [valBytes, FPass.le, List.cons_append, List.nil_append, readScal]; rw [show n % 256 + 256 * (n / 256 % 256) = n by omega]
  · next n => simp only [valBytes, FPass.le, List.cons_append, List.nil_append, readScal, he n h]
  · next b => cases b <;> rfl
  · next q => simp [valBytes, FPass.ieee, List.range_succ, readScal]
  · exact absurd rfl hs

theorem scals_back (ss : List Scal) (hs : Scal.chars ∉ ss) (vs : List SV) (h : List.Forall₂ GoodSV ss vs) (r : List Cell) : readScals ss (dataOf ss vs ++ r) = some vs := by
  induction h with
  | nil => rfl
  | cons a b ih =>
    simp only [List.mem_cons, not_or] at hs
    rw [readScals, dataOf, List.append_assoc, scal_back _ _ (Ne.symm hs.1) a, Option.bind_some, ih hs.2, Option.map_some]

theorem scals_bytes (ss : List Scal) (hs : Scal.chars ∉ ss) : ∀ vs, scalsBytes ss vs = dataOf ss vs := by
  induction ss with
  | nil => intro vs; cases vs <;> rfl
  | cons s ss ih =>
    simp only [List.mem_cons, not_or] at hs
    intro vs
    cases vs with
    | nil => rfl
    | cons v vs => rw [scalsBytes, dataOf, scal_bytes _ _ (Ne.symm hs.1), ih hs.2]

/-- The number of bytes of a field. -/
def scalSize : Scal → Nat
  | .u8 => 1
  | .u16 => 2
  | .u32 => 4
  | .enum _ => 4
  | .bool => 1
  | .float => 4
  | .chars => 255

theorem val_length (s : Scal) (v : SV) (h : GoodSV s v) : (valBytes s v).length = scalSize s := by
  cases s <;> cases v <;> simp only [GoodSV] at h
  all_goals simp [valBytes, scalSize, FPass.le, FPass.ieee]
  omega

theorem data_length (ss : List Scal) (vs : List SV) (h : List.Forall₂ GoodSV ss vs) : (dataOf ss vs).length = (ss.map scalSize).sum := by
  induction h with
  | nil => rfl
  | cons a b ih => rw [dataOf, List.length_append, val_length _ _ a, ih]; rfl

theorem good_round (rnd : ℚ → ℚ) (ss : List Scal) (vs : List SV) (h : List.Forall₂ GoodSV ss vs) : List.Forall₂ GoodSV ss (vs.map (roundSV rnd)) := by
  induction h with
  | nil => exact .nil
  | @cons s v _ _ a b ih => exact .cons (by cases s <;> cases v <;> exact a) ih

/-! ## Texts -/

theorem enum_back (e : EKind) : ∀ n ∈ enumValues e, enumOf e (enumText e n) = n := by cases e <;> decide +kernel

theorem enum_plain (e : EKind) (n : Nat) (h : n ∈ enumValues e) : Plain (enumText e n) :=
  hplain _ ((by cases e <;> decide +kernel : ∀ n ∈ enumValues e, ∀ c ∈ enumText e n, (1 ≤ c ∧ c ≤ 127) ∧ c ≠ 37) n h)

theorem floats_of (n : Nat) (vs : List SV) (h : List.Forall₂ GoodSV (List.replicate n .float) vs) : ∃ l : List ℚ, vs = l.map .fl ∧ l.length = n := by
  induction n generalizing vs with
  | zero => cases h; exact ⟨[], rfl, rfl⟩
  | succ n ih =>
    cases h with
    | @cons _ v _ vs a b =>
      obtain ⟨l, rfl, hl⟩ := ih vs b
      cases v <;> simp only [GoodSV] at a
      next q => exact ⟨q :: l, rfl, by simp [hl]⟩

theorem svFloats_map (l : List ℚ) : svFloats (l.map .fl) = l := by
  induction l with
  | nil => rfl
  | cons q l ih => rw [List.map_cons, svFloats, List.filterMap_cons]; exact congrArg (q :: ·) ih

theorem words_plain : ∀ l : List Text, (∀ t ∈ l, Plain t) → Plain (wordsText l) := by
  intro l
  induction l with
  | nil => intro _ c hc; simp [wordsText] at hc
  | cons a l ih =>
    intro h
    cases l with
    | nil => simpa [wordsText] using h a (by simp)
    | cons b l =>
      rw [wordsText]
      intro c hc
      rcases List.mem_append.1 hc with hc | hc
      · exact h a (by simp) c hc
      · rcases List.mem_cons.1 hc with rfl | hc
        · unfold FXml.IsChar; decide
        · exact ih (fun t ht => h t (by simp [ht])) c hc

theorem bit_plain (b : Bool) : Plain (bitText b) := by cases b <;> exact hplain _ (by decide +kernel)

/-- The fields of which the text is read back as its values. -/
theorem fld_back (ov : Ov) {fmt rnd} (hf : Formats fmt rnd) (k : FKind) (hk : k ≠ .chars) (hn : ∀ n, k = .vec n → n = 2 ∨ n = 3 ∨ n = 4) (vs : List SV) (h : List.Forall₂ GoodSV k.scal vs) :
    Plain (fldText fmt k vs) ∧ fldOf ov k (fldText fmt k vs) = some (some (vs.map (roundSV rnd))) := by
  cases k with
  | enum e =>
    rcases h with _ | @⟨_, v, _, _, a, _ | _⟩
    cases v <;> simp only [GoodSV] at a
    next n => exact ⟨enum_plain e n a, by simp only [fldOf, fldText, enum_back e n a]; rfl⟩
  | u8 =>
    rcases h with _ | @⟨_, v, _, _, a, _ | _⟩
    cases v <;> simp only [GoodSV] at a
    next n => exact ⟨natText_plain n, by simp only [fldOf, fldText, readNat_natText n (by omega), Option.map_some, Nat.mod_eq_of_lt (show n < 256 by omega)]; rfl⟩
  | u32 =>
    rcases h with _ | @⟨_, v, _, _, a, _ | _⟩
    cases v <;> simp only [GoodSV] at a
    next n => exact ⟨natText_plain n, by simp only [fldOf, fldText, readNat_natText n a, Option.map_some]; rfl⟩
  | bool =>
    rcases h with _ | @⟨_, v, _, _, a, _ | _⟩
    cases v <;> simp only [GoodSV] at a
    next b => exact ⟨bit_plain b, by cases b <;> rfl⟩
  | float =>
    rcases h with _ | @⟨_, v, _, _, a, _ | _⟩
    cases v <;> simp only [GoodSV] at a
    next q => exact ⟨numText_plain hf q, by simp only [fldOf, fldText, readNum_numText ov hf, Option.map_some]; rfl⟩
  | vec n =>
    obtain ⟨l, rfl, hl⟩ := floats_of n vs h
    obtain ⟨t, h1, -, h3⟩ := FConv.vector_roundtrip ov hf l (by have := hn n rfl; omega)
    have ht : numsText fmt l = t := by unfold numsText; rw [h1]; rfl
    refine ⟨by simp only [fldText]; exact numsText_plain hf _, ?_⟩
    simp only [fldText, fldOf, svFloats_map, ht]
    by_cases h4 : n = 4
    · rw [if_pos h4, (h3 []).2.1 (by omega)]
      simp [roundSV, Function.comp_def]
    · have := (h3 []).1 (by omega)
      rw [hl] at this
      rw [if_neg h4, this]
      simp [roundSV, Function.comp_def]
  | mat =>
    obtain ⟨l, rfl, hl⟩ := floats_of 16 vs h
    obtain ⟨t, h1, -, h3⟩ := FConv.matrix_roundtrip ov hf (memMat l) identity
    have ht : numsText fmt (FConv.matEntries (memMat l)) = t := by unfold numsText; rw [h1]; rfl
    refine ⟨by simp only [fldText]; exact numsText_plain hf _, ?_⟩
    simp only [fldText, fldOf, svFloats_map, ht]
    have hne : t ≠ [] := by
      rintro rfl
      have := h1
      unfold FConv.matEntries at this
      rw [FConv.spaced] at this
      obtain ⟨a, _, b⟩ := Option.bind_eq_some_iff.1 this
      obtain ⟨c, _, d⟩ := Option.map_eq_some_iff.1 b
      cases a <;> cases d
    rw [if_neg hne, h3 []]
    simp only [Option.map_some]
    match l, hl with
    | [a0, a1, a2, a3, a4, a5, a6, a7, a8, a9, a10, a11, a12, a13, a14, a15], _ => rfl
  | bools =>
    rcases h with _ | @⟨_, v1, _, _, a1, _ | @⟨_, v2, _, _, a2, _ | @⟨_, v3, _, _, a3, _ | @⟨_, v4, _, _, a4, _ | _⟩⟩⟩⟩
    cases v1 <;> simp only [GoodSV] at a1
    cases v2 <;> simp only [GoodSV] at a2
    cases v3 <;> simp only [GoodSV] at a3
    cases v4 <;> simp only [GoodSV] at a4
    next a b c d =>
      refine ⟨words_plain _ (by simp only [List.mem_cons, List.not_mem_nil, or_false, forall_eq_or_imp, forall_eq]; exact ⟨bit_plain a, bit_plain b, bit_plain c, bit_plain d⟩), ?_⟩
      have : FConv.toBooleanList (wordsText [bitText a, bitText b, bitText c, bitText d] ++ [0]) = some [a, b, c, d] := by revert a b c d; decide +kernel
      simp only [fldOf, fldText, this]
      rfl
  | u16s =>
    rcases h with _ | @⟨_, v1, _, _, a1, _ | @⟨_, v2, _, _, a2, _ | _⟩⟩
    cases v1 <;> simp only [GoodSV] at a1
    cases v2 <;> simp only [GoodSV] at a2
    next a b =>
      refine ⟨words_plain _ (by simp only [List.mem_cons, List.not_mem_nil, or_false, forall_eq_or_imp, forall_eq]; exact ⟨natText_plain a, natText_plain b⟩), ?_⟩
      have : FConv.toList FConv.toUInt32 0 (wordsText [natText a, natText b] ++ [0]) [] = some [a, b] := readNats [a, b] (by simp only [List.mem_cons, List.not_mem_nil, or_false, forall_eq_or_imp, forall_eq]; omega) []
      simp only [fldOf, fldText, this, Option.map_some]
      rw [if_pos (by simp)]
      simp [roundSV, show a < 65536 by omega, show b < 65536 by omega]
  | chars => exact absurd rfl hk

/-! ## The fields of a state -/

theorem forall2_split {α β : Type} {R : α → β → Prop} (a b : List α) : ∀ l, List.Forall₂ R (a ++ b) l → ∃ x y, l = x ++ y ∧ List.Forall₂ R a x ∧ List.Forall₂ R b y := by
  induction a with
  | nil => intro l h; exact ⟨[], l, rfl, .nil, h⟩
  | cons c a ih =>
    intro l h
    cases h with
    | @cons _ v _ l h1 h2 =>
      obtain ⟨x, y, rfl, hx, hy⟩ := ih l h2
      exact ⟨v :: x, y, rfl, .cons h1 hx, hy⟩

/-- Values for each of the fields. -/
abbrev GoodFlds (fs : List Fld) (vss : List (List SV)) : Prop := List.Forall₂ (fun f vs => List.Forall₂ GoodSV f.kind.scal vs) fs vss

theorem flds_split (fs : List Fld) : ∀ vs, List.Forall₂ GoodSV (fs.flatMap fun f => f.kind.scal) vs → ∃ vss : List (List SV), vs = vss.flatten ∧ GoodFlds fs vss := by
  induction fs with
  | nil => intro vs h; cases h; exact ⟨[], rfl, .nil⟩
  | cons f fs ih =>
    intro vs h
    rw [List.flatMap_cons] at h
    obtain ⟨x, y, rfl, hx, hy⟩ := forall2_split _ _ _ h
    obtain ⟨vss, rfl, hv⟩ := ih y hy
    exact ⟨x :: vss, rfl, .cons hx hv⟩

theorem data_append (a b : List Scal) (x y : List SV) (h : a.length = x.length) : dataOf (a ++ b) (x ++ y) = dataOf a x ++ dataOf b y := by
  induction a generalizing x with
  | nil => cases x with
    | nil => rfl
    | cons => simp at h
  | cons s a ih => cases x with
    | nil => simp at h
    | cons v x => simp only [List.cons_append, dataOf, ih x (by simpa using h), List.append_assoc]

/-- The bytes of a field. -/
def fldSize (f : Fld) : Nat := (f.kind.scal.map scalSize).sum

/-- Fields one after the other from an offset to the end. -/
def contigF : Nat → List Fld → Bool
  | _, [] => true
  | k, f :: fs => decide (f.off = k) && contigF (k + fldSize f) fs

/-- The fields are told apart by child and attribute. -/
def apart (fs : List Fld) : Bool := fs.Pairwise fun f g => ¬ (f.child = g.child ∧ f.index = g.index)

/-- A field that the lemma about fields covers. -/
def plainFld (f : Fld) : Bool := match f.kind with
  | .chars => false
  | .vec n => n = 2 || n = 3 || n = 4
  | _ => true

theorem plain_chars {f : Fld} (h : plainFld f = true) : f.kind ≠ .chars := by rintro e; rw [plainFld, e] at h; simp at h

theorem plain_vec {f : Fld} (h : plainFld f = true) (n : Nat) (e : f.kind = .vec n) : n = 2 ∨ n = 3 ∨ n = 4 := by
  rw [plainFld, e] at h
  simp only [Bool.or_eq_true, decide_eq_true_eq] at h
  omega

theorem scal_chars {f : Fld} (h : plainFld f = true) : Scal.chars ∉ f.kind.scal := by
  have := plain_chars h
  cases hk : f.kind <;> simp_all [FKind.scal]

/-- The attributes on the element itself. -/
def selfAttr (x : Fld × Text) : Option (Text × Text) := match x.1.child with
  | none => some (x.1.attr, x.2)
  | some _ => none

/-- The child elements. -/
def childElem (x : Fld × Text) : Option Node := match x.1.child with
  | none => none
  | some c => some (.elem (text c) [(x.1.attr, x.2)] [] [])

/-- The element with texts for fields. -/
def fldsNode (name : Text) (xs : List (Fld × Text)) : Node := .elem name (xs.filterMap selfAttr) [] (xs.filterMap childElem)

theorem attr_inj {f g : Fld} (h : f.attr = g.attr) : f.index = g.index := by
  unfold Fld.attr at h
  cases hf : f.index <;> cases hg : g.index <;> rw [hf, hg] at h <;> first | rfl | (exact absurd h (by simp only [Bool.false_eq_true, if_false, if_true, text_inj]; decide))

theorem raw_items (xs : List (Fld × Text)) (hp : xs.Pairwise fun a b => ¬ (a.1.child = b.1.child ∧ a.1.index = b.1.index)) (f : Fld) (v : Text) (h : (f, v) ∈ xs) (hc : f.child = none) (name : Text)
    (ks : List Node) : (Node.elem name (xs.filterMap selfAttr) [] ks).raw f.attr = some v := by
  induction xs with
  | nil => simp at h
  | cons x xs ih =>
    obtain ⟨g, w⟩ := x
    rw [List.pairwise_cons] at hp
    rcases List.mem_cons.1 h with e | h
    · obtain ⟨rfl, rfl⟩ := Prod.mk.inj e
      rw [List.filterMap_cons, show selfAttr (f, v) = some (f.attr, v) by unfold selfAttr; rw [hc]]
      simp only [raw_cons, if_true]
    · have hne := hp.1 _ h
      simp only at hne
      rw [List.filterMap_cons]
      cases hg : g.child with
      | none =>
        rw [show selfAttr (g, w) = some (g.attr, w) by unfold selfAttr; rw [hg]]
        simp only [raw_cons]
        rw [if_neg fun e => hne ⟨by rw [hg, hc], attr_inj e⟩]
        exact ih hp.2 h
      | some c =>
        rw [show selfAttr (g, w) = none by unfold selfAttr; rw [hg]]
        exact ih hp.2 h

theorem child_items (xs : List (Fld × Text)) (hi : ∀ x ∈ xs, x.1.child ≠ none → x.1.index = false) (hp : xs.Pairwise fun a b => ¬ (a.1.child = b.1.child ∧ a.1.index = b.1.index)) (f : Fld) (v : Text)
    (h : (f, v) ∈ xs) (c : String) (hc : f.child = some c) (name : Text) (as : List (Text × Text)) :
    (Node.elem name as [] (xs.filterMap childElem)).child (text c) = some (.elem (text c) [(f.attr, v)] [] []) := by
  induction xs with
  | nil => simp at h
  | cons x xs ih =>
    obtain ⟨g, w⟩ := x
    rw [List.pairwise_cons] at hp
    rcases List.mem_cons.1 h with e | h
    · obtain ⟨rfl, rfl⟩ := Prod.mk.inj e
      rw [List.filterMap_cons, show childElem (f, v) = some (.elem (text c) [(f.attr, v)] [] []) by unfold childElem; rw [hc]]
      simp only [child_cons, Node.name, if_true]
    · have hne := hp.1 _ h
      simp only at hne
      rw [List.filterMap_cons]
      cases hg : g.child with
      | none =>
        rw [show childElem (g, w) = none by unfold childElem; rw [hg]]
        exact ih (fun x hx => hi x (by simp [hx])) hp.2 h
      | some d =>
        rw [show childElem (g, w) = some (.elem (text d) [(g.attr, w)] [] []) by unfold childElem; rw [hg]]
        rw [child_cons, if_neg (show ¬ (Node.elem (text d) [(g.attr, w)] [] []).name = text c from fun e => hne ⟨by rw [hg, hc, text_inj.1 e], by
          have e1 := hi (f, v) (by simp [h]) (by rw [hc]; simp)
          have e2 := hi (g, w) (by simp) (by rw [hg]; simp)
          simp only at e1 e2
          rw [e1, e2]⟩)]
        exact ih (fun x hx => hi x (by simp [hx])) hp.2 h

/-- The texts of the fields. -/
def fldTexts (fmt : ℚ → Text) : List Fld → List (List SV) → List (Fld × Text)
  | f :: fs, vs :: vss => (f, fldText fmt f.kind vs) :: fldTexts fmt fs vss
  | _, _ => []

theorem save_fold (fmt : ℚ → Text) (m : List Cell) (fs : List Fld) (hq : ∀ f ∈ fs, plainFld f = true) : ∀ (k : Nat) (vss : List (List SV)) (name : Text) (as : List (Text × Text)) (ks : List Node) (post : List Cell),
    contigF k fs = true → GoodFlds fs vss → m.drop k = dataOf (fs.flatMap fun f => f.kind.scal) vss.flatten ++ post →
    fs.foldlM (addFld fmt m) (.elem name as [] ks) = some (.elem name (as ++ (fldTexts fmt fs vss).filterMap selfAttr) [] (ks ++ (fldTexts fmt fs vss).filterMap childElem)) := by
  induction fs with
  | nil =>
    intro k vss name as ks post _ h _
    cases h
    simp [fldTexts]
  | cons f fs ih =>
    intro k vss name as ks post hc h hm
    cases h with
    | @cons _ vs _ vss h1 h2 =>
      simp only [contigF, Bool.and_eq_true, decide_eq_true_eq] at hc
      rw [List.flatMap_cons, List.flatten_cons, data_append _ _ _ _ h1.length_eq, List.append_assoc] at hm
      have hf := hq f (by simp)
      rw [List.foldlM_cons, addFld, hc.1, hm, scals_back _ (scal_chars hf) vs h1, Option.map_some, Option.bind_eq_bind, Option.bind_some]
      have hd : m.drop (k + fldSize f) = dataOf (fs.flatMap fun f => f.kind.scal) vss.flatten ++ post := by
        rw [← List.drop_drop, hm]
        have : (dataOf f.kind.scal vs).length = fldSize f := data_length _ _ h1
        rw [← this, List.drop_left]
      have := ih (fun g hg => hq g (by simp [hg])) (k + fldSize f) vss name
      cases hg : f.child with
      | none =>
        simp only [Node.put]
        rw [this _ _ post hc.2 h2 hd, fldTexts, List.filterMap_cons, List.filterMap_cons, show selfAttr (f, fldText fmt f.kind vs) = some (f.attr, fldText fmt f.kind vs) by unfold selfAttr; rw [hg],
          show childElem (f, fldText fmt f.kind vs) = none by unfold childElem; rw [hg]]
        simp
      | some c =>
        simp only [Node.add]
        rw [this _ _ post hc.2 h2 hd, fldTexts, List.filterMap_cons, List.filterMap_cons, show selfAttr (f, fldText fmt f.kind vs) = none by unfold selfAttr; rw [hg],
          show childElem (f, fldText fmt f.kind vs) = some (.elem (text c) [(f.attr, fldText fmt f.kind vs)] [] []) by unfold childElem; rw [hg]]
        simp

/-- An element in which the text of a field is found. -/
def HasFld (n : Node) (f : Fld) (v : Text) : Prop := ∃ k, fldNode n f = some k ∧ k.raw f.attr = some v

theorem hasFld (xs : List (Fld × Text)) (hi : ∀ x ∈ xs, x.1.child ≠ none → x.1.index = false) (hp : xs.Pairwise fun a b => ¬ (a.1.child = b.1.child ∧ a.1.index = b.1.index)) (f : Fld) (v : Text)
    (h : (f, v) ∈ xs) (name : Text) : HasFld (fldsNode name xs) f v := by
  unfold HasFld fldNode
  cases hc : f.child with
  | none => exact ⟨_, rfl, raw_items xs hp f v h hc _ _⟩
  | some c => exact ⟨_, child_items xs hi hp f v h c hc _ _, by rw [raw_cons, if_pos rfl]⟩

theorem load_fold (ov : Ov) {fmt rnd} (hf : Formats fmt rnd) (n : Node) (fs : List Fld) (hq : ∀ f ∈ fs, plainFld f = true) : ∀ (vss : List (List SV)) (pre post : List Cell),
    contigF pre.length fs = true → GoodFlds fs vss → (∀ x ∈ fldTexts fmt fs vss, HasFld n x.1 x.2) → (fs.map fldSize).sum ≤ post.length →
    fs.foldlM (loadFld ov n) (pre ++ post) = some (pre ++ dataOf (fs.flatMap fun f => f.kind.scal) (vss.flatten.map (roundSV rnd)) ++ post.drop (fs.map fldSize).sum) := by
  induction fs with
  | nil =>
    intro vss pre post _ h _ hl
    cases h
    simp [dataOf]
  | cons f fs ih =>
    intro vss pre post hc h hx hl
    cases h with
    | @cons _ vs _ vss h1 h2 =>
      simp only [contigF, Bool.and_eq_true, decide_eq_true_eq] at hc
      have hff := hq f (by simp)
      obtain ⟨k, e1, e2⟩ := hx (f, fldText fmt f.kind vs) (by simp [fldTexts])
      simp only at e1 e2
      obtain ⟨hp, hb⟩ := fld_back ov hf f.kind (plain_chars hff) (plain_vec hff) vs h1
      have hlen : (dataOf f.kind.scal (vs.map (roundSV rnd))).length = fldSize f := data_length _ _ (good_round rnd _ _ h1)
      have hpost : fldSize f ≤ post.length := by simp only [List.map_cons, List.sum_cons] at hl; omega
      have hstep : loadFld ov n (pre ++ post) f = some (pre ++ dataOf f.kind.scal (vs.map (roundSV rnd)) ++ post.drop (fldSize f)) := by
        unfold loadFld
        rw [e1]
        simp only
        rw [if_pos (by rw [Node.has, e2]; rfl), prop_raw e2 hp, Option.bind_some, hb, Option.bind_some]
        simp only
        unfold storeFld putBytes
        rw [if_neg (plain_chars hff), scals_bytes _ (scal_chars hff), hc.1, if_pos (by rw [List.length_append]; omega), hlen, List.take_left, List.drop_append]
        simp
      rw [List.foldlM_cons, hstep, Option.bind_eq_bind, Option.bind_some,
        ih (fun g hg => hq g (by simp [hg])) vss _ _ (by rw [List.length_append, hlen]; exact hc.2) h2 (fun x hm => hx x (by rw [fldTexts]; exact List.mem_cons_of_mem _ hm))
          (by rw [List.length_drop]; simp only [List.map_cons, List.sum_cons] at hl; omega), List.flatMap_cons, List.flatten_cons, List.map_append,
        data_append _ _ _ _ (by rw [List.length_map]; exact h1.length_eq), List.drop_drop]
      simp only [List.append_assoc, List.map_cons, List.sum_cons]

/-- What is checked of each row of the tables. -/
def stateOk (t : Nat) : Bool :=
  decide (saveTable t = loadTable t) && decide (((saveTable t).flatMap fun f => f.kind.scal) = docScal t) && contigF 0 (saveTable t) && apart (saveTable t) && (saveTable t).all plainFld &&
    (saveTable t).all (fun f => decide (f.child ≠ none → f.index = false)) && decide (((saveTable t).map fldSize).sum = FPass.dataSize t) && decide (stateOf (stateText t) = some t)

theorem states_ok : ∀ t < 108, t ≠ 29 → t ≠ 44 → stateOk t = true := by decide +kernel

theorem fldTexts_fst (fmt : ℚ → Text) (fs : List Fld) (vss : List (List SV)) (h : GoodFlds fs vss) : (fldTexts fmt fs vss).map Prod.fst = fs := by
  induction h with
  | nil => rfl
  | cons a b ih => rw [fldTexts, List.map_cons, ih]

end Verif.FArc
