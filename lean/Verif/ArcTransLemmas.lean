import Verif.ArcTransSpec
import Verif.ArcSidProps
import Verif.ArcAssetAux
import Verif.LibSub
import Verif.TexLemmas

/-! # Lemmas about the saving and loading of transforms -/

namespace Verif.FArc

open Verif.FStr (Ch)
open Verif.FEff (Text text)
open Verif.FConv (Ov Formats shown Lit)

theorem joined_app (a b : List Text) (ha : a ≠ []) (hb : b ≠ []) : FConv.joined a ++ [32] ++ FConv.joined b = FConv.joined (a ++ b) := by
  induction a with
  | nil => exact absurd rfl ha
  | cons x a ih =>
    cases a with
    | nil =>
      obtain ⟨y, b, rfl⟩ := List.exists_cons_of_ne_nil hb
      simp [FConv.joined]
    | cons y a =>
      have := ih (by simp)
      simp only [FConv.joined, List.cons_append, List.append_assoc, List.nil_append] at this ⊢
      rw [this]

theorem numsText_app {fmt rnd} (hf : Formats fmt rnd) (a b : List ℚ) (ha : a ≠ []) (hb : b ≠ []) : numsText fmt a ++ [32] ++ numsText fmt b = numsText fmt (a ++ b) := by
  obtain ⟨L, -, -, -, h4⟩ := lits hf
  rw [h4, h4, h4, joined_app _ _ (by simpa using ha) (by simpa using hb), ← List.map_append, ← List.map_append]

theorem numText_eq {fmt rnd} (hf : Formats fmt rnd) (q : ℚ) : numText fmt q = numsText fmt [q] := by
  obtain ⟨L, -, -, h3, h4⟩ := lits hf
  rw [h3, h4]; rfl

theorem digit_contentOk {c : Ch} (h : FConv.IsDigit c) : FXml.contentOk c = true := by
  obtain ⟨h1, h2⟩ := h
  have key : ∀ i : Fin 10, FXml.contentOk (48 + (i.val : Int)) = true := by decide
  have h3 : (48 : Int) ≤ c := h1
  have h4 : c ≤ (57 : Int) := h2
  obtain ⟨k, hk⟩ := Int.eq_ofNat_of_zero_le (show (0 : Int) ≤ c - 48 from Int.sub_nonneg.2 h3)
  have hk9 : k < 10 := by unfold Verif.FStr.Ch at *; omega
  have := key ⟨k, hk9⟩
  rwa [show (48 + (k : Int)) = c by unfold Verif.FStr.Ch at *; omega] at this

theorem lit_contentOk (L : Lit) (h : L.WF) : ∀ c ∈ L.text, FXml.contentOk c = true := by
  obtain ⟨h1, h2, _, h4⟩ := h
  intro c hc
  unfold Lit.text at hc
  simp only [List.mem_append] at hc
  rcases hc with ((hc | hc) | hc) | hc
  · split at hc
    · simp only [List.mem_cons, List.not_mem_nil, or_false] at hc
      rw [hc]; decide
    · simp at hc
  · exact digit_contentOk (h1 c hc)
  · cases hf : L.frac with
    | none => rw [hf] at hc; simp [FConv.fracText] at hc
    | some F =>
      rw [hf] at hc
      rcases List.mem_cons.1 hc with rfl | hc
      · decide
      · exact digit_contentOk (h2 F hf c hc)
  · cases hx : L.ex with
    | none => rw [hx] at hc; simp at hc
    | some x =>
      rw [hx] at hc
      obtain ⟨e1, _, e3, _⟩ := h4 x hx
      rcases List.mem_cons.1 hc with rfl | hc
      · rcases e1 with e | e <;> rw [e] <;> decide
      · rcases List.mem_append.1 hc with hc | hc
        · split at hc
          · simp only [List.mem_cons, List.not_mem_nil, or_false] at hc
            rw [hc]; decide
          · simp at hc
        · exact digit_contentOk (e3 c hc)

theorem encode_nums {fmt rnd} (hf : Formats fmt rnd) (qs : List ℚ) : encode (numsText fmt qs) = numsText fmt qs := by
  refine encode_ok (fun c hc => (numsText_plain hf qs c hc).1) ?_
  obtain ⟨L, h1, -, -, h4⟩ := lits hf
  rw [h4]
  intro c hc
  rcases FConv.mem_joined hc with rfl | ⟨a, ha, hc⟩
  · decide
  · simp only [List.map_map, List.mem_map] at ha
    obtain ⟨q, _, rfl⟩ := ha
    exact lit_contentOk _ (h1 q) c hc

/-- The numbers of a transform in the order of the file. -/
def transNums : Trans → List ℚ
  | .lookAt p t u => [p.1, p.2.1, p.2.2, t.1, t.2.1, t.2.2, u.1, u.2.1, u.2.2]
  | .matrix m => FConv.matEntries m
  | .rotation x a => [x.1, x.2.1, x.2.2, a]
  | .scale s => [s.1, s.2.1, s.2.2]
  | .skew a r x => [a, r.1, r.2.1, r.2.2, x.1, x.2.1, x.2.2]
  | .translation t => [t.1, t.2.1, t.2.2]

/-- The name of the element of a transform. -/
def transName : Trans → Text
  | .lookAt .. => text "lookat"
  | .matrix _ => text "matrix"
  | .rotation .. => text "rotate"
  | .scale _ => text "scale"
  | .skew .. => text "skew"
  | .translation _ => text "translate"

theorem transNode_eq {fmt rnd} (hf : Formats fmt rnd) (t : Trans) : transNode fmt t = .elem (transName t) [] (numsText fmt (transNums t)) [] := by
  cases t with
  | lookAt p t u =>
    simp only [transNode, textChild, vecText, numsText_app hf _ _ (List.cons_ne_nil _ _) (List.cons_ne_nil _ _), List.cons_append, List.nil_append, encode_nums hf]
    rfl
  | matrix m => simp only [transNode, textChild, encode_nums hf]; rfl
  | rotation x a =>
    simp only [transNode, valueChild, vecText, numText_eq hf, numsText_app hf _ _ (List.cons_ne_nil _ _) (List.cons_ne_nil _ _), List.cons_append, List.nil_append]
    rfl
  | scale s => rfl
  | skew a r x =>
    simp only [transNode, valueChild, vecText, numText_eq hf, numsText_app hf _ _ (List.cons_ne_nil _ _) (List.cons_ne_nil _ _), List.cons_append, List.nil_append]
    rfl
  | translation t => rfl

theorem isOrigin_iff (v : V3) : isOrigin v = true ↔ NearOrigin v := by
  simp only [isOrigin, NearOrigin, Bool.and_eq_true, decide_eq_true_eq, abs_lt]
  constructor
  · rintro ⟨⟨a, b⟩, ⟨c, d⟩, e, f⟩
    exact ⟨⟨neg_lt.1 b, a⟩, ⟨neg_lt.1 d, c⟩, neg_lt.1 f, e⟩
  · rintro ⟨⟨a, b⟩, ⟨c, d⟩, e, f⟩
    exact ⟨⟨b, neg_lt.1 a⟩, ⟨d, neg_lt.1 c⟩, f, neg_lt.1 e⟩

theorem newTrans_kind (t : Trans) : ∃ o, newTrans (transName t) = some o ∧ transName o = transName t := by
  cases t <;> simp [transName, newTrans, text_inj]

theorem loadTransform_write (ov : Ov) (len : V3 → ℚ) {fmt rnd} (hf : Formats fmt rnd) (t : Trans) (ht : GoodTrans rnd t) (o : Trans) (ho : newTrans (transName t) = some o) (k : Node)
    (hk : k.direct = numsText fmt (transNums t)) : loadTransform ov len o k = some (shownTrans rnd len t, true) := by
  have hl := readList_numsText ov hf (transNums t) []
  cases t with
  | matrix m =>
    have : o = .matrix matOne := by simpa [transName, newTrans, text_inj] using ho.symm
    subst this
    obtain ⟨txt, h1, -, h3⟩ := FConv.matrix_roundtrip ov hf m matOne
    have : numsText fmt (transNums (.matrix m)) = txt := by
      simp only [transNums, numsText, h1, Option.getD_some]
    simp only [loadTransform, hk, this, h3 [], Option.map_some]
    rfl
  | lookAt p t u =>
    have : o = .lookAt (0, 0, 0) (0, 0, -1) (0, 1, 0) := by simpa [transName, newTrans, text_inj] using ho.symm
    subst this
    simp only [loadTransform, hk, hl, Option.map_some]
    rfl
  | rotation x a =>
    have : o = .rotation (1, 0, 0) 0 := by simpa [transName, newTrans, text_inj] using ho.symm
    subst this
    simp only [loadTransform, hk, hl, Option.map_some]
    rfl
  | scale s =>
    have : o = .scale (1, 1, 1) := by simpa [transName, newTrans, text_inj] using ho.symm
    subst this
    simp only [loadTransform, hk, hl, Option.map_some]
    rfl
  | skew a r x =>
    have : o = .skew 0 (1, 0, 0) (0, 1, 0) := by simpa [transName, newTrans, text_inj] using ho.symm
    subst this
    simp only [loadTransform, hk, hl, Option.map_some]
    obtain ⟨g1, g2⟩ := ht
    have g1' : isOrigin (shown rnd r.1, shown rnd r.2.1, shown rnd r.2.2) = false := by rw [Bool.eq_false_iff, Ne, isOrigin_iff]; exact g1
    have g2' : isOrigin (shown rnd x.1, shown rnd x.2.1, shown rnd x.2.2) = false := by rw [Bool.eq_false_iff, Ne, isOrigin_iff]; exact g2
    simp only [transNums, List.map_cons, List.map_nil, g1', g2', Bool.or_self, Bool.false_eq_true, if_false]
    rfl
  | translation t =>
    have : o = .translation (0, 0, 0) := by simpa [transName, newTrans, text_inj] using ho.symm
    subst this
    simp only [loadTransform, hk, hl, Option.map_some]
    rfl

/-! ## Sub-ids -/

theorem valid_plain {t : Text} (h : FXml.ValidId false t) : Plain t := by
  have hn : ∀ c, FXml.nameChar false c = true → FXml.IsChar c ∧ c ≠ 37 := by
    intro c h
    unfold FXml.nameChar FXml.letter at h
    simp only [Bool.or_eq_true, Bool.and_eq_true, decide_eq_true_eq, beq_iff_eq, Bool.false_and, Bool.false_eq_true, or_false] at h
    unfold FXml.IsChar
    omega
  have hs : ∀ c, FXml.startChar c = true → FXml.IsChar c ∧ c ≠ 37 := by
    intro c h
    unfold FXml.startChar FXml.letter at h
    simp only [Bool.or_eq_true, Bool.and_eq_true, decide_eq_true_eq, beq_iff_eq] at h
    unfold FXml.IsChar
    omega
  cases t with
  | nil => exact plain_nil
  | cons c t => exact plain_cons (hs c h.1) fun d hd => hn d (h.2.1 d hd)

theorem clean_good {t : Text} (h : FXml.ValidId false t) : FLib.cleanSubId t = some t := by
  rw [FLib.cleanSubId_eq _ (FTex.valid_zero h), (FXml.clean_valid false t).2.1 h]

theorem natText_digits : ∀ c : Fin 100, (natText c.val).length ≤ 2 ∧ ∀ d ∈ natText c.val, FXml.nameChar false d = true := by decide +kernel

theorem good_number {t : Text} (h : GoodSid t) (hn : t ≠ []) (c : Nat) (hc : c ≤ 99) : FXml.ValidId false (t ++ natText c) := by
  obtain ⟨h1, h2⟩ := h
  obtain ⟨x, t, rfl⟩ := List.exists_cons_of_ne_nil hn
  obtain ⟨d1, d2⟩ := natText_digits ⟨c, by omega⟩
  refine ⟨h1.1, fun d hd => ?_, ?_⟩
  · rcases List.mem_append.1 hd with hd | hd
    · exact h1.2.1 d hd
    · exact d2 d hd
  · show (t ++ natText c).length < 512
    simp only [List.length_cons, List.length_append] at h2 d1 ⊢
    omega

end Verif.FArc
