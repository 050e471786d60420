import Verif.ArcAssetSpec
import Verif.ArcLemmas

/-! # Lemmas for the properties in ArcAssetProps -/

namespace Verif.FArc

open Verif.FEff (Text text)
open Verif.FConv (Ov DateTime Formats shown)
open Verif.FEnt (Asset Contributor)

theorem encode_ok {t : Text} (h0 : ∀ c ∈ t, FXml.IsChar c) (h : ∀ c ∈ t, FXml.contentOk c = true) : encode t = t := by
  unfold encode
  rw [FXml.content_escaped t [] h0, Option.getD_some, FXml.escaped]
  clear h0
  induction t with
  | nil => rfl
  | cons c t ih =>
    rw [List.flatMap_cons, if_pos (h c (by simp)), ih fun x hx => h x (by simp [hx])]
    rfl

theorem filenameOk_bounds (c : Int) (h : FXml.filenameOk c = true) : 0 ≤ c ∧ c < 128 := by
  unfold FXml.filenameOk at h
  simp only [Bool.or_eq_true, Bool.and_eq_true, decide_eq_true_eq, List.contains_iff_mem, List.mem_cons, List.not_mem_nil, or_false] at h
  omega

theorem filenameOk_content (c : Int) (h : FXml.filenameOk c = true) : FXml.IsChar c ∧ FXml.contentOk c = true := by
  have key : ∀ i : Fin 128, FXml.filenameOk (i.val : Int) = true → FXml.contentOk (i.val : Int) = true ∧ (i.val : Int) ≠ 0 := by decide
  have hb := filenameOk_bounds c h
  obtain ⟨k, rfl⟩ := Int.eq_ofNat_of_zero_le hb.1
  have := key ⟨k, by omega⟩ h
  exact ⟨⟨by omega, by omega, this.2⟩, this.1⟩

theorem content_filename {n t u : Text} (ht : ∀ c ∈ t, FXml.IsChar c) (hu : FXml.convertFilename (t ++ [0]) = some u) : content (textChild n u) = some t := by
  obtain ⟨x, hx, hok, hr⟩ := FXml.filename_roundtrip t [] [] ht
  rw [hu] at hx
  obtain rfl := Option.some.inj hx
  have h1 : ∀ c ∈ u, FXml.IsChar c ∧ FXml.contentOk c = true := by
    intro c hc
    rcases hok c hc with h | h
    · exact filenameOk_content c h
    · subst h
      exact ⟨by unfold FXml.IsChar; omega, by decide⟩
  rw [content, textChild, fullText_leaf, encode_ok (fun c hc => (h1 c hc).1) fun c hc => (h1 c hc).2]
  exact hr

theorem fold_textUnless {α : Type} (f : α → Node → Option α) (n t : Text) (a b : α) (h0 : t = [] → b = a) (h1 : f a (textChild n t) = some b) :
    (textUnless n t).foldlM f a = some b := by
  unfold textUnless
  by_cases ht : t = []
  · rw [if_pos ht, h0 ht]; rfl
  · rw [if_neg ht, List.foldlM_cons, h1]; rfl

theorem foldlM_app {α β : Type} {f : α → β → Option α} {xs ys : List β} {a b c : α} (h1 : xs.foldlM f a = some b) (h2 : ys.foldlM f b = some c) :
    (xs ++ ys).foldlM f a = some c := by
  rw [List.foldlM_append, h1]; exact h2

theorem foldlM_one {α β : Type} {f : α → β → Option α} {x : β} {a b : α} (h : f a x = some b) : [x].foldlM f a = some b := by
  rw [List.foldlM_cons, h]; rfl

@[simp] theorem name_textChild (n t : Text) : (textChild n t).name = n := rfl

theorem textUnless_ne_zero (n t : Text) : (0 : FStr.Ch) ∉ fullTexts (textUnless n t) := by
  unfold textUnless
  split
  · simp [fullTexts]
  · simp [textChild, fullTexts, encode_ne_zero]

theorem writeSourceData_load (ov : Ov) (t : Text) (h : t = [] ∨ ∃ u, FUri.parse ov t = some u ∧ ∀ x ∈ FUri.absoluteUri u true, FXml.IsChar x) :
    ∃ ns, writeSourceData ov t = some ns ∧ (0 : FStr.Ch) ∉ fullTexts ns ∧ ∀ c : Contributor, c.source = [] → ns.foldlM loadContributorChild c = some { c with source := address ov t } := by
  unfold writeSourceData
  by_cases ht : t = []
  · refine ⟨[], by rw [if_pos ht], by simp [fullTexts], fun c hc => ?_⟩
    rw [address, if_pos ht, ← hc]; rfl
  · obtain ⟨u, h1, h2⟩ := h.resolve_left ht
    obtain ⟨x, hx, -⟩ := FXml.filename_roundtrip (FUri.absoluteUri u true) [] [] h2
    refine ⟨[textChild (text "source_data") x], ?_, by simp [textChild, fullTexts, encode_ne_zero], fun c hc => foldlM_one ?_⟩
    · rw [if_neg ht, fileUrl, h1, Option.bind_some, hx, Option.map_some]
    · unfold loadContributorChild
      rw [content_filename h2 hx, Option.map_some, address, if_neg ht, h1]
      simp [text_inj]

theorem writeContributor_load (ov : Ov) (c : Contributor) (h : GoodContributor ov c) :
    ∃ ns, writeContributor ov c = some ns ∧ (c.isEmpty = true → ns = []) ∧
      (c.isEmpty = false → ∃ k, ns = [k] ∧ k.name = text "contributor" ∧ (∃ t, content k = some t) ∧ loadContributor {} k = some { c with source := address ov c.source }) := by
  obtain ⟨ss, hs1, hs3, hs2⟩ := writeSourceData_load ov c.source h.source
  unfold writeContributor
  cases he : c.isEmpty with
  | true => exact ⟨[], by simp, fun _ => rfl, fun h => nomatch h⟩
  | false =>
    refine ⟨_, by rw [if_neg (by simp), hs1, Option.map_some], (fun h => nomatch h), fun _ => ⟨_, rfl, rfl, ?_, ?_⟩⟩
    · refine decode_total _ ?_
      simp only [fullText, List.nil_append, fullTexts_append, List.mem_append, not_or]
      exact ⟨⟨⟨⟨textUnless_ne_zero _ _, textUnless_ne_zero _ _⟩, textUnless_ne_zero _ _⟩, textUnless_ne_zero _ _⟩, hs3⟩
    · unfold loadContributor
      refine foldlM_app (foldlM_app (foldlM_app (foldlM_app
        (fold_textUnless _ _ _ _ { author := c.author } ?_ ?_) (fold_textUnless _ _ _ _ { author := c.author, tool := c.tool } ?_ ?_))
        (fold_textUnless _ _ _ _ { author := c.author, tool := c.tool, comments := c.comments } ?_ ?_))
        (fold_textUnless _ _ _ _ { author := c.author, tool := c.tool, comments := c.comments, copyright := c.copyright } ?_ ?_)) (hs2 _ rfl)
      all_goals first
        | (intro ht; rw [ht])
        | (unfold loadContributorChild
           first
             | rw [content_textChild h.author]
             | rw [content_textChild h.tool]
             | rw [content_textChild h.comments]
             | rw [content_textChild h.copyright]
           simp [text_inj])

theorem writeContributors_load (ov : Ov) (cs : List Contributor) (h : ∀ c ∈ cs, GoodContributor ov c) :
    ∃ ns, writeContributors ov cs = some ns ∧ ∀ a : QAsset, ns.foldlM (loadAssetChild ov) a =
      some { a with contributors := a.contributors ++ (cs.filter fun c => !c.isEmpty).map fun c => { c with source := address ov c.source } } := by
  induction cs with
  | nil => exact ⟨[], rfl, fun a => by simp⟩
  | cons c cs ih =>
    obtain ⟨ns, h1, h2⟩ := ih fun x hx => h x (by simp [hx])
    obtain ⟨ms, h3, h4, h5⟩ := writeContributor_load ov c (h c (by simp))
    refine ⟨ms ++ ns, by rw [writeContributors, h3, Option.bind_some, h1, Option.map_some], fun a => ?_⟩
    cases he : c.isEmpty with
    | true => rw [h4 he, List.nil_append, h2, List.filter_cons_of_neg (by simp [he])]
    | false =>
      obtain ⟨k, rfl, hk, ⟨t, ht⟩, hl⟩ := h5 he
      refine foldlM_app (foldlM_one (b := { a with contributors := a.contributors ++ [{ c with source := address ov c.source }] }) ?_) ?_
      · unfold loadAssetChild
        rw [ht, Option.bind_some, if_pos hk, hl, Option.map_some]
      · rw [h2, List.filter_cons_of_pos (by simp [he])]
        simp

theorem date_plain (d : DateTime) : Plain (FConv.dateText d) := by
  intro c hc
  have hd : ∀ w n, Plain (FConv.padded w n) := fun w n c hc => digit_plain (FConv.padded_digits w n c hc)
  have h1 : Plain [45] := by intro c hc; simp at hc; subst hc; unfold FXml.IsChar; decide
  have h2 : Plain [84] := by intro c hc; simp at hc; subst hc; unfold FXml.IsChar; decide
  have h3 : Plain [58] := by intro c hc; simp at hc; subst hc; unfold FXml.IsChar; decide
  have h4 : Plain [90] := by intro c hc; simp at hc; subst hc; unfold FXml.IsChar; decide
  exact plain_append (plain_append (plain_append (plain_append (plain_append (plain_append (plain_append (plain_append (plain_append (plain_append (plain_append (hd 4 _) h1) (hd 2 _)) h1) (hd 2 _)) h2)
    (hd 2 _)) h3) (hd 2 _)) h3) (hd 2 _)) h4 c (List.mem_of_mem_take hc)

theorem date_load (d old : DateTime) (h : GoodDate d) : FConv.toDateTime (FConv.dateText d ++ [0]) old = some d :=
  (FConv.datetime_roundtrip d old h.1 h.2.1 h.2.2.1 h.2.2.2.1 h.2.2.2.2.1 h.2.2.2.2.2).2 []

theorem axis_load (a b : QAsset) (h : a.upAxis = (1, 0, 0) ∨ a.upAxis = (0, 1, 0) ∨ a.upAxis = (0, 0, 1)) :
    Plain (axisText a.upAxis) ∧ loadAxis b (axisText a.upAxis) = b.setUpAxis a.upAxis := by
  have p : Plain (text "X_UP") ∧ Plain (text "Y_UP") ∧ Plain (text "Z_UP") := by
    refine ⟨?_, ?_, ?_⟩ <;> (unfold Plain FXml.IsChar; decide)
  rcases h with h | h | h
  · have : axisText (1, 0, 0) = text "X_UP" := by decide +kernel
    rw [h, this]; exact ⟨p.1, by simp [loadAxis]⟩
  · have : axisText (0, 1, 0) = text "Y_UP" := by decide +kernel
    rw [h, this]; exact ⟨p.2.1, by simp [loadAxis, text_inj]⟩
  · have : axisText (0, 0, 1) = text "Z_UP" := by decide +kernel
    rw [h, this]; exact ⟨p.2.2, by simp [loadAxis, text_inj]⟩

end Verif.FArc
