import Verif.ArcAssetAux
import Verif.ArcAssetSpec
import Verif.ArcLemmas

/-!
# Assets are saved and loaded (C144)
-/

namespace Verif.FArc

open Verif.FEff (Text text)
open Verif.FConv (Ov DateTime Formats shown)
open Verif.FEnt (Asset Contributor)

/-- **C144, partial.** A new asset that reads what is written for an asset becomes that asset: dates, texts, contributors with something in them, the unit, the up-axis and the two flags. The time of
modification becomes the time of writing, in the asset as well. Missing: texts with `%`, other up-axes and small units (`asset_violated`); sources are read back as addresses. -/
theorem asset_roundtrip_partial (ov : Ov) {fmt rnd} (hf : Formats fmt rnd) (now now' : DateTime) (a : QAsset) (hn : GoodDate now) (h : GoodAsset ov rnd a) :
    ∃ k, writeAsset ov fmt now a = some (k, { a with modified := now }) ∧
      loadAsset ov (FEnt.newAsset now') k = some { a with
        modified := now
        contributors := (a.contributors.filter fun c => !c.isEmpty).map fun c => { c with source := address ov c.source }
        unitName := if a.hasUnits then a.unitName else text "meter"
        unitFactor := if a.hasUnits then shown rnd a.unitFactor else 1
        upAxis := if a.hasUpAxis then a.upAxis else (0, 1, 0) } := by
  obtain ⟨ns, h1, h2⟩ := writeContributors_load ov a.contributors h.contributors
  refine ⟨_, by unfold writeAsset; simp only [h1, Option.map_some]; rfl, ?_⟩
  unfold loadAsset
  set cs := (a.contributors.filter fun c => !c.isEmpty).map fun c => { c with source := address ov c.source } with hcs
  let x0 : QAsset := FEnt.newAsset now'
  let x1 : QAsset := { x0 with contributors := cs }
  let x2 : QAsset := { x1 with created := a.created }
  let x3 : QAsset := { x2 with keywords := a.keywords }
  let x4 : QAsset := { x3 with modified := now }
  let x5 : QAsset := { x4 with revision := a.revision }
  let x6 : QAsset := { x5 with subject := a.subject }
  let x7 : QAsset := { x6 with title := a.title }
  let x8 : QAsset := { x7 with unitName := if a.hasUnits then a.unitName else text "meter", unitFactor := if a.hasUnits then shown rnd a.unitFactor else 1, hasUnits := a.hasUnits }
  refine foldlM_app (b := x8) (foldlM_app (b := x7) (foldlM_app (b := x6) (foldlM_app (b := x5) (foldlM_app (b := x4) (foldlM_app (b := x3) (foldlM_app (b := x2) (foldlM_app (b := x1)
    ?_ (foldlM_one ?_)) (fold_textUnless _ _ _ _ _ ?_ ?_)) (foldlM_one ?_)) (fold_textUnless _ _ _ _ _ ?_ ?_)) (fold_textUnless _ _ _ _ _ ?_ ?_)) (fold_textUnless _ _ _ _ _ ?_ ?_)) ?_) ?_
  · exact (h2 x0).trans rfl
  · unfold loadAssetChild
    rw [content_textChild (date_plain _), Option.bind_some]
    simp only [name_textChild, text_inj, reduceCtorEq, if_false, if_true, date_load _ _ h.created, String.reduceEq]
    rfl
  · intro ht; simp only [x3, ht]; rfl
  · unfold loadAssetChild
    rw [content_textChild h.keywords, Option.bind_some]
    simp [text_inj, x3]
  · unfold loadAssetChild
    rw [content_textChild (date_plain _), Option.bind_some]
    simp only [name_textChild, text_inj, if_false, if_true, date_load _ _ hn, String.reduceEq]
    rfl
  · intro ht; simp only [x5, ht]; rfl
  · unfold loadAssetChild
    rw [content_textChild h.revision, Option.bind_some]
    simp [text_inj, x5]
  · intro ht; simp only [x6, ht]; rfl
  · unfold loadAssetChild
    rw [content_textChild h.subject, Option.bind_some]
    simp [text_inj, x6]
  · intro ht; simp only [x7, ht]; rfl
  · unfold loadAssetChild
    rw [content_textChild h.title, Option.bind_some]
    simp [text_inj, x7]
  · unfold writeUnit
    cases hu : a.hasUnits with
    | false => simp [x8, hu, x7, x6, x5, x4, x3, x2, x1, x0, FEnt.newAsset]
    | true =>
      simp only [if_true]
      refine foldlM_one ?_
      have hc : content (.elem (text "unit") [(text "meter", numText fmt a.unitFactor), (text "name", a.unitName)] [] []) = some [] := by simp [content]
      unfold loadAssetChild
      rw [hc, Option.bind_some]
      simp only [Node.name, text_inj, String.reduceEq, if_false, if_true]
      unfold loadUnit
      have hp : prop (some (.elem (text "unit") [(text "meter", numText fmt a.unitFactor), (text "name", a.unitName)] [] [])) (text "name") = some a.unitName := by
        simp [prop, raw_cons, text_inj, decode_plain h.unitName.1]
      have hm : prop (some (.elem (text "unit") [(text "meter", numText fmt a.unitFactor), (text "name", a.unitName)] [] [])) (text "meter") = some (numText fmt a.unitFactor) := by
        simp [prop, raw_cons, decode_plain (numText_plain hf _)]
      rw [hp, Option.bind_some, hm, Option.bind_some, readNum_numText ov hf, Option.map_some]
      have hpos := h.unitFactor
      have he : (Geo.equivalent (shown rnd a.unitFactor) 0 || decide (shown rnd a.unitFactor < 0)) = false := by
        have : ¬ shown rnd a.unitFactor < Geo.tolerance := by unfold Geo.tolerance; simpa using hpos
        have h2 : ¬ shown rnd a.unitFactor < 0 := by
          have : (0 : ℚ) < 1 / 10000 := by norm_num
          exact not_lt.2 (le_of_lt (lt_of_lt_of_le this hpos))
        simp [Geo.equivalent, this, h2]
      have hne := h.unitName.2
      simp only [FEnt.Asset.setFactor, hne, if_false, he]
      simp [x8, hu]
  · unfold writeAxis
    cases hu : a.hasUpAxis with
    | false => cases a; simp_all [x8, x7, x6, x5, x4, x3, x2, x1, x0, FEnt.newAsset]
    | true =>
      simp only [if_true]
      refine foldlM_one ?_
      obtain ⟨h3, h4⟩ := axis_load a x8 h.axis
      unfold loadAssetChild
      rw [content_textChild h3, Option.bind_some]
      simp only [name_textChild, text_inj, String.reduceEq, if_false, if_true, h4]
      cases a; simp_all [x8, x7, x6, x5, x4, x3, x2, x1, x0, FEnt.newAsset, FEnt.Asset.setUpAxis]

/-- An asset with two contributors, one without anything. -/
def sampleAsset : QAsset :=
  { created := ⟨2006, 2, 28, 23, 59, 5⟩, modified := ⟨2007, 1, 1, 0, 0, 0⟩, contributors := [{}, { author := text "me", source := text "/home/a b.max" }], keywords := text "a, b"
    upAxis := (0, 0, 1), unitName := text "inch", unitFactor := 254 / 10000, hasUpAxis := true, hasUnits := true }

example : GoodAsset .wrap (fun _ => 3 / 2) sampleAsset ∧ address .wrap (text "/home/a b.max") = text "file:///home/a b.max" := by
  refine ⟨⟨?_, ?_, ?_, plain_nil, plain_nil, plain_nil, ⟨?_, by decide⟩, ?_, by decide⟩, by decide +kernel⟩
  · unfold GoodDate; decide
  · intro c hc
    simp only [sampleAsset, List.mem_cons, List.not_mem_nil, or_false] at hc
    rcases hc with rfl | rfl
    · exact ⟨plain_nil, plain_nil, plain_nil, plain_nil, .inl rfl⟩
    · refine ⟨by unfold Plain FXml.IsChar; decide, plain_nil, plain_nil, plain_nil, .inr ⟨{ scheme := .file, delim := [58, 47, 47], path := text "/home/a b.max" }, by decide +kernel, ?_⟩⟩
      unfold FXml.IsChar; decide
  · unfold Plain FXml.IsChar; decide
  · unfold Plain FXml.IsChar; decide
  · unfold shown sampleAsset; norm_num

/-- What the second component of a written asset reads back as. -/
def reloaded (fmt : ℚ → Text) (now : DateTime) (a : QAsset) : Option QAsset := (writeAsset .wrap fmt now a).bind fun k => loadAsset .wrap (FEnt.newAsset now) k.1

/-- A date-time. -/
def sampleDate : DateTime := ⟨2007, 5, 1, 12, 0, 0⟩

/-- **C144, violated.** Lost on the way: a `%` in a text; an up-axis that is not one of the three axes, here `-Y`; a unit below a ten-thousandth of a meter, such as the micron; a source that is a path. -/
theorem asset_violated :
    reloaded (fun _ => []) sampleDate { FEnt.newAsset sampleDate with title := text "100%" } = some { FEnt.newAsset sampleDate with title := text "100" } ∧
    reloaded (fun _ => []) sampleDate { FEnt.newAsset sampleDate with upAxis := (0, -1, 0), hasUpAxis := true } = some { FEnt.newAsset sampleDate with hasUpAxis := true } ∧
    reloaded (fun _ => text "1e-06") sampleDate { FEnt.newAsset sampleDate with unitName := text "micron", unitFactor := 1 / 1000000, hasUnits := true } =
      some { FEnt.newAsset sampleDate with unitName := text "micron", hasUnits := true } ∧
    reloaded (fun _ => []) sampleDate { FEnt.newAsset sampleDate with contributors := [{ source := text "/a.max" }] } =
      some { FEnt.newAsset sampleDate with contributors := [{ source := text "file:///a.max" }] } := by
  refine ⟨?_, ?_, ?_, ?_⟩ <;> decide +kernel

end Verif.FArc
