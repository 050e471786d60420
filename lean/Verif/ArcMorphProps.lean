import Verif.ArcMorphLemmas
import Verif.ArcSkinProps

/-!
# Morphers are read back from saved files (C154)
-/

namespace Verif.FArc

open Verif.FStr (Ch)
open Verif.FEff (Text text)
open Verif.FConv (Ov Formats shown)
open Verif.FCtrl (Geom)
open Verif.Enum (MorphMethod)

/-- **C154, partial.** A morpher is read back and linked: its method, its base if that is a geometry, and its targets in order with their weights; with a base, only the targets that have as many vertices.
Missing: a base that is a controller is lost, an unknown method becomes NORMALIZED, and ids that are not words, see `morph_violated`. -/
theorem morph_roundtrip_partial (ov : Ov) {fmt rnd} (hf : Formats fmt rnd) (d : MorphDoc) (hd : GoodIds d) (id : Text) (m : Morph) (h : GoodMorph d id m) :
    ∃ src m', loadMorph ov d (writeMorph fmt id m) = some (m', src) ∧
      (linkMorph d src m').2.method = methodAfter m.method ∧
      (linkMorph d src m').2.base = baseAfter m.base ∧
      (baseAfter m.base = none → (linkMorph d src m').2.targets = shownTargets rnd m.targets) ∧
      ∀ i g, m.base = some (false, i) → d.geoms.lookup i = some g →
        ∃ p : Option Text × ℚ → Bool, (∀ t, p t = true ↔ Morphs d g t) ∧ (linkMorph d src m').2.targets = (shownTargets rnd m.targets).filter p := by
  refine ⟨_, _, morph_loaded ov hf hd h, ?_⟩
  have hbase := h.base
  have hempty : ∀ {α : Type} (l : List (Text × α)), (∀ i ∈ l.map (·.1), i ≠ [] ∧ i.head? ≠ some 35) → l.lookup [] = none ∧ ∀ t : Text, l.lookup (35 :: t) = none :=
    fun l hl => ⟨lookup_none fun hm => (hl _ hm).1 rfl, fun t => lookup_none fun hm => (hl _ hm).2 rfl⟩
  obtain ⟨g1, -⟩ := hempty d.geoms hd.geoms
  obtain ⟨c1, c2⟩ := hempty d.ctrls hd.ctrls
  rcases hm : m.base with _ | ⟨b, i⟩
  · simp [linkMorph, stripHash, g1, c1, baseAfter]
  · obtain ⟨-, hb⟩ := hbase _ hm
    cases b with
    | true =>
      simp only [if_true] at hb
      have gn : d.geoms.lookup i = none := lookup_none (hd.unique i hb)
      simp [linkMorph, stripHash, gn, c2, baseAfter]
    | false =>
      simp only [Bool.false_eq_true, if_false] at hb
      obtain ⟨g, hg⟩ := Option.isSome_iff_exists.1 ((lookup_isSome i d.geoms).2 hb)
      simp only [linkMorph, stripHash, hg, setBase, baseAfter, if_true, reduceCtorEq, false_implies, true_and, Option.some.injEq, Prod.mk.injEq]
      rintro i' g' rfl hg'
      rw [hg, Option.some.injEq] at hg'
      subst hg'
      exact ⟨fits d g, fits_iff d g, rfl⟩

/-- **C154.** A morpher with a known method whose base is a geometry and whose targets have as many vertices is read back as it was, with the weights as they are shown. -/
theorem morph_kept (ov : Ov) {fmt rnd} (hf : Formats fmt rnd) (d : MorphDoc) (hd : GoodIds d) (id : Text) (m : Morph) (h : GoodMorph d id m) (hm : m.method ≠ .unknown) (i : Text) (g : Geom)
    (hb : m.base = some (false, i)) (hg : d.geoms.lookup i = some g) (ht : ∀ t ∈ m.targets, Morphs d g t) :
    ∃ src m', loadMorph ov d (writeMorph fmt id m) = some (m', src) ∧ linkMorph d src m' = (true, { m with targets := shownTargets rnd m.targets }) := by
  refine ⟨_, _, morph_loaded ov hf hd h, ?_⟩
  simp only [hb, linkMorph, stripHash, if_true, hg, setBase]
  have hf' : (shownTargets rnd m.targets).filter (fits d g) = shownTargets rnd m.targets := by
    refine List.filter_eq_self.2 fun t ht' => ?_
    obtain ⟨t0, h0, rfl⟩ := List.mem_map.1 ht'
    obtain ⟨i, x, e1, e2, e3⟩ := ht t0 h0
    exact (fits_iff d g _).2 ⟨i, x, e1, e2, e3⟩
  have hme : methodAfter m.method = m.method := by cases hmm : m.method <;> simp_all [methodAfter]
  rw [hf', hme]

/-- **C154.** Whatever file a morpher is loaded from, once it is linked with a base every target of it has a geometry with as many vertices as the geometry of the base. -/
theorem morph_loaded_valid (ov : Ov) (d : MorphDoc) (n : Node) (m : Morph) (src : Text) (h : loadMorph ov d n = some (m, src)) (b : Bool × Text)
    (hb : (linkMorph d src m).2.base = some b) :
    ∃ g, (if b.1 then d.ctrls.lookup b.2 = some (some g) else d.geoms.lookup b.2 = some g) ∧ ∀ t ∈ (linkMorph d src m).2.targets, Morphs d g t := by
  have h0 : m.base = none := by
    unfold loadMorph at h
    obtain ⟨mt, -, h⟩ := Option.bind_eq_some_iff.1 h
    obtain ⟨s, -, h⟩ := Option.bind_eq_some_iff.1 h
    obtain ⟨⟨x, y⟩, -, h⟩ := Option.bind_eq_some_iff.1 h
    have miss : missingSources n ({ method := methodOf mt }, s) = some (m, src) → m.base = none := by
      unfold missingSources
      intro h
      split at h
      · simp only [Option.some.injEq, Prod.mk.injEq] at h
        rw [← h.1]
      · cases h
    rcases x with _ | x <;> rcases y with _ | y
    · exact miss h
    · exact miss h
    · exact miss h
    · simp only [loadTargets] at h
      obtain ⟨_, -, h⟩ := Option.bind_eq_some_iff.1 h
      obtain ⟨_, -, h⟩ := Option.bind_eq_some_iff.1 h
      obtain ⟨l, -, h⟩ := Option.map_eq_some_iff.1 h
      simp only [Prod.mk.injEq] at h
      rw [← h.1]
  have key : ∀ (x : Bool × Text) (g : Option Geom), (setBase d m x g).base = some b → ∃ g', g = some g' ∧ x = b ∧ ∀ t ∈ (setBase d m x g).targets, Morphs d g' t := by
    intro x g hx
    cases g with
    | none => simp [setBase] at hx
    | some g =>
      simp only [setBase, Option.some.injEq] at hx
      refine ⟨g, rfl, hx, fun t ht => ?_⟩
      exact (fits_iff d g t).1 (List.mem_filter.1 ht).2
  unfold linkMorph at hb ⊢
  simp only [h0] at hb ⊢
  cases hg : d.geoms.lookup (stripHash src) with
  | some g =>
    simp only [hg] at hb ⊢
    obtain ⟨g', e1, rfl, e3⟩ := key _ _ hb
    rw [Option.some.injEq] at e1
    subst e1
    exact ⟨g, by simpa using hg, e3⟩
  | none =>
    simp only [hg] at hb ⊢
    cases hc : d.ctrls.lookup src with
    | none => simp [hc, h0] at hb
    | some g =>
      simp only [hc] at hb ⊢
      obtain ⟨g', rfl, rfl, e3⟩ := key _ _ hb
      exact ⟨g', by simpa using hc, e3⟩

/-- A document with three meshes and a skin on one of them. -/
def morphSampleDoc : MorphDoc :=
  { geoms := [(text "head", .mesh (some 8)), (text "smile", .mesh (some 8)), (text "hand", .mesh (some 5))], ctrls := [(text "skin", some (.mesh (some 8)))] }

/-- The text of the numbers 0, 1/2 and 1. -/
def fmtMorph : ℚ → Text := fmtParts

/-- What is read back and linked. -/
def reloadedMorph (m : Morph) : Option (Bool × Morph) := (loadMorph .wrap morphSampleDoc (writeMorph fmtMorph (text "m") m)).map fun r => linkMorph morphSampleDoc r.2 r.1

/-- A morpher that is read back as it was, and one that keeps only the target that fits. -/
example :
    reloadedMorph { method := .relative, base := some (false, text "head"), targets := [(some (text "smile"), 1 / 2), (some (text "head"), 1)] } =
      some (true, { method := .relative, base := some (false, text "head"), targets := [(some (text "smile"), 1 / 2), (some (text "head"), 1)] }) ∧
    reloadedMorph { base := some (false, text "head"), targets := [(some (text "hand"), 1 / 2), (some (text "smile"), 1)] } =
      some (true, { base := some (false, text "head"), targets := [(some (text "smile"), 1)] }) := by
  refine ⟨?_, ?_⟩ <;> decide +kernel

/-- The conditions are met by them. -/
theorem sampleMorph_good : GoodIds morphSampleDoc ∧ GoodMorph morphSampleDoc (text "m") { method := .relative, base := some (false, text "head"), targets := [(some (text "smile"), 1 / 2), (some (text "head"), 1)] } ∧
    ∀ t ∈ [((some (text "smile") : Option Text), (1 / 2 : ℚ)), (some (text "head"), 1)], Morphs morphSampleDoc (.mesh (some 8)) t := by
  refine ⟨⟨by decide, by decide, by decide, by decide⟩, ⟨hplain _ (by decide), ?_, ?_, by decide⟩, ?_⟩
  · rintro b hb
    rw [Option.some.injEq] at hb
    subst hb
    exact ⟨hplain _ (by decide), by decide⟩
  · intro t ht i hi
    simp only [List.mem_cons, List.not_mem_nil, or_false] at ht
    rcases ht with rfl | rfl <;> (simp only [Option.some.injEq] at hi; subst hi; unfold Word FConv.IsSpace; decide)
  · intro t ht
    rw [← fits_iff]
    simp only [List.mem_cons, List.not_mem_nil, or_false] at ht
    rcases ht with rfl | rfl <;> decide

/-- **C154, violated.** A morpher on a skin loses its base, although the skin is in the document and has a geometry: it is searched for with the `#` in front of its id. An unknown method becomes NORMALIZED.
A target without geometry is lost. -/
theorem morph_violated :
    reloadedMorph { base := some (true, text "skin"), targets := [(some (text "smile"), 1)] } = some (false, { base := none, targets := [(some (text "smile"), 1)] }) ∧
    (reloadedMorph { method := .unknown, base := some (false, text "head") }).map (·.2.method) = some .normalized ∧
    (reloadedMorph { base := some (false, text "head"), targets := [(none, 1), (some (text "smile"), 1 / 2)] }).map (·.2.targets) = some [(some (text "smile"), 1 / 2)] := by
  refine ⟨?_, ?_, ?_⟩ <;> decide +kernel

/-- **C154, violated.** In every document with ids as FCollada makes them, and for every morpher on a controller, the base is lost. -/
theorem morph_controller_base_violated (ov : Ov) {fmt rnd} (hf : Formats fmt rnd) (d : MorphDoc) (hd : GoodIds d) (id : Text) (m : Morph) (h : GoodMorph d id m) (i : Text) (hb : m.base = some (true, i)) :
    ∃ src m', loadMorph ov d (writeMorph fmt id m) = some (m', src) ∧ (linkMorph d src m').2.base = none := by
  obtain ⟨src, m', e1, -, e2, -⟩ := morph_roundtrip_partial ov hf d hd id m h
  exact ⟨src, m', e1, by rw [e2, hb]; rfl⟩

/-- A morph element with the given children. -/
def morphFile (ks : List Node) : Node := .elem (text "morph") [(text "source", text "#head")] [] ks

/-- **C154, violated.** Loading is undefined for a file without `<targets>`, and for one with more targets than weights. -/
theorem morph_file_violated :
    loadMorph .wrap morphSampleDoc (morphFile []) = none ∧
    loadMorph .wrap morphSampleDoc (morphFile [sourceNames (text "t") [text "smile", text "head"] (text "MORPH_TARGET") true, sourceFloats fmtMorph (text "w") [1] 1 none,
      .elem (text "targets") [] [] [inputElem (text "t") (text "TARGET") [], inputElem (text "w") (text "WEIGHT") []]]) = none := by
  refine ⟨?_, ?_⟩ <;> decide +kernel

end Verif.FArc
