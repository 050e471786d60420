import Verif.ArcTexLinkLemmas

/-!
# C170: textures show their images again after saving and loading
-/

namespace Verif.FArc

open Verif.FEff (Text text)
open Verif.FConv (Ov Formats DateTime)

/-- **C170, partial.** A texture of a common profile shows an image through a sampler and a surface, which are parameters of the profile or of the effect, all of different references. When the effect has been saved,
loaded and linked, the texture at the same place shows the same image. Missing: surfaces whose images are not all written (C162), parameters of the same reference (`sampler_hidden_violated`), a sampler of the effect with
a surface of the profile (`sampler_scope_violated`). -/
theorem texture_image_partial (ov : Ov) {fmt rnd} (hf : Formats fmt rnd) (now now' : DateTime) (hn : GoodDate now) (stack : List FUri.Uri) (urls : Urls) (around : List Node) (ha : ∀ a ∈ around, PlainSids a)
    (e : Effect) (ts : List FExtra.Tech) (es : List FExtra.EType) (hx : e.ent.extra = ⟨[], ts⟩ :: es) (h : GoodEnt ov rnd e.ent) (ht : e.ent.target = []) (hp : ∀ p ∈ e.params, GoodParm p)
    (hq : ∀ p ∈ e.profiles, GoodProfile ov urls p) (doc : List Text) (j : Nat) (s : StdFx) (hj : e.profiles[j]? = some (.common s)) (hgen : ∀ p ∈ s.params, p.role = .generator)
    (hnd : ((s.params ++ e.params).map Parm.ref).Nodup) (c : Chan) (hc : Saved s c) (i : Nat) (t : STex) (hi : (s.tex c)[i]? = some t) (img : Text) (hs : Shows s.params e.params t img doc) :
    ∃ k e', writeEffect ov fmt now urls around e = some (k, e') ∧ ((∀ u ∈ e'.profiles, ProfileSids u) →
      ∃ r s' t', loadEffect ov now' stack urls {} k = some r ∧ r.eff.profiles[j]? = some (.common s') ∧ (s'.tex c)[i]? = some t' ∧ texImage doc s'.params r.eff.params t' = some (some img)) := by
  obtain ⟨k, us, h1, h2, h3⟩ := effect_roundtrip_partial ov hf now now' hn stack urls around ha e ts es hx h ht hp hq
  refine ⟨k, _, h1, fun hall => ?_⟩
  obtain ⟨vs, h4, h5⟩ := h3 hall
  obtain ⟨hj1, hj2⟩ := List.getElem?_eq_some_iff.1 hj
  have hl1 := h2.length_eq
  have hl2 := h4.length_eq
  have k1 := (List.forall₂_iff_get.1 h2).2 j hj1 (by omega)
  have k2 := (List.forall₂_iff_get.1 h4).2 j (by omega) (by omega)
  rw [show e.profiles.get ⟨j, hj1⟩ = .common s from hj2] at k1
  obtain ⟨u, hu⟩ : ∃ u, u = us.get ⟨j, by omega⟩ := ⟨_, rfl⟩
  obtain ⟨v, hv⟩ : ∃ v, v = vs.get ⟨j, by omega⟩ := ⟨_, rfl⟩
  rw [← hu] at k1 k2
  rw [← hv] at k2
  cases u with
  | fx _ _ => exact k1.elim
  | common s1 =>
    obtain rfl : s1 = s := k1
    cases v with
    | fx _ _ => exact k2.elim
    | common s' =>
      have hb : StdBack ov rnd s1 s' := k2
      obtain ⟨hi1, hi2⟩ := List.getElem?_eq_some_iff.1 hi
      have hsv := hb.saved c hc
      have hl3 := hsv.length_eq
      have hg := (List.forall₂_iff_get.1 hsv).2 i hi1 (by omega)
      obtain ⟨t', ht'⟩ : ∃ t', t' = (s'.tex c).get ⟨i, by omega⟩ := ⟨_, rfl⟩
      rw [← ht', show (s1.tex c).get ⟨i, hi1⟩ = t from hi2] at hg
      refine ⟨_, s', t', h5, ?_, ?_, ?_⟩
      · show vs[j]? = _
        rw [List.getElem?_eq_some_iff]
        exact ⟨by omega, hv.symm⟩
      · rw [List.getElem?_eq_some_iff]
        exact ⟨by omega, ht'.symm⟩
      · have hps : s'.params = s1.params.map (parmAfter rnd) := by
          rw [hb.params, List.filter_eq_self.2 fun p hp => by simpa using hgen p hp]
        obtain ⟨p, q, sa, f, hmem, a1, a2, a3, a4, a5, a6, a7, a8⟩ := hs.chain
        have hgood : GoodStd ov s1 := (hq _ (List.mem_of_getElem? hj)).1
        have hne : t.sid ≠ [] := by
          rw [← a1]
          rcases hmem with ⟨m, -⟩ | ⟨m, -⟩
          · exact (hgood.params p m).named
          · exact (hp p m).named
        have hvalid : FXml.ValidId false t.sid := (hgood.tex c t (List.mem_of_getElem? hi)).sid
        have hsamp : isSamp p = true := by unfold isSamp; rw [a2]
        rw [List.map_append, List.nodup_append] at hnd
        obtain ⟨n1, n2, n3⟩ := hnd
        unfold texImage linkTex
        rw [hg.sid, if_neg hne, clean_good hvalid, Option.map_some, Option.map_some, hps]
        simp only
        rw [samplerFor_after, samplerFor_after]
        rcases hmem with ⟨m1, m2⟩ | ⟨m1, m2⟩
        · have hfind : samplerFor s1.params t.sid = some p := by rw [← a1]; exact find_ref n1 m1 isSamp hsamp
          rw [hfind, Option.map_some]
          simp only
          rw [← List.map_append, sampImage_after rnd (by rw [List.map_append, List.nodup_append]; exact ⟨n1, n2, n3⟩) m2 a2 a4 a3 a6 a7 a8, a5]
        · have hnone : samplerFor s1.params t.sid = none := by
            unfold samplerFor
            rw [List.find?_eq_none]
            intro x hx
            have := n3 x.ref (List.mem_map_of_mem hx) p.ref (List.mem_map_of_mem m1)
            rw [a1] at this
            simp [this]
          have hfind : samplerFor e.params t.sid = some p := by rw [← a1]; exact find_ref n2 m1 isSamp hsamp
          rw [hnone, hfind, Option.map_none, Option.map_some]
          simp only
          rw [sampImage_after rnd n2 m2 a2 a4 a3 a6 a7 a8, a5]

/-- A surface with two images, and a sampler for it. -/
def linkSurface : Parm := ⟨.generator, text "a-surface", [], [], .surface sampleSurf⟩

def linkSampler : Parm := ⟨.generator, text "a-sampler", [], [], .sampler { surface := text "a-surface" }⟩

/-- The texture that uses the sampler. -/
def linkTexture : STex := { sid := text "a-sampler" }

/-- The sampler may be in the profile and the surface in the effect. -/
example : Shows [linkSampler] [linkSurface] linkTexture (text "img1") [text "img2.b", text "img1"] ∧ (([linkSampler] ++ [linkSurface]).map Parm.ref).Nodup ∧ GoodParm linkSampler ∧ GoodParm linkSurface := by
  refine ⟨⟨linkSampler, linkSurface, _, _, Or.inl ⟨by simp, by simp⟩, rfl, rfl, rfl, rfl, rfl, ?_, by decide +kernel, by decide +kernel⟩, by decide +kernel, ?_, ?_⟩
  · exact ⟨by decide, by decide⟩
  · exact ⟨Or.inl rfl, ⟨by decide +kernel, by decide +kernel, by decide +kernel⟩, by decide +kernel, plain_nil, fun _ => rfl, (by intro a ha; cases ha), ⟨by decide +kernel, by decide +kernel, by decide +kernel⟩⟩
  · exact ⟨Or.inl rfl, ⟨by decide +kernel, by decide +kernel, by decide +kernel⟩, by decide +kernel, plain_nil, fun _ => rfl, (by intro a ha; cases ha), sampleSurf_good⟩

/-- An effect with them. -/
def linkEffect : Effect := { ent := { id := text "fx" }, params := [linkSurface], profiles := [.common { lighting := .lambert, params := [linkSampler], tex := fun c => if c = .diffuse then [linkTexture] else [] }] }

/-- The image that the first diffuse texture of the first profile shows after saving, loading and linking. -/
def shownAgain (doc : List Text) (e : Effect) : Option Text :=
  (writeEffect .wrap fmt02 sampleDate plainUrls [] e).bind fun k => (loadEffect .wrap sampleDate [] plainUrls {} k.1).bind fun r => match r.eff.profiles with
    | .common s :: _ => (s.tex .diffuse).head?.bind fun t => (texImage doc s.params r.eff.params t).join
    | _ => none

example : shownAgain [text "img2.b", text "img1"] linkEffect = some (text "img1") := by decide +kernel

/-- **C170.** The surface of a sampler is looked for in the nearest parameters first: those of a technique hide those of its profile, and these those of the effect. -/
theorem sampler_nearest (near far : List Parm) (s : Samp) : linkSamp (near ++ far) s = if (∃ p ∈ near, p.ref = s.surface) then linkSamp near s else linkSamp far s := by
  unfold linkSamp
  rw [List.find?_append]
  by_cases h : ∃ p ∈ near, p.ref = s.surface
  · rw [if_pos h]
    obtain ⟨p, hp, e⟩ := h
    cases hf : near.find? fun p => decide (p.ref = s.surface) with
    | none => exact absurd e (by simpa using List.find?_eq_none.1 hf p hp)
    | some x => rfl
  · rw [if_neg h, List.find?_eq_none.2 (by intro p hp; simpa using fun e => h ⟨p, hp, e⟩), Option.none_or]

/-- **C170.** A texture for which there is no sampler takes the image of the document with its name, with or without a `#` before it. -/
theorem texture_image_direct (doc : List Text) (own outer : List Parm) (t : STex) (i r : Text) (hi : i ∈ doc) (h0 : i ≠ []) (hh : i.head? ≠ some 35) (ht : t.sid = i ∨ t.sid = 35 :: i) (hr : FLib.cleanSubId t.sid = some r)
    (hs : ∀ p ∈ own ++ outer, p.ref ≠ r) : linkTex doc own outer t = some (.image i) := by
  have no : ∀ ps : List Parm, (∀ p ∈ ps, p.ref ≠ r) → samplerFor ps r = none := by
    intro ps h
    unfold samplerFor
    rw [List.find?_eq_none]
    intro p hp
    simp [h p hp]
  have hd : dropHash t.sid = i := by
    rcases ht with e | e
    · rw [e]
      cases i with
      | nil => rfl
      | cons c i =>
        exact if_neg (fun e : c = 35 => hh (by rw [e]; rfl))
    · rw [e]; rfl
  have hn : t.sid ≠ [] := by
    rcases ht with e | e <;> rw [e]
    · exact h0
    · simp
  unfold linkTex
  rw [if_neg hn, hr, Option.map_some, no own fun p hp => hs p (List.mem_append_left _ hp)]
  simp only [no outer fun p hp => hs p (List.mem_append_right _ hp), hd, if_pos hi]

example : linkTex [text "img1", text "img2"] [linkSampler] [linkSurface] { sid := text "#img2" } = some (.image (text "img2")) := by decide +kernel

/-- **C170, violated.** A nearer parameter of the same reference that is not a surface hides the surface: the sampler is left without one. (For the sampler of a texture the search goes on past parameters of other types.) -/
theorem sampler_hidden_violated : linkSamp ([⟨.generator, text "a-surface", [], [], .bool true⟩] ++ [linkSurface]) { surface := text "a-surface" } = none ∧
    linkSamp [linkSurface] { surface := text "a-surface" } = some linkSurface ∧ samplerFor ([⟨.generator, text "a-sampler", [], [], .bool true⟩] ++ [linkSampler]) (text "a-sampler") = some linkSampler := by
  refine ⟨?_, ?_, ?_⟩ <;> decide +kernel

/-- **C170, violated.** A sampler of the effect with a surface of the profile, or of a material with a surface of the effect, is left without it: whatever the parameters, if none of them has the reference. -/
theorem sampler_scope_violated (ps : List Parm) (s : Samp) (h : ∀ p ∈ ps, p.ref ≠ s.surface) : linkSamp ps s = none := by
  unfold linkSamp
  rw [List.find?_eq_none.2 (by simpa using h)]
  rfl

/-- The sampler is in the effect and the surface in the profile. -/
def crossEffect : Effect := { ent := { id := text "fx" }, params := [linkSampler], profiles := [.common { lighting := .lambert, params := [linkSurface], tex := fun c => if c = .diffuse then [linkTexture] else [] }] }

example : shownAgain [text "img2.b", text "img1"] crossEffect = none := by decide +kernel

/-- **C170, violated.** A sampler without a surface is linked with a surface that has no reference. -/
theorem sampler_unset_violated : linkSamp [⟨.generator, [], [], [], .surface {}⟩] {} = some ⟨.generator, [], [], [], .surface {}⟩ := by decide +kernel

end Verif.FArc
