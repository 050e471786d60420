import Verif.ArcEffLemmas
import Verif.ArcFxProps
import Verif.ArcStdProps
import Verif.ArcImgProps

/-!
# C169: effects survive saving and loading
-/

namespace Verif.FArc

open Verif.FEff (Text text)
open Verif.FConv (Ov Formats DateTime)

/-- **C169, partial.** An effect with profiles of known types is always written. Saving changes the names and sub-ids of its FX profiles, the date of its asset and its extra as for every entity. If then every code has a
sub-id, the element is loaded as an effect with all the parameters and all the profiles, in their order and with their types, and no image is added to the document. Missing: the warning that an asset gives rise to, a
profile of an unknown type (`effect_unknown_violated`), what parameters and profiles lose (C163, C166, C167). -/
theorem effect_roundtrip_partial (ov : Ov) {fmt rnd} (hf : Formats fmt rnd) (now now' : DateTime) (hn : GoodDate now) (stack : List FUri.Uri) (urls : Urls) (around : List Node) (ha : ∀ a ∈ around, PlainSids a)
    (e : Effect) (ts : List FExtra.Tech) (es : List FExtra.EType) (hx : e.ent.extra = ⟨[], ts⟩ :: es) (h : GoodEnt ov rnd e.ent) (ht : e.ent.target = []) (hp : ∀ p ∈ e.params, GoodParm p)
    (hq : ∀ p ∈ e.profiles, GoodProfile ov urls p) :
    ∃ k us, writeEffect ov fmt now urls around e =
        some (k, ⟨{ e.ent with asset := e.ent.asset.map fun a => { a with modified := now }, extra := if e.ent.note = [] then ⟨[], ts⟩ :: es else ⟨[], withoutTech ts⟩ :: es }, e.params, us⟩) ∧
      List.Forall₂ ProfileSaved e.profiles us ∧
      ((∀ u ∈ us, ProfileSids u) → ∃ vs, List.Forall₂ (ProfileBack ov rnd urls) us vs ∧
        loadEffect ov now' stack urls {} k =
          some ⟨⟨entAfter ov rnd now e.ent (extraAfter e.ent ts es), e.params.map (parmAfter rnd), vs⟩, [], if e.ent.asset.isSome then [.unsupportedProfile] else []⟩) := by
  obtain ⟨as, ns, h1, h2, h3, h4⟩ := ent_back ov hf now now' hn (text "effect") e.ent ts es hx h ht
  obtain ⟨ks, c1, c2, c3⟩ := effect_params (rnd := rnd) ov hf now' stack urls e.params hp
  have hw := h3 [leaf (text "profile_COMMON")]
  unfold writeEnt at hw
  obtain ⟨a, b1, b2⟩ := Option.bind_eq_some_iff.1 hw
  obtain ⟨x, -, b3⟩ := Option.map_eq_some_iff.1 b2
  obtain ⟨d1, d2⟩ := asset_elem b1
  have has : a.1 = as := by
    have := (Prod.mk.inj b3).1
    have := (Node.elem.inj this).2.2.2
    have tw : ∀ A X : List Node, (∀ k ∈ A, k.name = text "asset") → (A ++ [leaf (text "profile_COMMON")] ++ X).takeWhile (fun k => decide (k.name = text "asset")) = A := by
      intro A X hA
      rw [List.append_assoc, List.takeWhile_append_of_pos (by intro k hk; simpa using hA k hk), List.cons_append, List.takeWhile_cons_of_neg (by decide +kernel), List.append_nil]
    rw [← tw a.1 x.1 fun k hk => (d1 k hk).1, this, tw as ns h1]
  have hsid : ∀ d js, (Node.elem (text "effect") (entAttrs true e.ent) d js).raw (text "sid") = none := by
    intro d js
    unfold entAttrs
    rw [if_pos rfl]
    split
    · rw [List.append_nil, raw_cons, if_neg (text_ne (by decide)), raw_nil]
    · rw [List.cons_append, raw_cons, if_neg (text_ne (by decide)), List.nil_append, raw_cons, if_neg (text_ne (by decide)), raw_nil]
  have hp0 : PlainSids (.elem (text "effect") (entAttrs true e.ent) [] (a.1 ++ ks)) := by
    refine plainSids_elem (fun s hs => by rw [hsid] at hs; cases hs) fun k hk => ?_
    rcases List.mem_append.1 hk with hk | hk
    · exact noSid_plain (d1 k hk).2
    · exact (c2 k hk).2
  obtain ⟨N, us, f1, f2, f3, f4⟩ := profiles_back (rnd := rnd) ov hf urls around ha e.profiles hq _ hp0
  refine ⟨.elem (text "effect") (entAttrs true e.ent) [] (as ++ (ks ++ N) ++ ns), us, by unfold writeEffect; rw [b1, Option.bind_some, c1, Option.bind_some, f1, Option.bind_some, h3, Option.map_some], f2, fun hs => ?_⟩
  obtain ⟨vs, g1, g2⟩ := f4 hs
  refine ⟨vs, g1, ?_⟩
  have hl := h4 (ks ++ N) [] (by
    intro k hk
    rcases List.mem_append.1 hk with hk | hk
    · rcases (c2 k hk).1 with q | q <;> rw [q] <;> exact ⟨text_ne (by decide), text_ne (by decide)⟩
    · exact ⟨(isProfile_ne (f3 k hk)).2.2.2.2, (isProfile_ne (f3 k hk)).2.2.2.1⟩) (by simp)
  rw [List.append_nil] at hl
  unfold loadEffect
  rw [hl, Option.bind_some, kids_elem, List.foldlM_append, List.foldlM_append, effect_assets ov now' stack urls _ as h1, Option.bind_eq_bind, Option.bind_some, List.foldlM_append, c3, Option.bind_eq_bind, Option.bind_some,
    profiles_kids ov now' stack urls _ N f3, g2, Option.bind_some, effect_extras ov now' stack urls _ ns h2, ← has, d2]
  rw [if_pos (show (Node.elem (text "effect") (entAttrs true e.ent) [] (a.1 ++ (ks ++ N) ++ ns)).name = text "effect" from rfl)]
  cases e.ent.asset <;> rfl

/-- An effect with a parameter, a common profile and a Cg profile. -/
def sampleEffect : Effect where
  ent := { id := text "fx", name := text "red" }
  params := [⟨.generator, text "DIFFUSE", [], [], .float3 false (2, 0, 0)⟩]
  profiles := [.common sampleStd, .fx .cg sampleFx]

theorem sampleEffect_params : ∀ p ∈ sampleEffect.params, GoodParm p := by
  intro p hp
  rw [show sampleEffect.params = [⟨.generator, text "DIFFUSE", [], [], .float3 false (2, 0, 0)⟩] from rfl, List.mem_singleton] at hp
  subst hp
  exact ⟨Or.inl rfl, ⟨by decide +kernel, by decide +kernel, by decide +kernel⟩, by decide +kernel, plain_nil, fun _ => rfl, by simp, trivial⟩

theorem newExtra_sids : ExtraSids FExtra.newExtra := by
  intro t ht x hx
  rw [show FExtra.newExtra = [⟨[], []⟩] from rfl] at ht
  rw [List.mem_singleton.1 ht] at hx
  cases hx

example : GoodEnt .wrap (fun _ => 3 / 2) sampleEffect.ent ∧ sampleEffect.ent.extra = ⟨[], []⟩ :: [] ∧ sampleEffect.ent.target = [] ∧ (∀ p ∈ sampleEffect.params, GoodParm p) ∧
    ∀ p ∈ sampleEffect.profiles, GoodProfile .wrap plainUrls p := by
  refine ⟨⟨hplain _ (by decide +kernel), ⟨by decide +kernel, by decide +kernel, by decide +kernel⟩, hplain _ (by decide), hplain _ (by decide +kernel), by simp [sampleEffect],
    ⟨⟨_, rfl, rfl⟩, by decide +kernel, ?_⟩, ?_⟩, rfl, rfl, sampleEffect_params, ?_⟩
  · intro t ht
    simp only [sampleEffect, FExtra.newExtra, List.mem_singleton] at ht
    subst ht
    exact ⟨plain_nil, by decide, by simp⟩
  · intro t ht _
    simp only [sampleEffect, FExtra.newExtra, List.mem_singleton] at ht
    subst ht
    simp [NoParams]
  · intro p hp
    rw [show sampleEffect.profiles = [.common sampleStd, .fx .cg sampleFx] from rfl] at hp
    simp only [List.mem_cons, List.not_mem_nil, or_false] at hp
    rcases hp with rfl | rfl
    · refine ⟨sampleStd_good _, newExtra_sids, fun c t ht => ?_⟩
      simp only [sampleStd] at ht
      split at ht
      · rw [List.mem_singleton.1 ht]; exact newExtra_sids
      · cases ht
    · exact ⟨by decide, sampleFx_good, newExtra_sids⟩

/-- A child of the element adds the image it is, or none. -/
theorem effect_kid_image {ov : Ov} {now : DateTime} {stack : List FUri.Uri} {urls : Urls} {parent : Text} {q r : EffLoad} {k : Node} (h : loadEffKid ov now stack urls parent q k = some r) :
    if k.name = text "image" then ∃ i, loadImg ov now stack {} k = some i ∧ r.images = q.images ++ [i] else r.images = q.images := by
  unfold loadEffKid at h
  split at h <;> rename_i hk
  · obtain ⟨i, hi, rfl⟩ := Option.map_eq_some_iff.1 h
    rw [if_pos hk]
    exact ⟨i, hi, rfl⟩
  · rw [if_neg hk]
    split at h
    · obtain ⟨i, -, rfl⟩ := Option.map_eq_some_iff.1 h
      rfl
    · split at h
      · obtain rfl := Option.some.inj h
        rfl
      · unfold loadProfile at h
        split at h
        · obtain ⟨i, -, rfl⟩ := Option.map_eq_some_iff.1 h
          rfl
        · obtain rfl := Option.some.inj h
          rfl
        · obtain ⟨i, -, rfl⟩ := Option.map_eq_some_iff.1 h
          rfl

theorem effect_kids_images {ov : Ov} {now : DateTime} {stack : List FUri.Uri} {urls : Urls} {parent : Text} : ∀ {ks : List Node} {q r : EffLoad}, ks.foldlM (loadEffKid ov now stack urls parent) q = some r →
    ∃ is, r.images = q.images ++ is ∧ List.Forall₂ (fun k i => loadImg ov now stack {} k = some i) (ks.filter fun k => decide (k.name = text "image")) is
  | [], q, r, h => by obtain rfl := Option.some.inj h; exact ⟨[], by simp, List.Forall₂.nil⟩
  | k :: ks, q, r, h => by
    rw [List.foldlM_cons] at h
    obtain ⟨s, h1, h2⟩ := Option.bind_eq_some_iff.1 h
    have a := effect_kid_image h1
    obtain ⟨is, b1, b2⟩ := effect_kids_images h2
    rw [List.filter_cons]
    split at a <;> rename_i hk
    · obtain ⟨i, a1, a2⟩ := a
      rw [if_pos (decide_eq_true hk)]
      exact ⟨i :: is, by rw [b1, a2, List.append_assoc]; rfl, List.Forall₂.cons a1 b2⟩
    · rw [if_neg (by simpa using hk)]
      exact ⟨is, by rw [b1, a], b2⟩

/-- **C169.** Each `image` element of an effect gives one image of the document, in order, and nothing else does. -/
theorem effect_images (ov : Ov) (now : DateTime) (stack : List FUri.Uri) (urls : Urls) (e : Effect) (n : Node) (r : EffLoad) (h : loadEffect ov now stack urls e n = some r) :
    List.Forall₂ (fun k i => loadImg ov now stack {} k = some i) (n.kids.filter fun k => decide (k.name = text "image")) r.images := by
  unfold loadEffect at h
  obtain ⟨s, -, h⟩ := Option.bind_eq_some_iff.1 h
  obtain ⟨is, b1, b2⟩ := effect_kids_images h
  rwa [b1, List.nil_append]

example : (loadEffect .wrap sampleDate [] plainUrls {} (.elem (text "effect") [] [] [.elem (text "image") [(text "id", text "a")] [] [], leaf (text "extra"), .elem (text "image") [(text "id", text "b")] [] []])).map
    (fun r => r.images.map (·.ent.id)) = some [text "a", text "b"] := by decide +kernel

/-! ## What does not hold -/

/-- A child of the element adds profiles and warnings only, and an asset adds a warning. -/
theorem effect_kid {ov : Ov} {now : DateTime} {stack : List FUri.Uri} {urls : Urls} {parent : Text} {q r : EffLoad} {k : Node} (h : loadEffKid ov now stack urls parent q k = some r) :
    q.eff.profiles <+: r.eff.profiles ∧ q.warnings.length + (if k.name = text "asset" then 1 else 0) ≤ r.warnings.length := by
  unfold loadEffKid at h
  by_cases ha : k.name = text "asset"
  · rw [ha, if_neg (text_ne (by decide)), if_neg (by rintro (e | e) <;> exact text_ne (by decide) e), if_neg (text_ne (by decide))] at h
    unfold loadProfile at h
    rw [ha, show fxKindOf (text "asset") = some .unknown by decide +kernel] at h
    obtain rfl := Option.some.inj h
    simp [ha]
  · rw [if_neg ha]
    split at h
    · obtain ⟨i, -, rfl⟩ := Option.map_eq_some_iff.1 h
      simp
    · split at h
      · obtain ⟨i, -, rfl⟩ := Option.map_eq_some_iff.1 h
        simp
      · split at h
        · obtain rfl := Option.some.inj h
          simp
        · unfold loadProfile at h
          split at h
          · obtain ⟨i, -, rfl⟩ := Option.map_eq_some_iff.1 h
            simp
          · obtain rfl := Option.some.inj h
            simp
          · obtain ⟨i, -, rfl⟩ := Option.map_eq_some_iff.1 h
            simp

theorem effect_kids {ov : Ov} {now : DateTime} {stack : List FUri.Uri} {urls : Urls} {parent : Text} : ∀ {ks : List Node} {q r : EffLoad}, ks.foldlM (loadEffKid ov now stack urls parent) q = some r →
    q.eff.profiles <+: r.eff.profiles ∧ q.warnings.length + (ks.filter fun k => decide (k.name = text "asset")).length ≤ r.warnings.length
  | [], q, r, h => by obtain rfl := Option.some.inj h; simp
  | k :: ks, q, r, h => by
    rw [List.foldlM_cons] at h
    obtain ⟨s, h1, h2⟩ := Option.bind_eq_some_iff.1 h
    obtain ⟨a1, a2⟩ := effect_kid h1
    obtain ⟨b1, b2⟩ := effect_kids h2
    refine ⟨a1.trans b1, ?_⟩
    rw [List.filter_cons]
    split at a2 <;> rename_i hk
    · rw [if_pos (decide_eq_true hk), List.length_cons]
      omega
    · rw [if_neg (by simpa using hk)]
      omega

/-- **C169, violated.** The asset that every entity may have is taken for a profile: each `asset` element of an effect gives a warning about an unsupported profile. -/
theorem effect_asset_violated (ov : Ov) (now : DateTime) (stack : List FUri.Uri) (urls : Urls) (e : Effect) (n : Node) (r : EffLoad) (h : loadEffect ov now stack urls e n = some r) :
    (n.kids.filter fun k => decide (k.name = text "asset")).length ≤ r.warnings.length := by
  unfold loadEffect at h
  obtain ⟨s, -, h⟩ := Option.bind_eq_some_iff.1 h
  have := (effect_kids h).2
  omega

/-- **C169, violated.** The profiles of an effect are not cleared when it is loaded, unlike its parameters. -/
theorem effect_profiles_violated (ov : Ov) (now : DateTime) (stack : List FUri.Uri) (urls : Urls) (e : Effect) (n : Node) (r : EffLoad) (h : loadEffect ov now stack urls e n = some r) :
    e.profiles <+: r.eff.profiles := by
  unfold loadEffect at h
  obtain ⟨s, -, h⟩ := Option.bind_eq_some_iff.1 h
  exact (effect_kids h).1

/-- What of an effect is there after loading: the numbers of parameters and profiles, and whether there were no warnings. -/
def loadedEffect (ov : Ov) (e : Effect) (n : Node) : Option (Nat × Nat × Bool) :=
  (loadEffect ov sampleDate [] plainUrls e n).map fun r => (r.eff.params.length, r.eff.profiles.length, decide (r.warnings = []))

example (ov : Ov) : loadedEffect ov sampleEffect (.elem (text "effect") [] [] [leaf (text "profile_GLSL")]) = some (0, 3, true) := by cases ov <;> decide +kernel

example (ov : Ov) : loadedEffect ov {} (.elem (text "effect") [] [] [.elem (text "asset") [] [] []]) = some (0, 0, false) := by cases ov <;> decide +kernel

/-- **C169, violated.** A profile of an unknown type, which can be added to an effect, is written as an element that is not read. -/
theorem effect_unknown_violated (ov : Ov) :
    ((writeEffect ov fmt02 sampleDate plainUrls [] { ent := { id := text "fx" }, profiles := [.fx .unknown {}] }).bind fun k => loadedEffect ov {} k.1) = some (0, 0, false) := by
  cases ov <;> decide +kernel

/-- **C169, violated.** Another element than `effect` gives a warning, and is read all the same. -/
theorem effect_element_violated (ov : Ov) : loadedEffect ov {} (.elem (text "material") [] [] [leaf (text "profile_GLSL")]) = some (0, 1, false) := by cases ov <;> decide +kernel

end Verif.FArc
