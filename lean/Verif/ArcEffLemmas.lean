import Verif.ArcEffSpec
import Verif.ArcFxWhole
import Verif.ArcPlainEnt

/-! # Lemmas about the saving and loading of effects -/

namespace Verif.FArc

open Verif.FEff (Text text)
open Verif.FConv (Ov Formats DateTime)

theorem kind_name {k : FxKind} (h : k ≠ .unknown) : fxKindOf k.name = some k := by
  cases k
  · decide +kernel
  · decide +kernel
  · decide +kernel
  · decide +kernel
  · exact absurd rfl h

/-- The elements of profiles are none of the others. -/
def IsProfile (t : Text) : Prop := t = text "profile_COMMON" ∨ ∃ k : FxKind, k ≠ .unknown ∧ t = k.name

theorem isProfile_ne {t : Text} (h : IsProfile t) : t ≠ text "image" ∧ t ≠ text "setparam" ∧ t ≠ text "newparam" ∧ t ≠ text "extra" ∧ t ≠ text "asset" := by
  rcases h with rfl | ⟨k, -, rfl⟩
  · exact ⟨text_ne (by decide), text_ne (by decide), text_ne (by decide), text_ne (by decide), text_ne (by decide)⟩
  · cases k <;> exact ⟨text_ne (by decide), text_ne (by decide), text_ne (by decide), text_ne (by decide), text_ne (by decide)⟩

theorem textUnless_noSid {n t : Text} : ∀ k ∈ textUnless n t, NoSid k := by
  intro k hk
  unfold textUnless at hk
  split at hk
  · cases hk
  · rw [List.mem_singleton.1 hk]; exact noSid_text _ _

theorem contributors_noSid {ov : Ov} : ∀ (cs : List FEnt.Contributor) (ks : List Node), writeContributors ov cs = some ks → ∀ k ∈ ks, NoSid k
  | [], ks, h => by obtain rfl := Option.some.inj h; simp
  | c :: cs, ks, h => by
    rw [writeContributors] at h
    obtain ⟨a, h1, h⟩ := Option.bind_eq_some_iff.1 h
    obtain ⟨b, h2, rfl⟩ := Option.map_eq_some_iff.1 h
    intro k hk
    rcases List.mem_append.1 hk with hk | hk
    · unfold writeContributor at h1
      split at h1
      · obtain rfl := Option.some.inj h1
        cases hk
      · obtain ⟨s, h3, rfl⟩ := Option.map_eq_some_iff.1 h1
        rw [List.mem_singleton.1 hk]
        refine noSid_elem rfl fun x hx => ?_
        simp only [List.mem_append] at hx
        rcases hx with (((hx | hx) | hx) | hx) | hx
        · exact textUnless_noSid x hx
        · exact textUnless_noSid x hx
        · exact textUnless_noSid x hx
        · exact textUnless_noSid x hx
        · unfold writeSourceData at h3
          split at h3
          · obtain rfl := Option.some.inj h3
            cases hx
          · obtain ⟨u, -, rfl⟩ := Option.map_eq_some_iff.1 h3
            rw [List.mem_singleton.1 hx]; exact noSid_text _ _
    · exact contributors_noSid cs b h2 k hk

/-- The element of the asset has no sub-ids. -/
theorem asset_elem {ov : Ov} {fmt : ℚ → Text} {now : DateTime} {a : Option QAsset} {r : List Node × Option QAsset} (h : writeEntAsset ov fmt now a = some r) :
    (∀ k ∈ r.1, k.name = text "asset" ∧ NoSid k) ∧ r.1.length = if a.isSome then 1 else 0 := by
  cases a with
  | none => obtain rfl := Option.some.inj h; exact ⟨(fun _ h => nomatch h), rfl⟩
  | some a =>
    unfold writeEntAsset at h
    simp only at h
    obtain ⟨q, hq, rfl⟩ := Option.map_eq_some_iff.1 h
    refine ⟨fun k hk => ?_, rfl⟩
    rw [List.mem_singleton.1 hk]
    unfold writeAsset at hq
    simp only at hq
    obtain ⟨cs, hc, rfl⟩ := Option.map_eq_some_iff.1 hq
    refine ⟨rfl, noSid_elem rfl fun x hx => ?_⟩
    simp only [List.mem_append, List.mem_singleton] at hx
    rcases hx with (((((((hx | hx) | hx) | hx) | hx) | hx) | hx) | hx) | hx
    · exact contributors_noSid _ _ hc x hx
    · rw [hx]; exact noSid_text _ _
    · exact textUnless_noSid x hx
    · rw [hx]; exact noSid_text _ _
    · exact textUnless_noSid x hx
    · exact textUnless_noSid x hx
    · exact textUnless_noSid x hx
    · unfold writeUnit at hx
      split at hx
      · rw [List.mem_singleton.1 hx]
        exact noSid_elem (by rw [raw_cons, if_neg (text_ne (by decide)), raw_cons, if_neg (text_ne (by decide)), raw_nil]) (fun _ h => nomatch h)
      · cases hx
    · unfold writeAxis at hx
      split at hx
      · rw [List.mem_singleton.1 hx]; exact noSid_text _ _
      · cases hx

/-- A profile is written and read again. -/
theorem profile_back {fmt rnd} (ov : Ov) (hf : Formats fmt rnd) (urls : Urls) (around : List Node) (ha : ∀ a ∈ around, PlainSids a) (p : EffProfile) (h : GoodProfile ov urls p) :
    ∃ n u, writeProfile fmt urls around p = some (n, u) ∧ ProfileSaved p u ∧ IsProfile n.name ∧ PlainSids n ∧
      (ProfileSids u → ∃ v, ProfileBack ov rnd urls u v ∧ ∀ q, loadProfile ov urls q n = some ⟨⟨q.eff.ent, q.eff.params, q.eff.profiles ++ [v]⟩, q.images, q.warnings⟩) := by
  cases p with
  | common s =>
    obtain ⟨n, u, h1, h2, h3, h4, h5⟩ := std_spec ov hf around ha s h.1
    refine ⟨n, .common s, by rw [writeProfile, h1]; rfl, rfl, Or.inl h4, h5 h.2, fun _ => ⟨.common u, h3, fun q => ?_⟩⟩
    unfold loadProfile
    rw [h4, show fxKindOf (text "profile_COMMON") = none by decide +kernel]
    simp only
    rw [h2]
    rfl
  | fx k p =>
    obtain ⟨n, u, h1, h2, h3, h4, h5⟩ := profile_spec ov hf urls around ha k.name p h.2.1
    refine ⟨n, .fx k u, by rw [writeProfile, h1]; rfl, ⟨rfl, h2⟩, Or.inr ⟨k, h.1, h3⟩, h4 h.2.2, fun hs => ?_⟩
    obtain ⟨v, e1, e2⟩ := h5 hs
    refine ⟨.fx k v, ⟨rfl, e2⟩, fun q => ?_⟩
    unfold loadProfile
    rw [h3, kind_name h.1]
    have hk := h.1
    cases k <;> simp_all

theorem profiles_back {fmt rnd} (ov : Ov) (hf : Formats fmt rnd) (urls : Urls) (around : List Node) (ha : ∀ a ∈ around, PlainSids a) (ps : List EffProfile) (h : ∀ p ∈ ps, GoodProfile ov urls p) :
    ∀ n, PlainSids n → ∃ ns us, writeProfiles fmt urls around n ps = some (ns, us) ∧ List.Forall₂ ProfileSaved ps us ∧ (∀ k ∈ ns, IsProfile k.name) ∧
      ((∀ u ∈ us, ProfileSids u) → ∃ vs, List.Forall₂ (ProfileBack ov rnd urls) us vs ∧
        ∀ q, ns.foldlM (loadProfile ov urls) q = some ⟨⟨q.eff.ent, q.eff.params, q.eff.profiles ++ vs⟩, q.images, q.warnings⟩) := by
  induction ps with
  | nil => exact fun n _ => ⟨[], [], rfl, .nil, by simp, fun _ => ⟨[], .nil, fun q => by rw [List.append_nil]; rfl⟩⟩
  | cons p ps ih =>
    intro n hn
    obtain ⟨k, u, h1, h2, h3, h4, h5⟩ := profile_back (rnd := rnd) ov hf urls (n :: around) (by intro a h; rcases List.mem_cons.1 h with rfl | h; exacts [hn, ha a h]) p (h p (by simp))
    obtain ⟨ns, us, i1, i2, i3, i4⟩ := ih (fun p hp => h p (by simp [hp])) (Node.add k n) (fun s hs => ((hasSid_add s k n).1 hs).elim (hn s) (h4 s))
    refine ⟨k :: ns, u :: us, by rw [writeProfiles, h1, Option.bind_some, i1]; rfl, .cons h2 i2, fun x hx => ?_, fun hs => ?_⟩
    · rcases List.mem_cons.1 hx with rfl | hx
      · exact h3
      · exact i3 x hx
    · obtain ⟨v, e1, e2⟩ := h5 (hs u (by simp))
      obtain ⟨vs, f1, f2⟩ := i4 fun u hu => hs u (by simp [hu])
      refine ⟨v :: vs, .cons e1 f1, fun q => ?_⟩
      rw [List.foldlM_cons, e2, Option.bind_eq_bind, Option.bind_some, f2, List.append_assoc]
      rfl

/-- Profiles are read as profiles. -/
theorem profiles_kids (ov : Ov) (now : DateTime) (stack : List FUri.Uri) (urls : Urls) (parent : Text) : ∀ (ns : List Node), (∀ k ∈ ns, IsProfile k.name) → ∀ q,
    ns.foldlM (loadEffKid ov now stack urls parent) q = ns.foldlM (loadProfile ov urls) q
  | [], _, _ => rfl
  | k :: ns, h, q => by
    obtain ⟨h1, h2, h3, h4, -⟩ := isProfile_ne (h k (by simp))
    rw [List.foldlM_cons, List.foldlM_cons]
    have : loadEffKid ov now stack urls parent q k = loadProfile ov urls q k := by
      unfold loadEffKid
      rw [if_neg h1, if_neg (by rintro (e | e); exacts [h2 e, h3 e]), if_neg h4]
    rw [this]
    cases loadProfile ov urls q k with
    | none => rfl
    | some q' => exact profiles_kids ov now stack urls parent ns (fun k hk => h k (by simp [hk])) q'

/-- Parameters are read as parameters. -/
theorem effect_params {fmt rnd} (ov : Ov) (hf : Formats fmt rnd) (now : DateTime) (stack : List FUri.Uri) (urls : Urls) (ps : List Parm) (h : ∀ p ∈ ps, GoodParm p) :
    ∃ ks, ps.mapM (writeParm fmt) = some ks ∧ (∀ k ∈ ks, (k.name = text "newparam" ∨ k.name = text "setparam") ∧ PlainSids k) ∧
      ∀ parent q, ks.foldlM (loadEffKid ov now stack urls parent) q = some ⟨⟨q.eff.ent, q.eff.params ++ ps.map (parmAfter rnd), q.eff.profiles⟩, q.images, q.warnings⟩ := by
  obtain ⟨ks, c1, c2⟩ := parms_spec ov hf ps h
  refine ⟨ks, c1, fun k hk => ?_, ?_⟩
  · obtain ⟨i, hi, rfl⟩ := List.mem_iff_getElem.1 hk
    have := c2.length_eq
    have := (List.forall₂_iff_get.1 c2).2 i (by omega) hi
    refine ⟨?_, this.2.2⟩
    rw [show ks.get ⟨i, hi⟩ = ks[i] from rfl] at this
    rw [this.2.1]
    split
    · exact Or.inl rfl
    · exact Or.inr rfl
  · intro parent
    clear c1 h
    induction c2 with
    | nil => intro q; rw [List.map_nil, List.append_nil]; rfl
    | @cons p k ps ks hpk _ ih =>
      intro q
      have hn : k.name = text "newparam" ∨ k.name = text "setparam" := by
        rw [hpk.2.1]
        split
        · exact Or.inl rfl
        · exact Or.inr rfl
      have : loadEffKid ov now stack urls parent q k = some ⟨⟨q.eff.ent, q.eff.params ++ [parmAfter rnd p], q.eff.profiles⟩, q.images, q.warnings⟩ := by
        unfold loadEffKid
        rw [if_neg (by rcases hn with e | e <;> rw [e] <;> exact text_ne (by decide)), if_pos hn.symm, hpk.1]
        rfl
      rw [List.foldlM_cons, this, Option.bind_eq_bind, Option.bind_some, ih, List.append_assoc]
      rfl

/-- Every element of an asset gives a warning. -/
theorem effect_assets (ov : Ov) (now : DateTime) (stack : List FUri.Uri) (urls : Urls) (parent : Text) : ∀ (ns : List Node), (∀ k ∈ ns, k.name = text "asset") → ∀ q,
    ns.foldlM (loadEffKid ov now stack urls parent) q = some ⟨q.eff, q.images, q.warnings ++ List.replicate ns.length .unsupportedProfile⟩
  | [], _, q => by rw [List.length_nil, List.replicate_zero, List.append_nil]; rfl
  | k :: ns, h, q => by
    have : loadEffKid ov now stack urls parent q k = some ⟨q.eff, q.images, q.warnings ++ [.unsupportedProfile]⟩ := by
      unfold loadEffKid loadProfile
      rw [h k (by simp), if_neg (text_ne (by decide)), if_neg (by rintro (e | e) <;> exact text_ne (by decide) e), if_neg (text_ne (by decide)),
        show fxKindOf (text "asset") = some .unknown by decide +kernel]
    rw [List.foldlM_cons, this, Option.bind_eq_bind, Option.bind_some, effect_assets ov now stack urls parent ns (fun k hk => h k (by simp [hk])), List.append_assoc, List.length_cons, List.replicate_succ]
    rfl

/-- Extras are left to the entity. -/
theorem effect_extras (ov : Ov) (now : DateTime) (stack : List FUri.Uri) (urls : Urls) (parent : Text) : ∀ (ns : List Node), (∀ k ∈ ns, k.name = text "extra") → ∀ q,
    ns.foldlM (loadEffKid ov now stack urls parent) q = some q
  | [], _, q => rfl
  | k :: ns, h, q => by
    have : loadEffKid ov now stack urls parent q k = some q := by
      unfold loadEffKid
      rw [h k (by simp), if_neg (text_ne (by decide)), if_neg (by rintro (e | e) <;> exact text_ne (by decide) e), if_pos rfl]
    rw [List.foldlM_cons, this, Option.bind_eq_bind, Option.bind_some, effect_extras ov now stack urls parent ns (fun k hk => h k (by simp [hk]))]

end Verif.FArc
