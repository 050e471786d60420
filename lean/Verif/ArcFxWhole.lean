import Verif.ArcFxLoad
import Verif.ArcExtraSids

/-! # The element of an FX profile as a whole -/

namespace Verif.FArc

open Verif.FEff (Text text)
open Verif.FConv (Ov Formats)
open Verif.FPass (Shader Pass Tech RState Code findCode)

theorem profile_spec {fmt rnd} (ov : Ov) (hf : Formats fmt rnd) (urls : Urls) (around : List Node) (ha : ∀ a ∈ around, PlainSids a) (name : Text) (p : FxProfile) (h : GoodFx urls p) :
    ∃ n u, writeFx fmt urls around name p = some (n, u) ∧ FxSaved p u ∧ n.name = name ∧ (ExtraSids p.extra → PlainSids n) ∧ (AllSids u → ∃ v, loadFx ov urls name n = some v ∧ FxBack rnd urls u v) := by
  obtain ⟨ks, c1, c2⟩ := parms_spec ov hf p.params h.params
  have hmem : ∀ k ∈ ks, (k.name = text "newparam" ∨ k.name = text "setparam") ∧ PlainSids k := by
    intro k hk
    obtain ⟨i, hi, rfl⟩ := List.mem_iff_getElem.1 hk
    have := c2.length_eq
    have := (List.forall₂_iff_get.1 c2).2 i (by omega) hi
    refine ⟨?_, this.2.2⟩
    rw [show ks.get ⟨i, hi⟩ = ks[i] from rfl] at this
    rw [this.2.1]
    split
    · exact Or.inl rfl
    · exact Or.inr rfl
  have hR : ks.takeWhile isEarly = [] := by
    cases ks with
    | nil => rfl
    | cons k ks =>
      rw [List.takeWhile_cons_of_neg]
      unfold isEarly
      rcases (hmem k (by simp)).1 with e | e <;> rw [e] <;> simp only [text_inj, String.reduceEq, or_self, decide_false, Bool.false_eq_true, not_false_eq_true]
  obtain ⟨as, has, hplat, hns⟩ : ∃ as, putPlatform p.platform (.elem name [] [] ks) = .elem name as [] ks ∧ (∀ d js, prop (some (.elem name as d js)) (text "platform") = some p.platform) ∧
      ∀ d js, (Node.elem name as d js).raw (text "sid") = none := by
    unfold putPlatform
    by_cases e : p.platform = []
    · rw [if_pos e]
      exact ⟨[], rfl, fun _ _ => by rw [e]; exact prop_absent rfl, fun _ _ => rfl⟩
    · rw [if_neg e]
      exact ⟨[(text "platform", p.platform)], rfl, fun _ _ => prop_raw (by rw [raw_cons, if_pos rfl]) h.platform, fun _ _ => by rw [raw_cons, if_neg (text_ne (by decide)), raw_nil]⟩
  have hn0 : PlainSids (.elem name as [] ks) := plainSids_elem (fun s hs => by rw [hns] at hs; cases hs) fun k hk => (hmem k hk).2
  obtain ⟨p1, cs, K, b1, b2, b3, b4, b5, -, b7⟩ := codes_spec urls around ha p.codes h.codes ks hR (.elem name as [] ks) [] hn0 rfl (by simp)
  rw [List.nil_append] at b2
  obtain ⟨us, T, f1, f2, f3, f4, f5⟩ := techs_spec ov hf urls around ha cs (fun c hc => valid_plain (b5 c hc)) p.techs (fun t ht => good_saved (ids_saved b4.1) (h.techs t ht)) p1 b7
  have hX : ∀ k ∈ writeExtra p.extra, k.name = text "extra" := fun k hk => (writeExtra_elem hk).1
  have hshape : addKids (.elem p1.name p1.attrs p1.direct (p1.kids ++ T)) (writeExtra p.extra) = .elem name as [] (K ++ ks ++ T ++ writeExtra p.extra) := by rw [b2]; rfl
  refine ⟨.elem name as [] (K ++ ks ++ T ++ writeExtra p.extra), { p with codes := cs, techs := us }, ?_, ⟨rfl, b4, rfl, f2, rfl⟩, rfl, fun hs => ?_, fun hall => ?_⟩
  · unfold writeFx
    rw [c1, Option.bind_some, has, b1, Option.bind_some, f1, Option.map_some, hshape]
  · refine plainSids_elem (fun s h => by rw [hns] at h; cases h) fun k hk => ?_
    rcases List.mem_append.1 hk with hk | hk
    · rw [b2] at f3
      exact fun s h => f3 s (.deeper hk h)
    · exact extra_sids h.extra hs k hk
  · have hKn : ∀ k ∈ K, k.name = text "code" ∨ k.name = text "include" := by
      intro k hk
      obtain ⟨i, hi, rfl⟩ := List.mem_iff_getElem.1 hk
      have := b3.length_eq
      exact ((List.forall₂_iff_get.1 b3).2 i (by omega) hi).1
    obtain ⟨gs, hgs⟩ : ∃ gs : List Parm, gs = (p.params.filter fun q : Parm => decide (q.role = .generator)).map (parmAfter rnd) := ⟨_, rfl⟩
    obtain ⟨ex, hex⟩ : ∃ ex : FExtra.Extra, ex = if FExtra.hasContent p.extra then p.extra else FExtra.newExtra := ⟨_, rfl⟩
    obtain ⟨ds, d1, d2, d3⟩ := fx_codes ov urls b3 ⟨p.platform, [], gs, [], ex⟩
    obtain ⟨vs, g1, g2⟩ := fx_techs ov urls ds f4 (f5 hall.1 hall.2 ds (sids_back d2)) ⟨p.platform, ds, gs, [], ex⟩ rfl
    refine ⟨⟨p.platform, ds, gs, vs, ex⟩, ?_, ⟨rfl, d2, d3, hgs, g2, hex⟩⟩
    unfold loadFx
    rw [if_pos (show (Node.elem name as [] (K ++ ks ++ T ++ writeExtra p.extra)).name = name from rfl), hplat, kids_elem]
    have hs1 : ∀ q : FxProfile, K.foldlM (loadFxFirst ov name) q = some q := fun q => fold_skip (loadFxFirst ov name) K q fun k hk => by
      unfold loadFxFirst
      rcases hKn k hk with e | e <;> rw [e, if_neg (text_ne (by decide)), if_neg (text_ne (by decide))]
    have hs2 : ∀ q : FxProfile, T.foldlM (loadFxFirst ov name) q = some q := fun q => fold_skip (loadFxFirst ov name) T q fun k hk => by
      unfold loadFxFirst
      rw [f4 k hk, if_neg (text_ne (by decide)), if_neg (text_ne (by decide))]
    have hs3 : ∀ q : FxProfile, ks.foldlM (loadFxKid ov urls) q = some q := fun q => fold_skip (loadFxKid ov urls) ks q fun k hk => by
      unfold loadFxKid
      rcases (hmem k hk).1 with e | e <;> rw [e, if_neg (text_ne (by decide)), if_neg (by rintro (h | h) <;> exact text_ne (by decide) h)]
    have hs4 : ∀ q : FxProfile, (writeExtra p.extra).foldlM (loadFxKid ov urls) q = some q := fun q => fold_skip (loadFxKid ov urls) (writeExtra p.extra) q fun k hk => by
      unfold loadFxKid
      rw [hX k hk, if_neg (text_ne (by decide)), if_neg (by rintro (h | h) <;> exact text_ne (by decide) h)]
    have first : (K ++ ks ++ T ++ writeExtra p.extra).foldlM (loadFxFirst ov name) {} = some ⟨[], [], gs, [], ex⟩ := by
      rw [List.foldlM_append, List.foldlM_append, List.foldlM_append, hs1, Option.bind_eq_bind, Option.bind_some, fx_parms ov name c2, Option.bind_some, hs2, Option.bind_some, fx_extra ov name _ hX _ _ (fx_extra_load p.extra h.extra), ← hex, ← hgs]
      rfl
    rw [first, Option.bind_some, Option.bind_some, List.foldlM_append, List.foldlM_append, List.foldlM_append, d1, Option.bind_eq_bind, Option.bind_some, hs3, Option.bind_some, List.nil_append, g1, Option.bind_some, hs4]
    simp

end Verif.FArc
