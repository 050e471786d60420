import Verif.ArcEntityAux
import Verif.ArcCamLemmas

/-!
# Lemmas about entities without a target: what `WriteToEntityXMLFCDEntity` and `WriteEntityExtra` write is read by `LoadEntity`
-/

namespace Verif.FArc

open Verif.FEff (Text text)
open Verif.FConv (Ov DateTime Formats shown)

/-- What is written for the extra tree and the note, and how it is read back. -/
theorem plain_extra (ts : List FExtra.Tech) (es : List FExtra.EType) (s : Ent) (hs : Saveable (⟨[], ts⟩ :: es)) (hp : NoParams ts) (hn : Plain s.note) (e2 : s.target = []) :
    ∃ ns, writeTargetExtra s.target s.note (⟨[], ts⟩ :: es) = some (ns, if s.note = [] then ⟨[], ts⟩ :: es else ⟨[], withoutTech ts⟩ :: es) ∧
      (∀ k ∈ ns, k.name = text "extra") ∧ ns.foldlM loadEntExtra (FExtra.newExtra, []) = some (extraAfter s ts es, s.note) := by
  have p2 : (ts.map (·.profile)).Nodup := (hs.2.2 _ (List.mem_cons_self ..)).2.1
  have p3 : ∀ x ∈ ts, SaveTech x := (hs.2.2 _ (List.mem_cons_self ..)).2.2
  obtain ⟨A, x, B, h1, h2, h3, h4, h5⟩ := withTech_split ts
  have hW := withTech_save p2 p3
  have hP := withTech_params hp
  rw [h1] at hW hP
  have hxs : SaveTech x := hW.2 x (by simp)
  have hpos := withoutTech_split p2 h2 h3 h5
  rw [e2]
  unfold writeTargetExtra
  rw [if_pos rfl]
  unfold writeEntityExtra
  by_cases e1 : s.note = []
  · rw [e1, if_pos rfl]
    refine ⟨writeExtra (⟨[], ts⟩ :: es), by simp, writeExtra_names _, ?_⟩
    have hc := takeNotes_clean [] ts (clean_of_params hp)
    by_cases hcont : FExtra.hasContent (⟨[], ts⟩ :: es) = true
    · rw [loadEntExtras_all ts ts es [] [] hs hcont hc (fun _ => rfl) (clean_of_params hp)]
      simp [extraAfter, e1, e2, hcont]
    · rw [extra_empty _ (by simpa using hcont)]
      simp [extraAfter, e1, e2, hcont]
  · rw [if_neg e1, onDefault_head, Option.bind_some, pushParam_split _ _ h4, onDefault_head, popParam_mid A B x _ _ h2 h3, Option.map_some, hpos]
    refine ⟨writeExtra (⟨[], A ++ addP (text "user_properties") s.note x :: B⟩ :: es), by simp [e1], writeExtra_names _, ?_⟩
    have hm := mid_save (x := x) (y := addP (text "user_properties") s.note x) rfl hW (addP_save _ _ validName_target.2 hn hxs)
    rw [loadEntExtras_all _ (A ++ x :: B) es [] s.note (saveable_head hs _ hm.1 hm.2) (hasContent_mid ..) (takeNotes_note A B x s.note [] h2 h3 (clean_of_params hP)) (by simp)
      (clean_of_params hP)]
    simp [extraAfter, e1, h1]

/-- The element of an entity with further attributes and elements, and how `LoadEntity` reads it. -/
theorem ent_back (ov : Ov) {fmt rnd} (hf : Formats fmt rnd) (now now' : DateTime) (hn : GoodDate now) (elem : Text) (s : Ent) (ts : List FExtra.Tech)
    (es : List FExtra.EType) (hx : s.extra = ⟨[], ts⟩ :: es) (h : GoodEnt ov rnd s) (ht : s.target = []) :
    ∃ as ns, (∀ k ∈ as, k.name = text "asset") ∧ (∀ k ∈ ns, k.name = text "extra") ∧
      (∀ mid, writeEnt ov fmt now elem s mid = some (.elem elem (entAttrs true s) [] (as ++ mid ++ ns),
        { s with asset := s.asset.map fun a => { a with modified := now }, extra := if s.note = [] then ⟨[], ts⟩ :: es else ⟨[], withoutTech ts⟩ :: es })) ∧
      ∀ mid at', (∀ k ∈ mid, k.name ≠ text "asset" ∧ k.name ≠ text "extra") → (∀ x ∈ at', x.1 ≠ text "id" ∧ x.1 ≠ text "name") →
        loadEnt ov now' {} (.elem elem (entAttrs true s ++ at') [] (as ++ mid ++ ns)) = some (entAfter ov rnd now s (extraAfter s ts es)) := by
  have hs := h.extra
  rw [hx] at hs
  have hp : NoParams ts := h.params ⟨[], ts⟩ (by rw [hx]; simp) rfl
  obtain ⟨ns, w1, w2, w3⟩ := plain_extra ts es s hs hp h.note ht
  have ha : ∃ as, writeEntAsset ov fmt now s.asset = some (as, s.asset.map fun a => { a with modified := now }) ∧ (∀ k ∈ as, k.name = text "asset") ∧
      ∀ mid, (∀ k ∈ mid, k.name ≠ text "asset") → ∀ attrs, loadEntAsset ov now' none (.elem elem attrs [] (as ++ mid ++ ns)) = some (s.asset.map (assetAfter ov rnd now)) := by
    have hfind : ∀ l : List Node, (∀ k ∈ l, k.name ≠ text "asset") → l.find? (fun c => decide (c.name = text "asset")) = none := by
      intro l hl
      rw [List.find?_eq_none]
      intro k hk
      simpa using hl k hk
    have hrest : ∀ mid, (∀ k ∈ mid, k.name ≠ text "asset") → ∀ k ∈ mid ++ ns, k.name ≠ text "asset" := by
      intro mid hm k hk
      rcases List.mem_append.1 hk with hk | hk
      · exact hm k hk
      · rw [w2 k hk]; simp [text_inj]
    cases hsa : s.asset with
    | none =>
      refine ⟨[], rfl, by simp, fun mid hm attrs => ?_⟩
      unfold loadEntAsset Node.child
      simp only [Node.kids, List.nil_append]
      rw [hfind _ (hrest mid hm)]
      rfl
    | some a =>
      obtain ⟨k, k1, k2⟩ := asset_roundtrip_partial ov hf now now' a hn (h.asset a hsa)
      have kn : k.name = text "asset" := by
        unfold writeAsset at k1
        obtain ⟨cs, -, k1⟩ := Option.map_eq_some_iff.1 k1
        rw [← (Prod.mk.inj k1).1]; rfl
      refine ⟨[k], ?_, by simpa using kn, fun mid hm attrs => ?_⟩
      · simp [writeEntAsset, k1]
      · unfold loadEntAsset Node.child
        simp only [Node.kids, List.cons_append, List.find?_cons, kn, decide_true]
        simp only [Option.getD_none, k2, Option.map_some]
        rfl
  obtain ⟨as, a1, a2, a3⟩ := ha
  refine ⟨as, ns, a2, w2, fun mid => ?_, fun mid at' hm hat => ?_⟩
  · unfold writeEnt
    rw [a1, Option.bind_some, hx, w1, Option.map_some]
  · have hid : prop (some (.elem elem (entAttrs true s ++ at') [] (as ++ mid ++ ns))) (text "id") = some s.id := by
      simp [prop, entAttrs, raw_cons, decode_plain h.id]
    have hraw : ∀ l : List (Text × Text), (∀ x ∈ l, x.1 ≠ text "name") → ∀ a b c, (Node.elem a l b c).raw (text "name") = none := by
      intro l
      induction l with
      | nil => intro _ a b c; simp
      | cons x l ih =>
        intro hl a b c
        rw [show x = (x.1, x.2) from rfl, raw_cons, if_neg (hl x (by simp)), ih fun y hy => hl y (by simp [hy])]
    have hname : prop (some (.elem elem (entAttrs true s ++ at') [] (as ++ mid ++ ns))) (text "name") = some s.name := by
      by_cases hn : s.name = []
      · have e : entAttrs true s ++ at' = (text "id", s.id) :: at' := by simp [entAttrs, hn]
        rw [e]
        simp only [prop, Option.bind_some, raw_cons, text_inj, String.reduceEq, if_false]
        rw [hraw _ fun x hx => (hat x hx).2]
        simp [hn]
      · simp [prop, entAttrs, raw_cons, hn, text_inj, decode_plain (valid_plain h.name)]
    have hch : (Node.elem elem (entAttrs true s ++ at') [] (as ++ mid ++ ns)).children (text "extra") = ns := by
      unfold Node.children
      simp only [Node.kids, List.filter_append]
      have e1 : as.filter (fun c => decide (c.name = text "extra")) = [] := by
        rw [List.filter_eq_nil_iff]; intro k hk; simp [a2 k hk, text_inj]
      have e2 : mid.filter (fun c => decide (c.name = text "extra")) = [] := by
        rw [List.filter_eq_nil_iff]; intro k hk; simp [(hm k hk).2]
      have e3 : ns.filter (fun c => decide (c.name = text "extra")) = ns := by
        rw [List.filter_eq_self]; intro k hk; simp [w2 k hk]
      rw [e1, e2, e3]; rfl
    unfold loadEnt
    rw [hid, Option.bind_some, hname, Option.bind_some, givenName_good h.id h.name, Option.bind_some, a3 mid (fun k hk => (hm k hk).1), Option.bind_some, hch, w3, Option.map_some]
    rfl

end Verif.FArc
