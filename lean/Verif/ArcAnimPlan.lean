import Verif.ArcAnimParts

/-! # Lemmas for the properties of saved and loaded animation curves: all channels -/

namespace Verif.FArc

open Verif.FStr (Ch)
open Verif.FEff (Text text)
open Verif.FConv (Ov Formats shown)
open Verif.Enum (Interpolation Infinity)

/-- The elements written for channels whose curves have got their ids. -/
def planNodes (fmt : ℚ → Text) (junk : APlaced → List Interpolation) (plan : List (Text × List (Text × APlaced))) : List Node :=
  plan.flatMap fun p => p.2.flatMap (fun x => writeSources fmt (junk x.2) x.1 x.2) ++ p.2.map (fun x => samplerNode x.1 x.2) ++ p.2.map fun x => channelNode x.1 p.1 x.2

/-- All curves with their pointers and ids. -/
def planCurves (plan : List (Text × List (Text × APlaced))) : List (Text × Text × APlaced) := plan.flatMap fun p => p.2.map fun x => (p.1, x)

theorem clean_some {t : Text} (h : Plain t) : ∃ u, FIds.cleanId t = some u ∧ Plain u :=
  ⟨_, FIds.cleanId_eq t (fun hm => absurd (h 0 hm).1 (by unfold FXml.IsChar; decide)), id_plain (FXml.clean_valid true t).1⟩

theorem curveId_some {base : Text} (hb : Plain base) {c : APlaced} (hc : GoodCurve c) : ∃ u, curveId base c = some u ∧ Plain u := by
  refine clean_some (plain_append (plain_append hb ?_) hc.qual.1)
  split
  · exact plain_cons (by unfold FXml.IsChar; decide) (plain_append (intText_plain _) (hplain _ (by decide)))
  · exact fun c hc => nomatch hc

theorem ids_of {base : Text} (hb : Plain base) (cs : List APlaced) (hc : ∀ c ∈ cs, GoodCurve c) : ∃ xs : List (Text × APlaced), cs.mapM (curveId base) = some (xs.map (·.1)) ∧ xs.map (·.2) = cs ∧ ∀ x ∈ xs, Plain x.1 := by
  induction cs with
  | nil => exact ⟨[], rfl, rfl, fun _ h => nomatch h⟩
  | cons c cs ih =>
    obtain ⟨xs, h1, h2, h3⟩ := ih fun x hx => hc x (List.mem_cons_of_mem _ hx)
    obtain ⟨u, h4, h5⟩ := curveId_some hb (hc c List.mem_cons_self)
    refine ⟨(u, c) :: xs, ?_, by simp [h2], ?_⟩
    · rw [List.mapM_cons, h4, h1]; rfl
    · intro x hx
      rcases List.mem_cons.1 hx with rfl | hx
      · exact h5
      · exact h3 x hx

theorem zip_fst_snd (xs : List (Text × APlaced)) : (xs.map (·.1)).zip (xs.map (·.2)) = xs := by
  induction xs with
  | nil => rfl
  | cons x xs ih => simp [ih]

theorem plan_of (fmt : ℚ → Text) (junk : APlaced → List Interpolation) {anim : Text} (ha : Plain anim) (chs : List (Text × List APlaced)) (hc : ∀ ch ∈ chs, Pointer ch.1 ∧ ∀ c ∈ ch.2, GoodCurve c) :
    ∃ plan, writeChannels fmt junk anim chs = some (planNodes fmt junk plan) ∧ chs = plan.map (fun p => (p.1, p.2.map (·.2))) ∧ ∀ p ∈ plan, ∀ x ∈ p.2, Plain x.1 := by
  induction chs with
  | nil => exact ⟨[], rfl, rfl, fun _ h => nomatch h⟩
  | cons ch chs ih =>
    obtain ⟨plan, h1, h2, h3⟩ := ih fun x hx => hc x (List.mem_cons_of_mem _ hx)
    obtain ⟨hp, hcs⟩ := hc ch List.mem_cons_self
    obtain ⟨base, h4, h5⟩ := clean_some (plain_append ha (plain_cons (c := 95) (by unfold FXml.IsChar; decide) hp.1))
    obtain ⟨xs, h6, h7, h8⟩ := ids_of h5 ch.2 hcs
    refine ⟨(ch.1, xs) :: plan, ?_, ?_, ?_⟩
    · unfold writeChannels at h1 ⊢
      have e : writeChannel fmt junk anim ch.1 ch.2 = some (xs.flatMap (fun x => writeSources fmt (junk x.2) x.1 x.2) ++ xs.map (fun x => samplerNode x.1 x.2) ++ xs.map fun x => channelNode x.1 ch.1 x.2) := by
        unfold writeChannel
        rw [h4, Option.bind_some, h6, Option.map_some]
        have : (xs.map (·.1)).zip ch.2 = xs := by rw [← h7]; exact zip_fst_snd xs
        rw [this]
      obtain ⟨ess, h9, h10⟩ := Option.map_eq_some_iff.1 h1
      rw [List.mapM_cons, e, h9]
      simp only [planNodes, List.flatMap_cons] at h10 ⊢
      rw [← h10]
      rfl
    · simp [h7, ← h2]
    · intro p hp x hx
      rcases List.mem_cons.1 hp with rfl | hp
      · exact h8 x hx
      · exact h3 p hp x hx

theorem source_names (fmt : ℚ → Text) (junk : List Interpolation) (id : Text) (c : APlaced) : ∀ k ∈ writeSources fmt junk id c, k.name = text "source" := by
  intro k hk
  rw [writeSources_eq] at hk
  simp only [List.mem_append, List.mem_cons, List.not_mem_nil, or_false, List.mem_ite_nil_right] at hk
  rcases hk with ((rfl | rfl | rfl) | ⟨_, rfl | rfl⟩) | ⟨_, rfl | rfl⟩ <;> rfl

theorem plan_channels (fmt : ℚ → Text) (junk : APlaced → List Interpolation) (name : Text) (attrs : List (Text × Text)) (t : Text) (plan : List (Text × List (Text × APlaced))) :
    (Node.elem name attrs t (planNodes fmt junk plan)).children (text "channel") = (planCurves plan).map fun x => channelNode x.2.1 x.1 x.2.2 := by
  induction plan with
  | nil => rfl
  | cons p ps ih =>
    unfold planNodes at ih ⊢
    rw [List.flatMap_cons, children_append, ih, children_append, children_append, children_other, children_other, children_all, planCurves, planCurves, List.flatMap_cons, List.map_append, List.map_map]
    · rfl
    · intro k hk
      obtain ⟨x, _, rfl⟩ := List.mem_map.1 hk
      rfl
    · intro k hk
      obtain ⟨x, _, rfl⟩ := List.mem_map.1 hk
      rw [samplerNode, Node.name, Ne, text_inj]
      decide
    · intro k hk
      obtain ⟨x, _, hx⟩ := List.mem_flatMap.1 hk
      rw [source_names _ _ _ _ k hx, Ne, text_inj]
      decide

theorem keep_plan (ov : Ov) (pool : List Node) {b : Text × Text × APlaced → AChan} (xs : List (Text × Text × APlaced)) (h : ∀ x ∈ xs, loadChannel ov pool (channelNode x.2.1 x.1 x.2.2) = some (true, b x)) (done : List AChan) :
    (xs.map fun x => channelNode x.2.1 x.1 x.2.2).foldlM (keepChannel ov pool) (true, done) = some (true, done ++ xs.map b) := by
  induction xs generalizing done with
  | nil => simp
  | cons x xs ih =>
    rw [List.map_cons, List.foldlM_cons, keepChannel, h x List.mem_cons_self, Option.map_some, Option.bind_eq_bind, Option.bind_some]
    simp only [Bool.and_self, if_true]
    rw [ih (fun y hy => h y (List.mem_cons_of_mem _ hy)), List.append_assoc, List.map_cons]
    rfl

/-- A way to see that ids do not collide: those of the first `n` elements differ, and no other element has one. -/
theorem apart_of {ks : List Node} (n : Nat) (h1 : ((ks.take n).map nodeCrc).Nodup ∧ some 0#32 ∉ (ks.take n).map nodeCrc) (h2 : (ks.drop n).map (fun k => k.raw (text "id")) = List.replicate (ks.drop n).length none) : Apart ks := by
  have hd : ∀ y ∈ ks.drop n, y.raw (text "id") = none := fun y hy => List.eq_of_mem_replicate (h2 ▸ List.mem_map_of_mem (f := fun k : Node => k.raw (text "id")) hy)
  intro x hx hid y hy hxy
  rw [← List.take_append_drop n ks] at hx hy
  have hx' : x ∈ ks.take n := by
    rcases List.mem_append.1 hx with h | h
    · exact h
    · unfold Node.has at hid
      rw [hd x h] at hid
      exact absurd hid (by decide)
  rcases List.mem_append.1 hy with h | h
  · exact List.inj_on_of_nodup_map h1.1 hx' h hxy
  · have : nodeCrc y = some 0#32 := by unfold nodeCrc; rw [hd y h]
    exact absurd (List.mem_map.2 ⟨x, hx', hxy.trans this⟩) h1.2

end Verif.FArc
