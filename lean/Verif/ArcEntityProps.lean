import Verif.ArcEntityAux
import Verif.ArcEntityLemmas

/-!
# Entities are saved and loaded (C145)
-/

namespace Verif.FArc

open Verif.FEff (Text text)
open Verif.FConv (Ov DateTime Formats shown)

/-- **C145, partial.** What is written for an entity is read back: id, name (one made of the id if it has none), note, asset, extra tree and the address of its target; saving changes the entity only in the time of
modification of its asset and by releasing the technique of the library if that is empty. Missing: texts with `%`, parameters called as the note or the target (`entity_violated`), and what
C143 and C144 leave out. -/
theorem entity_roundtrip_partial (ov : Ov) {fmt rnd} (hf : Formats fmt rnd) (now now' : DateTime) (hn : GoodDate now) (elem : Text) (he : elem ≠ text "extra") (s : Ent) (ts : List FExtra.Tech)
    (es : List FExtra.EType) (hx : s.extra = ⟨[], ts⟩ :: es) (h : GoodEnt ov rnd s) (mid : List Node) (hm : ∀ k ∈ mid, k.name ≠ text "asset" ∧ k.name ≠ text "extra" ∧ k.name ≠ text "technique") :
    ∃ k, writeEnt ov fmt now elem s mid =
        some (k, { s with asset := s.asset.map fun a => { a with modified := now }, extra := if s.note = [] ∧ s.target = [] then ⟨[], ts⟩ :: es else ⟨[], withoutTech ts⟩ :: es }) ∧
      loadTargeted ov now' {} k = some
        ({ id := s.id, name := nameAfter s.id s.name, note := s.note, asset := s.asset.map (assetAfter ov rnd now), extra := extraAfter s ts es },
          if s.target = [] then [] else 35 :: s.target) := by
  have hs := h.extra
  rw [hx] at hs
  have hp : NoParams ts := h.params ⟨[], ts⟩ (by rw [hx]; simp) rfl
  obtain ⟨ns, w1, w2, us, w3, vs, es', rfl, w4⟩ := extra_load ts es s hs hp h.note h.target
  have ha : ∃ as, writeEntAsset ov fmt now s.asset = some (as, s.asset.map fun a => { a with modified := now }) ∧ (∀ k ∈ as, k.name = text "asset") ∧
      ∀ attrs, loadEntAsset ov now' none (.elem elem attrs [] (as ++ mid ++ ns)) = some (s.asset.map (assetAfter ov rnd now)) := by
    have hfind : ∀ l : List Node, (∀ k ∈ l, k.name ≠ text "asset") → l.find? (fun c => decide (c.name = text "asset")) = none := by
      intro l hl
      rw [List.find?_eq_none]
      intro k hk
      simpa using hl k hk
    have hrest : ∀ k ∈ mid ++ ns, k.name ≠ text "asset" := by
      intro k hk
      rcases List.mem_append.1 hk with hk | hk
      · exact (hm k hk).1
      · rw [w2 k hk]; simp [text_inj]
    cases hsa : s.asset with
    | none =>
      refine ⟨[], rfl, by simp, fun attrs => ?_⟩
      unfold loadEntAsset Node.child
      simp only [Node.kids, List.nil_append]
      rw [hfind _ hrest]
      rfl
    | some a =>
      obtain ⟨k, k1, k2⟩ := asset_roundtrip_partial ov hf now now' a hn (h.asset a hsa)
      have kn : k.name = text "asset" := by
        unfold writeAsset at k1
        obtain ⟨cs, -, k1⟩ := Option.map_eq_some_iff.1 k1
        rw [← (Prod.mk.inj k1).1]; rfl
      refine ⟨[k], ?_, by simpa using kn, fun attrs => ?_⟩
      · simp [writeEntAsset, k1]
      · unfold loadEntAsset Node.child
        simp only [Node.kids, List.cons_append, List.find?_cons, kn, decide_true]
        simp only [Option.getD_none, k2, Option.map_some]
        rfl
  obtain ⟨as, a1, a2, a3⟩ := ha
  refine ⟨.elem elem (entAttrs true s) [] (as ++ mid ++ ns), ?_, ?_⟩
  · unfold writeEnt
    rw [a1, Option.bind_some, hx, w1, Option.map_some]
  · have hid : prop (some (.elem elem (entAttrs true s) [] (as ++ mid ++ ns))) (text "id") = some s.id := by
      simp [prop, entAttrs, raw_cons, decode_plain h.id]
    have hname : prop (some (.elem elem (entAttrs true s) [] (as ++ mid ++ ns))) (text "name") = some s.name := by
      by_cases hn : s.name = []
      · simp [prop, entAttrs, raw_cons, hn, text_inj]
      · simp [prop, entAttrs, raw_cons, hn, text_inj, decode_plain (valid_plain h.name)]
    have hch : (Node.elem elem (entAttrs true s) [] (as ++ mid ++ ns)).children (text "extra") = ns := by
      unfold Node.children
      simp only [Node.kids, List.filter_append]
      have e1 : as.filter (fun c => decide (c.name = text "extra")) = [] := by
        rw [List.filter_eq_nil_iff]; intro k hk; simp [a2 k hk, text_inj]
      have e2 : mid.filter (fun c => decide (c.name = text "extra")) = [] := by
        rw [List.filter_eq_nil_iff]; intro k hk; simp [(hm k hk).2.1]
      have e3 : ns.filter (fun c => decide (c.name = text "extra")) = ns := by
        rw [List.filter_eq_self]; intro k hk; simp [w2 k hk]
      rw [e1, e2, e3]; rfl
    have htech : (Node.elem elem (entAttrs true s) [] (as ++ mid ++ ns)).children (text "technique") = [] := by
      unfold Node.children
      rw [List.filter_eq_nil_iff]
      intro k hk
      simp only [Node.kids, List.mem_append] at hk
      rcases hk with (hk | hk) | hk
      · simp [a2 k hk, text_inj]
      · simp [(hm k hk).2.2]
      · simp [w2 k hk, text_inj]
    unfold loadTargeted loadEnt
    rw [hid, Option.bind_some, hname, Option.bind_some, givenName_good h.id h.name, Option.bind_some, a3, Option.bind_some, hch, w3, Option.map_some, Option.bind_some]
    have hsw : loadExtra (⟨[], vs⟩ :: es') (.elem elem (entAttrs true s) [] (as ++ mid ++ ns)) = some (⟨[], vs⟩ :: es') := by
      unfold loadExtra typeFor
      rw [if_neg (show ¬ (Node.elem elem (entAttrs true s) [] (as ++ mid ++ ns)).name = text "extra" from he), findType_head, Option.map_some, Option.bind_some]
      simp [loadType, htech, -List.append_assoc]
    simp only [hsw, Option.bind_some, defaultTechs_head]
    cases ht : takeTarget vs with
    | none =>
      rw [ht] at w4
      obtain ⟨w5, w6⟩ := Prod.mk.inj w4
      simp only [w5, ← w6]
    | some r =>
      rw [ht] at w4
      obtain ⟨w5, w6⟩ := Prod.mk.inj w4
      simp only [onDefault_head, Option.map_some, w5, w6]

/-- An entity with everything. -/
def sampleEnt : Ent :=
  { id := text "box", name := text "Box", note := text "a note", target := text "aim", asset := some sampleAsset,
    extra := [⟨[], [⟨text "MAYA", .mk [] [] [] [.mk (text "g") (text "a b") [] []]⟩]⟩] }

example : GoodEnt .wrap (fun _ => 3 / 2) { sampleEnt with asset := none } ∧ withTech [⟨text "MAYA", FExtra.blank⟩] = [⟨text "MAYA", FExtra.blank⟩, ⟨text "FCOLLADA", FExtra.blank⟩] := by
  have hpl : ∀ t : Text, (∀ c ∈ t, (1 ≤ c ∧ c ≤ 127) ∧ c ≠ 37) → Plain t := fun t h c hc =>
    ⟨⟨Int.le_trans (by decide) (h c hc).1.1, (h c hc).1.2, fun e => absurd (e ▸ (h c hc).1.1 : (1 : Int) ≤ 0) (by decide)⟩, (h c hc).2⟩
  refine ⟨⟨hpl _ (by decide), ⟨by decide, by decide, by decide⟩, hpl _ (by decide), hpl _ (by decide), by simp, ⟨⟨_, rfl, rfl⟩, by decide +kernel, ?_⟩, ?_⟩, rfl⟩
  · intro t ht
    simp only [sampleEnt, List.mem_cons, List.not_mem_nil, or_false] at ht
    subst ht
    refine ⟨plain_nil, by decide +kernel, fun x hx => ?_⟩
    simp only [List.mem_cons, List.not_mem_nil, or_false] at hx
    subst hx
    refine ⟨hpl _ (by decide), rfl, fun c hc => ?_⟩
    simp only [FExtra.Node.children, List.mem_cons, List.not_mem_nil, or_false] at hc
    subst hc
    refine (FExtra.within_iff SaveHere _).2 ⟨⟨⟨⟨103, rfl, .inl ((FExtra.letter_iff 103).2 (.inl ⟨by decide, by decide⟩))⟩, ?_⟩, hpl _ (by decide), fun h => h.2 rfl, ?_, by decide⟩,
      fun c hc => by simp [FExtra.Node.children] at hc⟩
    · intro d hd
      have : d = 103 := by simpa [FExtra.Node.name, text] using hd
      subst this
      exact .inl ((FExtra.letter_iff 103).2 (.inl ⟨by decide, by decide⟩))
    · intro a ha
      simp [FExtra.Node.attrs] at ha
  · intro t ht _ x hx c hc
    simp only [sampleEnt, List.mem_cons, List.not_mem_nil, or_false] at ht
    subst ht
    simp only [List.mem_cons, List.not_mem_nil, or_false] at hx
    subst hx
    simp only [FExtra.Node.children, List.mem_cons, List.not_mem_nil, or_false] at hc
    subst hc
    simp [FExtra.Node.name, text_inj]

/-- What an entity is after saving and loading. -/
def reloadedEnt (s : Ent) : Option (Ent × Text) := (writeEnt .wrap (fun _ => []) sampleDate (text "camera") s []).bind fun k => loadTargeted .wrap sampleDate {} k.1

/-- **C145, violated.** A parameter of the user called `note` becomes the note of the entity, and one called `target` in any profile its target; both are gone from the extra tree. A `%` in the id or the
name is taken for the start of a number. -/
theorem entity_violated :
    reloadedEnt { id := text "c", name := text "d", extra := [⟨[], [⟨text "MAYA", .mk [] [] [] [.mk (text "note") (text "x") [] []]⟩]⟩] } =
      some ({ id := text "c", name := text "d", note := text "x", extra := [⟨[], [⟨text "MAYA", .mk [] [] [] []⟩]⟩] }, []) ∧
    reloadedEnt { id := text "c", name := text "d", extra := [⟨[], [⟨text "GAME", .mk [] [] [] [.mk (text "target") (text "x") [] []]⟩]⟩] } =
      some ({ id := text "c", name := text "d", extra := [⟨[], [⟨text "GAME", .mk [] [] [] []⟩]⟩] }, text "x") ∧
    reloadedEnt { id := text "c", name := text "%41" } = some ({ id := text "c", name := text "A" }, []) := by
  refine ⟨?_, ?_, ?_⟩ <;> (set_option maxRecDepth 20000 in rfl)

/-- C145: an entity that is loaded over keeps its asset if the element has none or an empty one. -/
theorem asset_kept (ov : Ov) (now : DateTime) (s r : Ent) (n : Node) (h : loadEnt ov now s n = some r) (a : QAsset) (hs : s.asset = some a) (hk : ∀ k, n.child (text "asset") = some k → k.kids = []) :
    r.asset = some a := by
  unfold loadEnt at h
  obtain ⟨_, -, h⟩ := Option.bind_eq_some_iff.1 h
  obtain ⟨_, -, h⟩ := Option.bind_eq_some_iff.1 h
  obtain ⟨_, -, h⟩ := Option.bind_eq_some_iff.1 h
  obtain ⟨b, hb, h⟩ := Option.bind_eq_some_iff.1 h
  obtain ⟨_, -, rfl⟩ := Option.map_eq_some_iff.1 h
  unfold loadEntAsset at hb
  cases hc : n.child (text "asset") with
  | none => simpa [hc, hs] using hb.symm
  | some k => simpa [hc, hs, loadAsset, hk k hc] using hb.symm

example : ∃ r, loadEnt .wrap sampleDate { asset := some { FEnt.newAsset sampleDate with title := text "t" } } (.elem (text "camera") [(text "id", text "c")] [] [.elem (text "asset") [] [] []]) = some r ∧
    r.asset.map (·.title) = some (text "t") := ⟨_, rfl, rfl⟩

end Verif.FArc
