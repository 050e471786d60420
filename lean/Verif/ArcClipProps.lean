import Verif.ArcClipLemmas
import Verif.ArcCamProps

/-!
# Animation clips are saved and loaded (C160)
-/

namespace Verif.FArc

open Verif.FEff (Text text)
open Verif.FConv (Ov DateTime Formats shown)

/-- **C160, partial.** What is written for a clip is read back: its common part, its start and its end, and an instance of each animation of which the clip has a curve, once each, in the order of the
curves. Saving leaves the clip as it was, but for the time of modification of its asset and the technique of the library if that is empty. Missing: the curves, the instances that the clip had and their
names (`clip_violated`, `clip_resaved_violated`); what C145 leaves out. -/
theorem clip_roundtrip_partial (ov : Ov) {fmt rnd} (hf : Formats fmt rnd) (now now' : DateTime) (hn : GoodDate now) (ids : Nat → Text) (c : Clip) (ts : List FExtra.Tech) (es : List FExtra.EType)
    (hx : c.ent.extra = ⟨[], ts⟩ :: es) (h : GoodEnt ov rnd c.ent) (ht : c.ent.target = []) (hids : ∀ a, some a ∈ c.curves → FXml.ValidId true (ids a)) :
    ∃ k c', writeClip ov fmt now ids c = some (k, c') ∧
      c' = { c with ent := { c.ent with asset := c.ent.asset.map fun a => { a with modified := now }, extra := if c.ent.note = [] then ⟨[], ts⟩ :: es else ⟨[], withoutTech ts⟩ :: es } } ∧
      loadClip ov now' {} k = some (clipAfter rnd ids c (entAfter ov rnd now c.ent (extraAfter c.ent ts es)),
        (if shown rnd c.stop - shown rnd c.start < tolerance then [.invalidTimes] else []) ++ [.emptyClip]) := by
  obtain ⟨as, ns, h1, h2, h3, h4⟩ := ent_back ov hf now now' hn (text "animation_clip") c.ent ts es hx h ht
  have hnote : c.curves.foldl noteAnim [] = clipAnims c := by
    rw [noteAnims, List.nil_append]
    unfold clipAnims
    congr 1
    exact List.filter_eq_self.2 fun _ _ => by simp
  have hmid : ∀ k ∈ (clipAnims c).map (animNode ids), k.name = text "instance_animation" := by
    intro k hk
    obtain ⟨a, -, rfl⟩ := List.mem_map.1 hk
    rfl
  have hgood : ∀ a ∈ clipAnims c, FXml.ValidId true (ids a) := by
    intro a ha
    refine hids a ?_
    have ha := List.mem_eraseDups.1 ha
    obtain ⟨b, hb, rfl⟩ := List.mem_filterMap.1 ha
    simpa using hb
  refine ⟨_, _, by unfold writeClip; rw [hnote, h3, Option.map_some], rfl, ?_⟩
  simp only [Node.name, Node.attrs, Node.kids]
  have hl := h4 ((clipAnims c).map (animNode ids)) (clipTimes fmt c) (fun k hk => by rw [hmid k hk]; simp [text_inj]) (by simp [clipTimes, text_inj])
  have hch : (Node.elem (text "animation_clip") (entAttrs true c.ent ++ clipTimes fmt c) [] (as ++ (clipAnims c).map (animNode ids) ++ ns)).children (text "instance_animation") =
      (clipAnims c).map (animNode ids) := by
    unfold Node.children
    simp only [Node.kids, List.filter_append]
    have e1 : as.filter (fun c => decide (c.name = text "instance_animation")) = [] := by
      rw [List.filter_eq_nil_iff]; intro k hk; simp [h1 k hk, text_inj]
    have e2 : ns.filter (fun c => decide (c.name = text "instance_animation")) = [] := by
      rw [List.filter_eq_nil_iff]; intro k hk; simp [h2 k hk, text_inj]
    have e3 : ((clipAnims c).map (animNode ids)).filter (fun c => decide (c.name = text "instance_animation")) = (clipAnims c).map (animNode ids) := by
      rw [List.filter_eq_self]; intro k hk; simp [hmid k hk]
    rw [e1, e2, e3]; simp
  have hp : ∀ ks, prop (some (.elem (text "animation_clip") (entAttrs true c.ent ++ clipTimes fmt c) [] ks)) (text "start") = some (numText fmt c.start) ∧
      prop (some (.elem (text "animation_clip") (entAttrs true c.ent ++ clipTimes fmt c) [] ks)) (text "end") = some (numText fmt c.stop) := by
    intro ks
    unfold entAttrs clipTimes
    by_cases hz : c.ent.name = [] <;> simp [prop, raw_cons, hz, text_inj, decode_plain (numText_plain hf _)]
  unfold loadClip
  rw [hl, Option.bind_some, if_neg (by simp [Node.name]), (hp _).1, Option.bind_some, readNum_numText ov hf, Option.bind_some, (hp _).2, Option.bind_some, readNum_numText ov hf, Option.bind_some,
    hch, loadAnims ov ids _ _ hgood rfl, Option.map_some]
  simp [clipAfter]

/-- **C160, violated.** Whatever the file holds, a clip that is loaded has no curves, so a warning about an empty clip is given for each, and saving it again writes no instance of an animation. -/
theorem clip_resaved_violated (ov : Ov) (fmt : ℚ → Text) (now now' : DateTime) (ids : Nat → Text) (n : Node) (c : Clip) (ws : List ClipWarning) (h : loadClip ov now {} n = some (c, ws)) :
    c.curves = [] ∧ (n.name = text "animation_clip" → .emptyClip ∈ ws) ∧ ∀ k c', writeClip ov fmt now' ids c = some (k, c') → k.children (text "instance_animation") = [] := by
  have hc : c.curves = [] ∧ (n.name = text "animation_clip" → .emptyClip ∈ ws) := by
    unfold loadClip at h
    obtain ⟨s, -, h⟩ := Option.bind_eq_some_iff.1 h
    by_cases hn : n.name = text "animation_clip"
    · rw [if_neg (fun e => e hn)] at h
      obtain ⟨_, -, h⟩ := Option.bind_eq_some_iff.1 h
      obtain ⟨_, -, h⟩ := Option.bind_eq_some_iff.1 h
      obtain ⟨_, -, h⟩ := Option.bind_eq_some_iff.1 h
      obtain ⟨_, -, h⟩ := Option.bind_eq_some_iff.1 h
      obtain ⟨d, hd, h⟩ := Option.map_eq_some_iff.1 h
      have hdc := loadAnims_curves ov _ _ _ hd
      obtain ⟨rfl, rfl⟩ := Prod.mk.inj h
      refine ⟨hdc, fun _ => ?_⟩
      rw [if_pos hdc]
      simp
    · rw [if_pos hn] at h
      obtain ⟨rfl, rfl⟩ := Prod.mk.inj (Option.some.inj h)
      exact ⟨rfl, fun e => absurd e hn⟩
  refine ⟨hc.1, hc.2, fun k c' hk => ?_⟩
  unfold writeClip at hk
  rw [hc.1] at hk
  obtain ⟨r, hr, hk⟩ := Option.map_eq_some_iff.1 hk
  obtain ⟨rfl, -⟩ := Prod.mk.inj hk
  have hs := (writeEnt_shape hr).2 (text "instance_animation") (by simp [text_inj]) (by simp [text_inj])
  unfold Node.child at hs
  simp only [List.foldl_nil, List.map_nil, List.find?_nil, List.find?_eq_none, decide_eq_true_eq] at hs
  exact children_other hs

/-- Ids of animations. -/
def clipIds (n : Nat) : Text := if n = 0 then text "walk" else text "run"

/-- A clip with curves of two animations and one curve without channel. -/
def sampleClip : Clip := { ent := { id := text "clip", name := text "steps" }, start := 1, stop := 3, curves := [some 1, some 0, none, some 1] }

example : GoodEnt .wrap (fun _ => 3 / 2) sampleClip.ent ∧ sampleClip.ent.extra = ⟨[], []⟩ :: [] ∧ sampleClip.ent.target = [] ∧
    (∀ a, some a ∈ sampleClip.curves → FXml.ValidId true (clipIds a)) ∧ clipAnims sampleClip = [1, 0] := by
  refine ⟨⟨hplain _ (by decide +kernel), ⟨by decide +kernel, by decide +kernel, by decide +kernel⟩, hplain _ (by decide), hplain _ (by decide +kernel), by simp [sampleClip],
    ⟨⟨_, rfl, rfl⟩, by decide +kernel, ?_⟩, ?_⟩, rfl, rfl, ?_, by decide +kernel⟩
  · intro t ht
    simp only [sampleClip, FExtra.newExtra, List.mem_singleton] at ht
    subst ht
    exact ⟨plain_nil, by decide, by simp⟩
  · intro t ht _
    simp only [sampleClip, FExtra.newExtra, List.mem_singleton] at ht
    subst ht
    simp [NoParams]
  · intro a _
    unfold clipIds
    by_cases h : a = 0
    · rw [if_pos h]; exact ⟨by decide +kernel, by decide +kernel, by decide +kernel⟩
    · rw [if_neg h]; exact ⟨by decide +kernel, by decide +kernel, by decide +kernel⟩

/-- The ids and names of the animations of a clip after saving and loading. -/
def reloadedClip (c : Clip) : Option (List Text × List Text × List ClipWarning) :=
  (writeClip .wrap fmt02 sampleDate clipIds c).bind fun k => (loadClip .wrap sampleDate {} k.1).map fun r => (r.1.anims.map (·.id), r.1.names, r.2)

/-- **C160, violated.** The instances that a clip has are not what is written: a clip with two named instances and no curves is written without any, one whose curves belong to another animation with an
instance of that one. -/
theorem clip_violated :
    reloadedClip { anims := [{ id := text "walk" }, { id := text "run" }], names := [text "a", text "b"], start := 0, stop := 2 } = some ([], [], [.emptyClip]) ∧
    reloadedClip { anims := [{ id := text "walk" }], names := [text "a"], curves := [some 1], start := 0, stop := 2 } = some ([text "run"], [[]], [.emptyClip]) := by
  refine ⟨?_, ?_⟩ <;> decide +kernel

end Verif.FArc
