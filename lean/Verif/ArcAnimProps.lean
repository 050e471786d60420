import Verif.ArcAnimPlan
import Verif.ArcSkinProps

/-! # Properties of saved and loaded animation curves -/

namespace Verif.FArc

open Verif.FStr (Ch)
open Verif.FEff (Text text)
open Verif.FConv (Ov Formats shown)
open Verif.Enum (Interpolation Infinity)

/-- The channels of any animation can be saved, and, unless the CRC-32 of two ids collide, they load: every curve comes back as a channel of its own with its pointer, its qualifier, its inputs, its outputs, its infinities and its driver,
in order. The interpolations that are read are `junk`, the values that the writer found in memory that it had not initialised, and the tangents and tensions follow these. -/
theorem channels_loaded (ov : Ov) {fmt : ℚ → Text} {rnd : ℚ → ℚ} (hf : Formats fmt rnd) (junk : APlaced → List Interpolation) {anim : Text} (ha : Plain anim) (chs : List (Text × List APlaced))
    (hc : ∀ ch ∈ chs, Pointer ch.1 ∧ ∀ c ∈ ch.2, GoodCurve c ∧ (junk c).length = c.keys.length) (name : Text) (attrs : List (Text × Text)) (t : Text) (before after around : List Node)
    (hb : ∀ k ∈ before ++ after, k.name ≠ text "channel") :
    ∃ es, writeChannels fmt junk anim chs = some es ∧ (Apart (before ++ es ++ after) →
      loadChannels ov (.elem name attrs t (before ++ es ++ after)) around = some (true, chs.flatMap fun ch => ch.2.map fun c => chanAs rnd (junk c) ch.1 c)) := by
  obtain ⟨plan, h1, h2, h3⟩ := plan_of fmt junk ha chs fun ch hm => ⟨(hc ch hm).1, fun c hx => ((hc ch hm).2 c hx).1⟩
  refine ⟨_, h1, fun hA => ?_⟩
  subst h2
  unfold loadChannels
  rw [show (Node.elem name attrs t (before ++ planNodes fmt junk plan ++ after)).kids = before ++ planNodes fmt junk plan ++ after from rfl,
    children_append, children_append, children_other fun k hk => hb k (List.mem_append_left _ hk), children_other fun k hk => hb k (List.mem_append_right _ hk), List.nil_append, List.append_nil, plan_channels]
  rw [keep_plan ov _ (b := fun x => chanAs rnd (junk x.2.2) x.1 x.2.2) (planCurves plan) ?_ [], List.nil_append]
  · congr 2
    clear * -
    induction plan with
    | nil => rfl
    | cons p ps ih => simp only [planCurves, List.flatMap_cons, List.map_append, List.map_map, List.map_cons] at ih ⊢; rw [ih]; rfl
  · intro x hx
    unfold planCurves at hx
    obtain ⟨p, hp, hx⟩ := List.mem_flatMap.1 hx
    obtain ⟨y, hy, rfl⟩ := List.mem_map.1 hx
    obtain ⟨g1, g2⟩ := hc (p.1, p.2.map (·.2)) (List.mem_map.2 ⟨p, hp, rfl⟩)
    obtain ⟨g3, g4⟩ := g2 y.2 (List.mem_map_of_mem hy)
    refine channel_back ov hf (h3 p hp y hy) g1 g3 g4 ?_ ?_ hA
    · intro s hs
      exact List.mem_append_left _ (List.mem_append_right _ (List.mem_flatMap.2 ⟨p, hp, List.mem_append_left _ (List.mem_append_left _ (List.mem_flatMap.2 ⟨y, hy, hs⟩))⟩))
    · exact List.mem_append_left _ (List.mem_append_right _ (List.mem_flatMap.2 ⟨p, hp, List.mem_append_left _ (List.mem_append_right _ (List.mem_map_of_mem hy))⟩))

/-- Whatever the interpolations of the keys of a curve are, those that are loaded are the values that the writer found in memory that it had not initialised. -/
theorem interpolations_violated (rnd : ℚ → ℚ) (is : List Interpolation) (pointer : Text) (c : APlaced) (h : is.length = c.keys.length) (hk : c.keys ≠ []) :
    (chanAs rnd is pointer c).curves.map (fun d => d.keys.map fun k => k.kind.interp) = [is] := by
  unfold chanAs
  rw [if_neg hk]
  simp only [List.map_cons, List.map_nil]
  congr 1
  unfold keysAs
  apply List.ext_getElem
  · simp [h]
  · intro j h1 h2
    simp only [List.getElem_map, List.getElem_mapIdx, keyAs_interp]
    simp [List.getD_eq_getElem?_getD, h2]

/-- Where that memory happens to hold the right interpolations, every curve with keys comes back with all its keys, its infinities and, unless its index is negative, its driver; the numbers are those that the file shows. -/
theorem channels_roundtrip_partial (ov : Ov) {fmt : ℚ → Text} {rnd : ℚ → ℚ} (hf : Formats fmt rnd) {anim : Text} (ha : Plain anim) (chs : List (Text × List APlaced))
    (hc : ∀ ch ∈ chs, Pointer ch.1 ∧ ∀ c ∈ ch.2, GoodCurve c ∧ c.keys ≠ [] ∧ ∀ d ∈ c.driver, 0 ≤ d.2) (name : Text) (attrs : List (Text × Text)) (t : Text) (before after around : List Node)
    (hb : ∀ k ∈ before ++ after, k.name ≠ text "channel") :
    ∃ es, writeChannels fmt (fun c => c.keys.map fun k => k.kind.interp) anim chs = some es ∧ (Apart (before ++ es ++ after) →
      loadChannels ov (.elem name attrs t (before ++ es ++ after)) around = some (true, chs.flatMap fun ch => ch.2.map fun c =>
        { pointer := ch.1, qual := fullQual c, curves := [⟨c.keys.map (shownKey rnd), c.pre, c.post⟩], driver := c.driver })) := by
  obtain ⟨es, h1, h2⟩ := channels_loaded ov hf (fun c => c.keys.map fun k => k.kind.interp) ha chs (fun ch hm => ⟨(hc ch hm).1, fun c hx => ⟨((hc ch hm).2 c hx).1, List.length_map ..⟩⟩) name attrs t before after around hb
  refine ⟨es, h1, fun hA => (h2 hA).trans ?_⟩
  congr 2
  refine List.flatMap_congr fun ch hm => List.map_congr_left fun c hx => ?_
  obtain ⟨-, g2, g3⟩ := (hc ch hm).2 c hx
  have := keysAs_own rnd c.keys []
  rw [List.append_nil] at this
  unfold chanAs
  rw [if_neg g2, this]
  congr 1
  cases h : c.driver with
  | none => rfl
  | some d => rw [Option.map_some, if_neg (by have := g3 d h; omega)]

/-! ## Findings -/

/-- An animation that is saved and loaded. -/
def reloadedAnim (junk : APlaced → List Interpolation) (chs : List (Text × List APlaced)) : Option (Bool × List AChan) :=
  (writeChannels fmtParts junk (text "a") chs).bind fun es => loadChannels .wrap (.elem (text "animation") [(text "id", text "a")] [] es) []

/-- The writer found zeros. -/
def zeros (c : APlaced) : List Interpolation := c.keys.map fun _ => .step

/-- The writer found what it should. -/
def lucky (c : APlaced) : List Interpolation := c.keys.map fun k => k.kind.interp

/-- A curve from 0 to `y` with linear keys. -/
def lineTo (y : ℚ) (qual : Text) : APlaced := { keys := [⟨0, 0, .linear⟩, ⟨1, y, .linear⟩], pre := .cycle, post := .oscillate, elem := -1, qual := qual, driver := none }

/-- A linear curve comes back with steps if the memory held zeros. A channel of two curves comes back as two channels. A curve without keys loses its infinities. A driver with a negative index gets the index zero. -/
theorem channels_violated :
    reloadedAnim zeros [(text "n/t", [lineTo (1 / 2) (text ".X")])] =
      some (true, [{ pointer := text "n/t", qual := text ".X", curves := [{ keys := [⟨0, 0, .step⟩, ⟨1, 1 / 2, .step⟩], pre := .cycle, post := .oscillate }] }]) ∧
    reloadedAnim lucky [(text "n/t", [lineTo (1 / 2) (text ".X"), lineTo (1 / 4) (text ".Y")])] =
      some (true, [{ pointer := text "n/t", qual := text ".X", curves := [{ keys := [⟨0, 0, .linear⟩, ⟨1, 1 / 2, .linear⟩], pre := .cycle, post := .oscillate }] },
                   { pointer := text "n/t", qual := text ".Y", curves := [{ keys := [⟨0, 0, .linear⟩, ⟨1, 1 / 4, .linear⟩], pre := .cycle, post := .oscillate }] }]) ∧
    reloadedAnim lucky [(text "n/t", [{ lineTo 1 (text ".X") with keys := [] }])] = some (true, [{ pointer := text "n/t", qual := text ".X", curves := [{}] }]) ∧
    (reloadedAnim lucky [(text "n/t", [{ lineTo 1 (text ".X") with driver := some (text "m/t", -1) }])]).map (fun r => r.2.map (·.driver)) = some [some (text "m/t", 0)] := by
  refine ⟨?_, ?_, ?_, ?_⟩ <;> decide +kernel

/-- Two ids with the same CRC-32: the second channel is loaded with the curve of the first. -/
theorem collision_violated :
    reloadedAnim lucky [(text "plumless", [lineTo (1 / 2) []]), (text "buckeroo", [lineTo (1 / 4) []])] =
      some (true, [{ pointer := text "plumless", curves := [{ keys := [⟨0, 0, .linear⟩, ⟨1, 1 / 2, .linear⟩], pre := .cycle, post := .oscillate }] },
                   { pointer := text "buckeroo", curves := [{ keys := [⟨0, 0, .linear⟩, ⟨1, 1 / 2, .linear⟩], pre := .cycle, post := .oscillate }] }]) := by
  decide +kernel

/-- A channel that cannot be loaded takes all later channels with it: whatever they are, none is kept. -/
theorem failed_channel_violated (ov : Ov) (pool ks : List Node) (done : List AChan) (h : ∀ k ∈ ks, (loadChannel ov pool k).isSome = true) : ks.foldlM (keepChannel ov pool) (false, done) = some (false, done) := by
  induction ks with
  | nil => rfl
  | cons k ks ih =>
    obtain ⟨r, hr⟩ := Option.isSome_iff_exists.1 (h k List.mem_cons_self)
    rw [List.foldlM_cons, keepChannel, hr, Option.map_some, Option.bind_eq_bind, Option.bind_some]
    exact ih fun x hx => h x (List.mem_cons_of_mem _ hx)

/-! ## Examples -/

/-- Curves of the three kinds with tangents, tensions, eases, infinities and a driver. -/
def sampleCurves : List APlaced := [
  { keys := [⟨0, 0, .bezier (0, 1) (1 / 2, 1)⟩, ⟨1, 1 / 2, .linear⟩], pre := .cycle, post := .linear, elem := -1, qual := text ".X", driver := none },
  { keys := [⟨0, 1 / 4, .tcb 0 1 (1 / 2) (1 / 4) 1⟩, ⟨1, 1, .tcb 1 1 1 0 0⟩], pre := .constant, post := .oscillate, elem := 3, qual := text "(1)", driver := some (text "m/t", 2) }]

example : (reloadedAnim lucky [(text "n/t", sampleCurves.drop 1)]) =
    some (true, [{ pointer := text "n/t", qual := text "(3)(1)", curves := [{ keys := [⟨0, 1 / 4, .tcb 0 1 (1 / 2) (1 / 4) 1⟩, ⟨1, 1, .tcb 1 1 1 0 0⟩], pre := .constant, post := .oscillate }], driver := some (text "m/t", 2) }]) := by
  decide +kernel

/-- The conditions are met by them. -/
example : Plain (text "a") ∧ Pointer (text "n/t") ∧ ∀ c ∈ sampleCurves, GoodCurve c ∧ (lucky c).length = c.keys.length ∧ c.keys ≠ [] ∧ ∀ d ∈ c.driver, 0 ≤ d.2 := by
  refine ⟨hplain _ (by decide), ⟨hplain _ (by decide), by decide, by decide, by decide⟩, ?_⟩
  intro c hc
  simp only [sampleCurves, List.mem_cons, List.not_mem_nil, or_false] at hc
  rcases hc with rfl | rfl
  · refine ⟨⟨by decide, by decide, by decide, ⟨hplain _ (by decide), Or.inr ⟨_, Or.inr (Or.inr rfl)⟩⟩, by decide +kernel, fun _ h => nomatch h⟩, rfl, by decide, fun _ h => nomatch h⟩
  · refine ⟨⟨by decide, by decide, by decide, ⟨hplain _ (by decide), Or.inr ⟨_, Or.inl rfl⟩⟩, by decide +kernel, ?_⟩, rfl, by decide, ?_⟩
    · intro d hd
      rw [Option.mem_def, Option.some.injEq] at hd
      subst hd
      exact ⟨⟨hplain _ (by decide), by decide, by decide, by decide⟩, by decide⟩
    · intro d hd
      rw [Option.mem_def, Option.some.injEq] at hd
      subst hd
      decide

/-- The ids of the elements written for them do not collide. -/
example : ∃ es, writeChannels fmtParts lucky (text "a") [(text "n/t", sampleCurves)] = some es ∧ es.length = 14 ∧ Apart es := by
  have h : (writeChannels fmtParts lucky (text "a") [(text "n/t", sampleCurves)]).map (fun es => decide (es.length = 14 ∧ (((es.take 12).map nodeCrc).Nodup ∧ some 0#32 ∉ (es.take 12).map nodeCrc) ∧
      (es.drop 12).map (fun k => k.raw (text "id")) = List.replicate (es.drop 12).length none)) = some true := by decide +kernel
  obtain ⟨es, h1, h2⟩ := Option.map_eq_some_iff.1 h
  obtain ⟨h3, h4, h5⟩ := of_decide_eq_true h2
  exact ⟨es, h1, h3, apart_of 12 h4 h5⟩

end Verif.FArc
