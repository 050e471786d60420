import Verif.ArcFx
import Verif.ArcPassSpec
import Verif.ArcParamSpec
import Verif.ArcExtraSpec
import Verif.ArcTransSpec

/-!
# What a user expects of the saving and loading of codes, techniques and FX profiles
-/

namespace Verif.FArc

open Verif.FEff (Text text)
open Verif.FPass (Shader Pass Tech Sorted)

/-- A code that a file can hold. -/
def GoodCode (urls : Urls) (c : FxCode) : Prop := GoodSid c.sid ∧ if c.isInclude then Plain (urls.write c.file) else Plain c.code

/-- The code `d` loaded is the code `c` saved: the kind, the sub-id, and the text or the file. -/
def CodeBack (urls : Urls) (c d : FxCode) : Prop := d.isInclude = c.isInclude ∧ d.sid = c.sid ∧ if c.isInclude then d.file = urls.read (urls.write c.file) else d.code = c.code

/-- A pass that a file can hold; `ids` are the identities of the codes that its shaders may refer to. -/
structure GoodPass (ids : List Nat) (p : Pass) : Prop where
  name : Plain p.name
  states : ∀ s ∈ p.states, GoodRState s
  sorted : Sorted p.states
  shaders : ∀ s ∈ p.shaders, GoodShader { s with code := none } ∧ ∀ c, s.code = some c → c.id ∈ ids

/-- The pass `q` loaded is the pass `p` saved. -/
def PassBack (rnd : ℚ → ℚ) (tech : Tech) (p q : Pass) : Prop := q.name = p.name ∧ List.Forall₂ (StateBack rnd) p.states q.states ∧ List.Forall₂ (ShaderBack tech) p.shaders q.shaders

/-- A technique that a file can hold; `prof` are the codes of its profile. -/
structure GoodFxTech (urls : Urls) (prof : List FxCode) (t : FxTech) : Prop where
  name : Plain t.name
  codes : ∀ c ∈ t.codes, GoodCode urls c
  params : ∀ p ∈ t.params, GoodParm p
  passes : ∀ p ∈ t.passes, GoodPass ((t.codes ++ prof).map FxCode.id) p

/-- Codes with different sub-ids, or without. -/
def DistinctSids (cs : List FxCode) : Prop := cs.Pairwise fun a b => a.sid = b.sid → a.sid = []

/-- Saving changes nothing but sub-ids, which become different. -/
def CodesSaved (cs ds : List FxCode) : Prop := List.Forall₂ (fun c d => d = { c with sid := d.sid }) cs ds ∧ DistinctSids ds

/-- The technique `u` after saving is the technique `t` before, but for names and sub-ids. -/
structure TechSaved (prof : List FxCode) (t u : FxTech) : Prop where
  codes : CodesSaved t.codes u.codes
  params : u.params = t.params
  passes : List.Forall₂ (fun p q => q = { refreshPass (u.codes ++ prof) p with name := q.name }) t.passes u.passes

/-- The technique `u` loaded is the technique `t` saved; `prof` are the codes of the profile loaded. A technique without passes comes back with an empty one. -/
structure TechBack (rnd : ℚ → ℚ) (urls : Urls) (prof : List FxCode) (t u : FxTech) : Prop where
  name : u.name = t.name
  codes : List.Forall₂ (CodeBack urls) t.codes u.codes
  ids : u.codes.map FxCode.id = List.range' prof.length t.codes.length
  params : u.params = t.params.map (parmAfter rnd)
  passes : if t.passes = [] then u.passes = [{}] else List.Forall₂ (PassBack rnd ⟨u.codes.map FxCode.short, some (prof.map FxCode.short)⟩) t.passes u.passes

/-- A profile that a file can hold. -/
structure GoodFx (urls : Urls) (p : FxProfile) : Prop where
  platform : Plain p.platform
  codes : ∀ c ∈ p.codes, GoodCode urls c
  params : ∀ q ∈ p.params, GoodParm q
  techs : ∀ t ∈ p.techs, GoodFxTech urls p.codes t
  extra : Saveable p.extra ∨ FExtra.hasContent p.extra = false

/-- The profile `u` after saving is the profile `p` before, but for names and sub-ids. -/
structure FxSaved (p u : FxProfile) : Prop where
  platform : u.platform = p.platform
  codes : CodesSaved p.codes u.codes
  params : u.params = p.params
  techs : List.Forall₂ (TechSaved u.codes) p.techs u.techs
  extra : u.extra = p.extra

/-- The profile `u` loaded is the profile `p` saved, but for the parameters that change a value, which are lost. -/
structure FxBack (rnd : ℚ → ℚ) (urls : Urls) (p u : FxProfile) : Prop where
  platform : u.platform = p.platform
  codes : List.Forall₂ (CodeBack urls) p.codes u.codes
  ids : u.codes.map FxCode.id = List.range' 0 p.codes.length
  params : u.params = (p.params.filter fun q => decide (q.role = .generator)).map (parmAfter rnd)
  techs : List.Forall₂ (TechBack rnd urls u.codes) p.techs u.techs
  extra : u.extra = if FExtra.hasContent p.extra then p.extra else FExtra.newExtra

/-- Every code of a profile and of its techniques has a sub-id. -/
def AllSids (p : FxProfile) : Prop := (∀ c ∈ p.codes, c.sid ≠ []) ∧ ∀ t ∈ p.techs, ∀ c ∈ t.codes, c.sid ≠ []

end Verif.FArc
