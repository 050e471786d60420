import Verif.FxClone
import Verif.FxParamSpec
import Verif.PassSpec

/-! # What a user expects of copies of effects and materials -/

namespace Verif.FFx

open Verif.FEff (Text text Role)
open Verif.FPass (Pass Tech)

variable {K : Type}

/-- What a user sees of a code. -/
def Code.seen (c : Code) : Text × Nat × Text × Text := (c.sid, c.type, c.file, c.code)

/-- The parameters of the copy are the copies of the parameters, one for one (C128). -/
def LikeParams [Zero K] [One K] (l l' : List (Obj K)) : Prop := l'.map Obj.param = l.map fun o => o.param.clone

/-- The copy of a shader uses the code in the place of the code of the original; none when the original has none. -/
inductive SameCode (all all' : List FPass.Code) : Option FPass.Code → Option FPass.Code → Prop
  | none : SameCode all all' none none
  | some (i : Nat) (c c' : FPass.Code) : all[i]? = some c → all'[i]? = some c' → SameCode all all' (some c) (some c')

/-- A pass and its copy, where `all` and `all'` are the codes within reach. -/
structure LikePass (all all' : List FPass.Code) (p q : Pass) : Prop where
  name : q.name = p.name
  shaders : q.shaders.map FPass.Shader.seen = p.shaders.map FPass.Shader.seen
  states : q.states.map FPass.RState.seen = p.states.map FPass.RState.seen
  codes : List.Forall₂ (SameCode all all') (p.shaders.map FPass.Shader.code) (q.shaders.map FPass.Shader.code)

/-- The codes within reach of the passes of a technique of a profile. -/
def reach (codes : List Code) (t : Technique K) : List FPass.Code := (t.codes ++ codes).map Code.short

/-- A technique and its copy, in profiles with the codes `pc` and `pc'`. -/
structure LikeTechnique [Zero K] [One K] (pc pc' : List Code) (t u : Technique K) : Prop where
  name : u.name = t.name
  params : LikeParams t.params u.params
  codes : u.codes.map Code.seen = t.codes.map Code.seen
  passes : List.Forall₂ (LikePass (reach pc t) (reach pc' u)) t.passes u.passes

/-- An FX profile and its copy, apart from the platform. -/
structure LikeFX [Zero K] [One K] (p q : ProfileFX K) : Prop where
  type : q.type = p.type
  params : LikeParams p.params q.params
  codes : q.codes.map Code.seen = p.codes.map Code.seen
  techniques : List.Forall₂ (LikeTechnique p.codes q.codes) p.techniques q.techniques

/-- A technique made by calls: the passes are, the sub ids of the codes within reach are distinct and the shaders use these codes only. -/
structure GoodTechnique (codes : List Code) (t : Technique K) : Prop where
  made : ∀ o ∈ t.params, Made o.param.body
  passes : ∀ p ∈ t.passes, ∃ l, FPass.Reach p l
  distinct : ((t.codes ++ codes).map Code.sid).Nodup
  within : ∀ p ∈ t.passes, ∀ s ∈ p.shaders, ∀ c, s.code = some c → c ∈ reach codes t

/-- An FX profile made by calls. -/
structure GoodFX (p : ProfileFX K) : Prop where
  made : ∀ o ∈ p.params, Made o.param.body
  techniques : ∀ t ∈ p.techniques, GoodTechnique p.codes t

/-- The parameters of a document after some were added. -/
def extend (heap : Nat → Option (Param K)) (l : List (Obj K)) (i : Nat) : Option (Param K) :=
  match l.find? fun o => decide (o.id = i) with
  | some o => some o.param
  | none => heap i

/-- The numbers of parameters and of the surfaces they track are below `n`. -/
def Sound (heap : Nat → Option (Param K)) (n : Nat) : Prop :=
  ∀ i p, heap i = some p → i < n ∧ ∀ s, p.body = .sampler s → ∀ j, s.surface = some j → j < n

/-- A texture and its copy: the same set and the same image, before and after. -/
structure LikeTexture (heap heap' : Nat → Option (Param K)) (t u : Texture K) : Prop where
  set : u.set = t.set
  image : u.image heap' = t.image heap

/-- The two slots have the same value and the same curves. -/
def SameSlot (a b : Param K) : Prop := ∃ s h v c s' h', a.body = .num s h v c ∧ b.body = .num s' h' v c

/-- A standard profile and its copy, in what is copied. -/
structure LikeStandard (heap heap' : Nat → Option (Param K)) (s c : Standard K) : Prop where
  type : c.type = s.type
  mode : c.mode = s.mode
  emissionFactor : c.emissionFactor = s.emissionFactor
  textures : List.Forall₂ (List.Forall₂ (LikeTexture heap heap')) s.textures c.textures
  slots : List.Forall₂ SameSlot s.slots c.slots

/-- A standard profile made by calls: the sets are integers, the twelve slots are numbers. -/
structure GoodStandard (s : Standard K) : Prop where
  made : ∀ o ∈ s.params, Made o.param.body
  sets : ∀ c ∈ s.textures, ∀ t ∈ c, ∃ n, t.set.body = .int n
  count : s.slots.length = 12
  slots : ∀ p ∈ s.slots, ∃ sh h v c, p.body = .num sh h v c

/-- The samplers of the textures, channel by channel. -/
def samplers (heap : Nat → Option (Param K)) (s : Standard K) : List (Param K) := s.textures.flatten.filterMap fun t => t.sampler.bind heap

/-- A profile and its copy. -/
inductive LikeProfile [Zero K] [One K] (heap heap' : Nat → Option (Param K)) : Profile K → Profile K → Prop
  | standard {s c : Standard K} : LikeStandard heap heap' s c → LikeProfile heap heap' (.standard s) (.standard c)
  | fx {p q : ProfileFX K} : LikeFX p q → LikeProfile heap heap' (.fx p) (.fx q)

/-- A profile made by calls; an FX profile was not given the type COMMON afterwards. -/
def GoodProfile : Profile K → Prop
  | .standard s => GoodStandard s
  | .fx p => GoodFX p ∧ p.type ≠ common

/-- All the parameters of a profile that its samplers and textures may need. -/
def Profile.params : Profile K → List (Obj K)
  | .standard s => s.params
  | .fx p => p.params

end Verif.FFx
