import Verif.FxParam
import Verif.Pass

/-!
# Model of the copies of effects (FCDocument/FCDEffectProfile.cpp, FCDEffectProfileFX.cpp, FCDEffectTechnique.cpp, FCDEffectCode.cpp, FCDEffectStandard.cpp, FCDTexture.cpp, FCDEffect.cpp, FCDMaterial.cpp)

Objects are told apart by numbers; a counter gives the number of the next one. Extra trees are left out (their copies are C92-C94), and so are the flags of changed objects. The parameters of a document are
reached by their numbers through a table of type `Nat → Option (Param K)`; a tracked pointer to a released parameter finds nothing.
-/

namespace Verif.FFx

open Verif.FEff (Text text Role)
open Verif.FPass (Pass Tech)

variable {K : Type}

/-- A parameter with its number. -/
structure Obj (K : Type) where
  id : Nat
  param : Param K
deriving DecidableEq

/-- FCDEffectCode.h 49-52: a code; `type` tells included files from text. -/
structure Code where
  id : Nat
  sid : Text
  type : Nat
  file : Text
  code : Text
deriving DecidableEq

/-- What a shader refers to. -/
def Code.short (c : Code) : FPass.Code := ⟨c.id, c.sid⟩

/-- FCDEffectTechnique.h 52-55: a technique. -/
structure Technique (K : Type) where
  name : Text := []
  params : List (Obj K) := []
  codes : List Code := []
  passes : List Pass := []

/-- FCDEffectProfile.h 46, FCDEffectProfileFX.h 59-63: an FX profile. -/
structure ProfileFX (K : Type) where
  type : Nat
  platform : Text := []
  params : List (Obj K) := []
  codes : List Code := []
  techniques : List (Technique K) := []

/-- FCDTexture.h 63-64: a texture. The sampler is a tracked pointer. -/
structure Texture (K : Type) where
  set : Param K
  sampler : Option Nat := none
deriving DecidableEq

/-- FCDEffectStandard.h 108-154: a standard profile. `textures` has the twelve channels in the order of FUDaeEnum.h 116-127, `slots` the twelve colours and factors in the order of FCDEffectStandard.cpp
265-269. -/
structure Standard (K : Type) where
  params : List (Obj K) := []
  type : Nat
  textures : List (List (Texture K))
  mode : Nat
  emissionFactor : Bool
  reflective : Bool
  refractive : Bool
  slots : List (Param K)

/-- A profile of an effect. -/
inductive Profile (K : Type) where
  | standard (s : Standard K)
  | fx (p : ProfileFX K)

/-- FCDEffect.h 57-58 and FCDEntity.h 86, 89: an effect. -/
structure Effect (K : Type) where
  name : Text := []
  note : Text := []
  profiles : List (Profile K) := []
  params : List (Obj K) := []

/-- FUDaeEnum.h 343-349: the number of the profile type COMMON. -/
def common : Nat := 4

/-- FCDEffectStandard.h 180, FCDEffectProfileFX.h 79: `GetType`. -/
def Profile.type : Profile K → Nat
  | .standard _ => common
  | .fx p => p.type

section Clone

variable [Zero K] [One K]

/-- FCDEffectProfile.cpp 43-48, FCDEffectTechnique.cpp 67-72, FCDEffect.cpp 113-118, FCDMaterial.cpp 103-108: the parameters are added one by one. The result has the number of the next object. -/
def cloneParams : List (Obj K) → List (Obj K) × Nat → List (Obj K) × Nat
  | [], acc => acc
  | o :: l, acc => cloneParams l (acc.1 ++ [⟨acc.2, o.param.copy⟩], acc.2 + 1)

/-- FCDEffectCode.cpp 41-49: `Clone` into a new code. -/
def Code.cloneInto (c : Code) (id : Nat) : Code := ⟨id, c.sid, c.type, c.file, c.code⟩

/-- FCDEffectProfileFX.cpp 89-93, FCDEffectTechnique.cpp 76-79: the codes. -/
def cloneCodes : List Code → List Code × Nat → List Code × Nat
  | [], acc => acc
  | c :: l, acc => cloneCodes l (acc.1 ++ [c.cloneInto acc.2], acc.2 + 1)

/-- FCDEffectTechnique.cpp 83-86: the passes. A pass numbers its own objects. -/
def clonePasses (tech : Tech) : List Pass → List Pass → Option (List Pass)
  | [], acc => some acc
  | p :: l, acc => (p.cloneInto (some tech) {}).bind fun q => clonePasses tech l (acc ++ [q])

/-- FCDEffectTechnique.cpp 62-89: `Clone` into a new technique of a profile with the codes `codes`. -/
def Technique.cloneInto (codes : List Code) (t : Technique K) (n : Nat) : Option (Technique K × Nat) :=
  let ps := cloneParams t.params ([], n)
  let cs := cloneCodes t.codes ([], ps.2)
  (clonePasses ⟨cs.1.map Code.short, some (codes.map Code.short)⟩ t.passes []).map fun l => (⟨t.name, ps.1, cs.1, l⟩, cs.2)

/-- FCDEffectProfileFX.cpp 97-101: the techniques. -/
def cloneTechniques (codes : List Code) : List (Technique K) → List (Technique K) × Nat → Option (List (Technique K) × Nat)
  | [], acc => some acc
  | t :: l, acc => (t.cloneInto codes acc.2).bind fun r => cloneTechniques codes l (acc.1 ++ [r.1], r.2)

/-- FCDEffectProfileFX.cpp 75-104: `Clone` into a new FX profile `dst`. -/
def ProfileFX.cloneInto (p dst : ProfileFX K) (n : Nat) : Option (ProfileFX K × Nat) :=
  let ps := cloneParams p.params (dst.params, n)
  let cs := cloneCodes p.codes (dst.codes, ps.2)
  (cloneTechniques cs.1 p.techniques (dst.techniques, cs.2)).map fun r => (⟨p.type, dst.platform, ps.1, cs.1, r.1⟩, r.2)

/-- FCDTexture.cpp 38-47: a new texture. -/
def newTexture : Texture K := ⟨newParam (.int (-1)), none⟩

/-- FCDTexture.cpp 120-133: `Clone` of a texture into a new texture of a standard profile with the parameters `params`; `GetSampler` (55-63) adds a sampler to the profile. The result: the texture, the
parameters of the profile and the number of the next object. -/
def Texture.clone (heap : Nat → Option (Param K)) (t : Texture K) (params : List (Obj K)) (n : Nat) : Texture K × List (Obj K) × Nat :=
  match t.sampler.bind heap with
  | none => (⟨t.set.cloneInto newTexture.set, none⟩, params, n)
  | some s => (⟨t.set.cloneInto newTexture.set, some n⟩, params ++ [⟨n, s.cloneInto (create .sampler)⟩], n + 1)

/-- FCDEffectStandard.cpp 255-259: the textures of one channel. -/
def cloneChannel (heap : Nat → Option (Param K)) : List (Texture K) → List (Texture K) → List (Obj K) × Nat → List (Texture K) × List (Obj K) × Nat
  | [], acc, st => (acc, st)
  | t :: l, acc, st =>
    let r := t.clone heap st.1 st.2
    cloneChannel heap l (acc ++ [r.1]) r.2

/-- FCDEffectStandard.cpp 252-260: the channels one after the other; those of the clone have none before. -/
def cloneChannels (heap : Nat → Option (Param K)) : List (List (Texture K)) → List (List (Texture K)) → List (Obj K) × Nat → List (List (Texture K)) × List (Obj K) × Nat
  | [], acc, st => (acc, st)
  | c :: l, acc, st =>
    let r := cloneChannel heap c [] st
    cloneChannels heap l (acc ++ [r.1]) r.2

/-- FCDEffectStandard.cpp 263: `CLONE_ANIMATED`: the value, and the curves when there are some. -/
def cloneSlot (src dst : Param K) : Param K :=
  match src.body, dst.body with
  | .num _ _ v c, .num s h _ c' => { dst with body := .num s h v (c.orElse fun _ => c') }
  | _, _ => dst

/-- FCDEffectStandard.cpp 104-139: the twelve slots of a new profile: the colours are constant, with their value; then the factors. The order is that of FCDEffectStandard.cpp 265-269. -/
def newSlots [OfNat K 20] : List (Param K) :=
  let slot (s : Shape) (v : List K) : Param K := ⟨.constant, [], [], [], .num s false v none⟩
  [slot .color4 [0, 0, 0, 1], slot .float [1], slot .color4 [0, 0, 0, 1], slot .float [1], slot .color4 [0, 0, 0, 1], slot .color4 [0, 0, 0, 1], slot .color4 [0, 0, 0, 1], slot .float [1], slot .float [20],
    slot .color4 [1, 1, 1, 1], slot .float [1], slot .float [1]]

/-- FCDEffectStandard.cpp 72-146: a new standard profile in a document of version 1.4.1 or later when `late`: constant lighting (0), the mode A_ONE (0) or RGB_ZERO (1). -/
def newStandard [OfNat K 20] (late : Bool) : Standard K := ⟨[], 0, List.replicate 12 [], if late then 0 else 1, false, false, false, newSlots⟩

/-- FCDEffectStandard.cpp 242-275: `Clone` into a new standard profile. -/
def Standard.cloneInto (heap : Nat → Option (Param K)) (s dst : Standard K) (n : Nat) : Standard K × Nat :=
  let ps := cloneParams s.params (dst.params, n)
  let tx := cloneChannels heap s.textures [] ps
  ({ dst with
     params := tx.2.1, type := s.type, textures := tx.1, mode := s.mode, emissionFactor := s.emissionFactor
     slots := List.zipWith cloneSlot s.slots dst.slots }, tx.2.2)

variable [OfNat K 20]

/-- FCDEffect.cpp 76-91: the profile that `AddProfile` makes. -/
def newProfile (late : Bool) (type : Nat) : Profile K := if type = common then .standard (newStandard late) else .fx { type := type }

/-- `Clone` of a profile into a given one: only the parameters are copied into a profile of another class (FCDEffectProfileFX.cpp 79-81, FCDEffectStandard.cpp 246-248). -/
def Profile.cloneInto (heap : Nat → Option (Param K)) (p dst : Profile K) (n : Nat) : Option (Profile K × Nat) :=
  match p, dst with
  | .standard s, .standard d => let r := s.cloneInto heap d n; some (.standard r.1, r.2)
  | .fx s, .fx d => (s.cloneInto d n).map fun r => (.fx r.1, r.2)
  | .fx s, .standard d => let r := cloneParams s.params (d.params, n); some (.standard { d with params := r.1 }, r.2)
  | .standard s, .fx d => let r := cloneParams s.params (d.params, n); some (.fx { d with params := r.1 }, r.2)

/-- FCDEffect.cpp 105-110: the profiles. -/
def cloneProfiles (heap : Nat → Option (Param K)) (late : Bool) : List (Profile K) → List (Profile K) × Nat → Option (List (Profile K) × Nat)
  | [], acc => some acc
  | p :: l, acc => (p.cloneInto heap (newProfile late p.type) acc.2).bind fun r => cloneProfiles heap late l (acc.1 ++ [r.1], r.2)

/-- FCDEffect.cpp 94-120: `Clone` into a new effect. Left out: the id of the clone (C28). -/
def Effect.clone (heap : Nat → Option (Param K)) (late : Bool) (e : Effect K) (n : Nat) : Option (Effect K × Nat) :=
  (cloneProfiles heap late e.profiles ([], n)).map fun r =>
    let ps := cloneParams e.params ([], r.2)
    (⟨e.name, e.note, r.1, ps.1⟩, ps.2)

end Clone

/-- FCDEffect.cpp 53-60: `FindProfile`. -/
def findProfile (l : List (Profile K)) (type : Nat) : Option (Profile K) := l.find? fun p => decide (p.type = type)

/-- FCDEffect.cpp 63-73: `FindProfileByTypeAndPlatform`. The outer `none` is undefined behaviour: a standard profile is cast to an FX profile. -/
def findByPlatform (type : Nat) (platform : Text) : List (Profile K) → Option (Option (Profile K))
  | [] => some none
  | p :: l =>
    if p.type = type then
      match p with
      | .standard _ => none
      | .fx q => if q.platform = platform then some (some p) else findByPlatform type platform l
    else findByPlatform type platform l

/-- FCDTexture.cpp 66-72: `GetImage`; the first image of the surface (FCDEffectParameterSurface.h). -/
def Texture.image (heap : Nat → Option (Param K)) (t : Texture K) : Option Nat :=
  (t.sampler.bind heap).bind fun p =>
    match p.body with
    | .sampler s => (s.surface.bind heap).bind fun q =>
      match q.body with
      | .surface u => u.images.head?
      | _ => none
    | _ => none

/-- FCDMaterial.h 60-64, FCDEntity.h 86, 89: a material; the effect is reached through an entity reference (C95). The technique hints are pairs of platform and reference. -/
structure Material (K : Type) where
  name : Text := []
  note : Text := []
  owns : Bool := false
  effect : Option Nat := none
  params : List (Obj K) := []
  hints : List (Text × Text) := []

/-- The effects of the library of a document, by number, and the number of the next object. -/
structure Lib (K : Type) where
  effects : List (Nat × Effect K)
  next : Nat

/-- FCDMaterial.cpp 76-112: `Clone(NULL, deep)`; `AddEntity` adds a new effect to the library, and the effect is cloned into it. -/
def Material.clone [Zero K] [One K] [OfNat K 20] (heap : Nat → Option (Param K)) (late : Bool) (lib : Lib K) (m : Material K) (deep : Bool) : Option (Material K × Lib K) :=
  let found := m.effect.bind fun i => lib.effects.find? fun e => decide (e.1 = i)
  let step : Option (Material K × Lib K) :=
    match found with
    | none => some ({ name := m.name, note := m.note }, lib)
    | some (i, e) =>
      if deep then (e.clone heap late (lib.next + 1)).map fun r => ({ name := m.name, note := m.note, owns := true }, ⟨lib.effects ++ [(lib.next, r.1)], r.2⟩)
      else some ({ name := m.name, note := m.note, effect := some i }, lib)
  step.map fun r =>
    let ps := cloneParams m.params ([], r.2.next)
    ({ r.1 with params := ps.1 }, { r.2 with next := ps.2 })

/-- FCDMaterial.cpp 42-51, FCDEntityReference: releasing a material releases the effect it has, when it owns it. -/
def Material.release (m : Material K) (lib : Lib K) : Lib K :=
  if m.owns then
    match m.effect with
    | some i => { lib with effects := lib.effects.filter fun e => decide (e.1 ≠ i) }
    | none => lib
  else lib

end Verif.FFx
