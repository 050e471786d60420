import Verif.ArcStd
import Verif.ArcFxSpec

/-!
# What a user expects of the saving and loading of the common profile
-/

namespace Verif.FArc

open Verif.FEff (Text text Role)
open Verif.FConv (Ov shown)

/-- A texture that a file can hold. The semantic of the set is also read as a number. -/
structure GoodTex (ov : Ov) (t : STex) : Prop where
  sid : FXml.ValidId false t.sid
  sem : Plain t.sem
  number : t.sem ≠ [] → ∃ i, readInt ov t.sem = some i
  extra : Saveable t.extra ∨ FExtra.hasContent t.extra = false

/-- The texture `u` loaded is the texture `t` saved, but the value of the set is the number read from its semantic. -/
structure TexBack (ov : Ov) (t u : STex) : Prop where
  sid : u.sid = t.sid
  sem : u.sem = t.sem
  set : if t.sem = [] then u.set = -1 else readInt ov t.sem = some u.set
  extra : u.extra = if FExtra.hasContent t.extra then t.extra else FExtra.newExtra

/-- A parameter of the profile that a file can hold. -/
def GoodSParm {α : Type} (p : SParm α) : Prop := p.role = .constant ∨ p.role = .referencer ∧ FXml.ValidId false p.ref ∧ p.ref ≠ []

/-- The parameter `q` loaded is the parameter `p` saved, when its channel has no textures: the value of a constant, the reference of a parameter that refers to another. -/
def ParmBack {α : Type} (back : α → α) (p q : SParm α) : Prop := q.role = p.role ∧ (p.role = .constant → q.value = back p.value) ∧ (p.role = .referencer → q.ref = p.ref)

/-- The colour that comes back. -/
def shownV4 (rnd : ℚ → ℚ) (v : V4) : V4 := (shown rnd v.1, shown rnd v.2.1, shown rnd v.2.2.1, shown rnd v.2.2.2)

/-- A colour that may be textured: the textures stand in for it, and then it is white. -/
def ColorBack (rnd : ℚ → ℚ) (ts : List STex) (p q : SParm V4) : Prop := if ts = [] then ParmBack (shownV4 rnd) p q else q = { value := (1, 1, 1, 1) }

/-- A number that may be textured. -/
def NumBack (rnd : ℚ → ℚ) (ts : List STex) (p q : SParm ℚ) : Prop := if ts = [] then ParmBack (shown rnd) p q else q.value = 1

/-- A profile that a file can hold. -/
structure GoodStd (ov : Ov) (s : StdFx) : Prop where
  params : ∀ q ∈ s.params, GoodParm q
  extra : Saveable s.extra ∨ FExtra.hasContent s.extra = false
  lighting : s.lighting ≠ .unknown
  emission : GoodSParm s.emission
  emissionF : GoodSParm s.emissionF
  reflect : GoodSParm s.reflect
  reflectF : GoodSParm s.reflectF
  refraction : GoodSParm s.refraction
  transl : GoodSParm s.transl
  translF : GoodSParm s.translF
  diffuse : GoodSParm s.diffuse
  ambient : GoodSParm s.ambient
  specular : GoodSParm s.specular
  specF : GoodSParm s.specF
  shininess : GoodSParm s.shininess
  tex : ∀ c, ∀ t ∈ s.tex c, GoodTex ov t

/-- The channels whose textures are saved. -/
def Saved (s : StdFx) : Chan → Prop
  | .ambient | .diffuse => s.lighting ≠ .constant
  | .specular | .shininess => s.lighting ≠ .constant ∧ s.lighting ≠ .lambert
  | .specLevel => (s.lighting ≠ .constant ∧ s.lighting ≠ .lambert) ∧ s.specF.value ≠ 1
  | .emission => s.isEmission = false
  | .reflection => s.reflective = true
  | _ => True

/-- The profile `u` loaded is the profile `s` saved, as far as `s` is saved: what its lighting and its flags make use of. The shininess is lost if it has textures, as is the index of refraction. -/
structure StdBack (ov : Ov) (rnd : ℚ → ℚ) (s u : StdFx) : Prop where
  params : u.params = (s.params.filter fun q => decide (q.role = .generator)).map (parmAfter rnd)
  extra : u.extra = if FExtra.hasContent s.extra then s.extra else FExtra.newExtra
  lighting : u.lighting = s.lighting
  mode : u.rgbZero = s.rgbZero
  isEmission : u.isEmission = s.isEmission
  reflective : u.reflective = s.reflective
  refractive : u.refractive = true ↔ s.refractive = true ∨ s.tex .refraction ≠ []
  emission : s.isEmission = false → ColorBack rnd (s.tex .emission) s.emission u.emission
  emissionF : s.isEmission = true → ParmBack (shown rnd) s.emissionF u.emissionF
  ambient : s.lighting ≠ .constant → ColorBack rnd (s.tex .ambient) s.ambient u.ambient
  diffuse : s.lighting ≠ .constant → ColorBack rnd (s.tex .diffuse) s.diffuse u.diffuse
  specular : s.lighting ≠ .constant ∧ s.lighting ≠ .lambert → ColorBack rnd (s.tex .specular) s.specular u.specular
  shininess : s.lighting ≠ .constant ∧ s.lighting ≠ .lambert → NumBack rnd (s.tex .shininess) s.shininess u.shininess
  specF : s.lighting ≠ .constant ∧ s.lighting ≠ .lambert → if s.specF.value = 1 then u.specF = { value := 1 } else NumBack rnd (s.tex .specLevel) s.specF u.specF
  reflect : s.reflective = true → ColorBack rnd (s.tex .reflection) s.reflect u.reflect
  reflectF : s.reflective = true → ParmBack (shown rnd) s.reflectF u.reflectF
  transl : ColorBack rnd (s.tex .transparent) s.transl u.transl
  translF : ParmBack (shown rnd) s.translF u.translF
  refraction : s.refractive = true → NumBack rnd (s.tex .refraction) s.refraction u.refraction
  saved : ∀ c, Saved s c → List.Forall₂ (TexBack ov) (s.tex c) (u.tex c)
  lost : ∀ c, ¬ Saved s c → u.tex c = []
  marks : u.marks = []

end Verif.FArc
