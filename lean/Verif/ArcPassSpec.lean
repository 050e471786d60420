import Verif.ArcPass
import Verif.ArcStateSpec
import Verif.ArcSidSpec

/-!
# What a user expects of the saving and loading of shaders and passes
-/

namespace Verif.FArc

open Verif.FEff (Text text)
open Verif.FPass (Shader Pass Tech RState Code findCode)

/-- A shader that a file can hold: with a name, and texts without `%`; its code, if any, has a sub-id. -/
structure GoodShader (s : Shader) : Prop where
  named : s.name ≠ []
  name : Plain s.name
  target : Plain s.target
  options : Plain s.options
  binds : ∀ b ∈ s.bindings, Plain b.1 ∧ Plain b.2 ∧ b.1 ≠ [] ∧ b.2 ≠ []
  code : ∀ c, s.code = some c → Plain c.sid ∧ c.sid ≠ []

/-- The shader `t` loaded is the shader `s` saved: the same in all but identity, and its code is the first within reach with the sub-id of the code of `s`. -/
def ShaderBack (tech : Tech) (s t : Shader) : Prop := { t with id := s.id } = { s with code := s.code.bind fun c => findCode tech.all c.sid }

/-- A render state with values in its documented fields; LIGHT_SPOT_DIRECTION (29) excepted (C164). -/
def GoodRState (s : RState) : Prop := s.type < 108 ∧ s.type ≠ 29 ∧ ∃ vs, List.Forall₂ GoodSV (docScal s.type) vs ∧ s.data = dataOf (docScal s.type) vs

/-- The state `t` loaded is the state `s` saved, floats with the digits that are written. -/
def StateBack (rnd : ℚ → ℚ) (s t : RState) : Prop :=
  t.type = s.type ∧ ∃ vs, List.Forall₂ GoodSV (docScal s.type) vs ∧ s.data = dataOf (docScal s.type) vs ∧ t.data = dataOf (docScal s.type) (vs.map (roundSV rnd))

end Verif.FArc
