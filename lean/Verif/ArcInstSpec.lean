import Verif.ArcInst
import Verif.ArcExtraSpec
import Verif.XmlTextSpec

/-! # Terms used in the properties of saved and loaded instances -/

namespace Verif.FArc

open Verif.FEff (Text text)
open Verif.FConv (Ov)
open Verif.Enum (GeometryInput)

/-- An instance that a file can hold: the id of the entity and the name are valid ones. -/
structure GoodBase (b : IBase) : Prop where
  id : FXml.ValidId true b.id
  sid : Plain b.sid
  name : FXml.ValidId false b.name
  extra : b.extra = FExtra.newExtra ∨ Saveable b.extra ∧ FExtra.hasContent b.extra = true

/-- An instance of a material that a file can hold. -/
structure GoodMat (m : MatInst) : Prop where
  base : GoodBase m.base
  symbol : Plain m.symbol
  binds : ∀ x ∈ m.binds, Plain x.1 ∧ Plain x.2
  inputs : ∀ x ∈ m.inputs, Plain x.1 ∧ x.2.1 ≠ .unknown ∧ x.2.2.natAbs + 48 < 2 ^ 31

/-- An instance of a geometry that a file can hold: an effect parameter is an element of one of three names (FAXMaterialExport.cpp 117-133). -/
structure GoodGeom (g : GeomInst) : Prop where
  base : GoodBase g.base
  params : ∀ p ∈ g.params, p.name = text "param" ∨ p.name = text "newparam" ∨ p.name = text "setparam"
  mats : ∀ m ∈ g.mats, GoodMat m

/-- The instances that a mesh gets by the symbols of its polygons: one for each symbol that is the id of a material. -/
def named (d : InstDoc) (id : Text) : List MatInst :=
  ((d.meshes.lookup id).getD []).filterMap fun p =>
    if FXml.cleaned true p.1 ∈ d.materials then some { base := { id := FXml.cleaned true p.1 }, symbol := if p.1 = [] then FXml.cleaned true p.1 ++ natText p.2 else p.1 } else none

/-- A technique with each of its child nodes a second time. -/
def twiceTech (t : FExtra.Tech) : FExtra.Tech := { t with node := .mk [] [] [] (t.node.children ++ t.node.children) }

/-- An extra tree with the child nodes of each technique a second time. -/
def twice (e : FExtra.Extra) : FExtra.Extra := e.map fun t => { t with techs := t.techs.map twiceTech }

end Verif.FArc
