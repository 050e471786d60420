import Verif.ArcEntity
import Verif.ArcExtraSpec
import Verif.ArcAssetSpec
import Verif.XmlTextProps

/-! # What an entity should be after saving and loading -/

namespace Verif.FArc

open Verif.FEff (Text text)
open Verif.FConv (Ov DateTime)

/-- No parameter is called as the note, in the techniques where notes are looked for, and none as the target. -/
def NoParams (ts : List FExtra.Tech) : Prop :=
  ∀ t ∈ ts, ∀ c ∈ t.node.children, c.name ≠ text "target" ∧
    ((t.profile = text "MAYA" ∨ t.profile = text "MAX3D" ∨ t.profile = text "FCOLLADA") → c.name ≠ text "user_properties" ∧ c.name ≠ text "note")

/-- The techniques with that of the library, which is made unless it is there. -/
def withTech (ts : List FExtra.Tech) : List FExtra.Tech := if text "FCOLLADA" ∈ ts.map (·.profile) then ts else ts ++ [⟨text "FCOLLADA", FExtra.blank⟩]

/-- The techniques without that of the library if it has no child nodes. -/
def withoutTech (ts : List FExtra.Tech) : List FExtra.Tech := ts.filter fun t => decide (¬ (t.profile = text "FCOLLADA" ∧ t.node.children = []))

/-- The extra tree of a reloaded entity: with a note or a target the technique of the library is there. -/
def extraAfter (s : Ent) (ts : List FExtra.Tech) (es : List FExtra.EType) : FExtra.Extra :=
  if s.note = [] ∧ s.target = [] then (if FExtra.hasContent (⟨[], ts⟩ :: es) then ⟨[], ts⟩ :: es else FExtra.newExtra) else ⟨[], withTech ts⟩ :: es

/-- The asset as it is read back; see C144. -/
def assetAfter (ov : Ov) (rnd : ℚ → ℚ) (now : DateTime) (a : QAsset) : QAsset :=
  { a with
    modified := now
    contributors := (a.contributors.filter fun c => !c.isEmpty).map fun c => { c with source := address ov c.source }
    unitName := if a.hasUnits then a.unitName else text "meter"
    unitFactor := if a.hasUnits then FConv.shown rnd a.unitFactor else 1
    upAxis := if a.hasUpAxis then a.upAxis else (0, 1, 0) }

/-- The name of a reloaded entity: without name that which is made of its id. -/
def nameAfter (id name : Text) : Text := if name = [] then FXml.cleaned false id else name

/-- An entity fit for a file. Names are always valid: `SetName` cleans them. -/
structure GoodEnt (ov : Ov) (rnd : ℚ → ℚ) (s : Ent) : Prop where
  id : Plain s.id
  name : FXml.ValidId false s.name
  note : Plain s.note
  target : Plain s.target
  asset : ∀ a, s.asset = some a → GoodAsset ov rnd a
  extra : Saveable s.extra
  params : ∀ t ∈ s.extra, t.name = [] → NoParams t.techs

end Verif.FArc
