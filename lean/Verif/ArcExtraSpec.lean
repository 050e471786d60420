import Verif.ArcExtra
import Verif.ArcSpec
import Verif.ExtraSpec

/-! # Which extra trees can be saved -/

namespace Verif.FArc

open Verif.FEff (Text text)

/-- A node that a file can hold: a valid name, a content without `%` unless it has child nodes, attributes with valid and different names. -/
def SaveHere (n : FExtra.Node) : Prop :=
  FExtra.ValidName n.name ∧ Plain n.content ∧ ¬ FExtra.Mixed n ∧ (∀ a ∈ n.attrs, FExtra.ValidName a.name) ∧ (n.attrs.map (·.name)).Nodup

/-- A technique that a file can hold: its own node has no name, content or attributes. -/
def SaveTech (t : FExtra.Tech) : Prop := Plain t.profile ∧ t.node = .mk [] [] [] t.node.children ∧ ∀ c ∈ t.node.children, ∀ m, FExtra.Within c m → SaveHere m

/-- An extra that a file can hold: the default type is the first, types and profiles are different and have no `%`. -/
def Saveable (e : FExtra.Extra) : Prop :=
  (∃ t, e.head? = some t ∧ t.name = []) ∧ (e.map (·.name)).Nodup ∧ ∀ t ∈ e, Plain t.name ∧ (t.techs.map (·.profile)).Nodup ∧ ∀ x ∈ t.techs, SaveTech x

end Verif.FArc
