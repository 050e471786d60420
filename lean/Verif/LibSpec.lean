import Verif.Lib
import Verif.OwnerSpec
import Verif.SceneSpec
import Verif.DocIdsProps
import Verif.BuilderProps

/-!
# Specification of libraries, entity search and sub ids (C54, C82)
-/

namespace Verif.FLib

open Verif.FStr (Ch)
open Verif.FIds (Doc Holds)

/-- The operations on the container `c` itself, other than adding at the end: a library does not offer them. -/
def Touches (c : Nat) : FOwn.Op → Prop
  | .deleteOwner d => d = c
  | .insert d _ _ => d = c
  | .eraseAt d _ => d = c
  | .popBack d => d = c
  | .popFront d => d = c
  | .erase d _ => d = c
  | .clear d => d = c
  | .detach d _ => d = c
  | .assign d _ => d = c
  | _ => False

/-- A history of operations of a program, during which the container `c` lives and is only added to. -/
inductive History (c : Nat) : FOwn.World → List FOwn.Op → FOwn.World → Prop
  | nil (w) : History c w [] w
  | step {w ops w1 op w2} : History c w ops w1 → FOwn.Legal w1 op → ¬ Touches c op → FOwn.Steps w1 op w2 → (w2.cons c).isSome → History c w (ops ++ [op]) w2

/-- The objects added to `c` in a history, in order. -/
def added (c : Nat) (ops : List FOwn.Op) : List Nat := ops.filterMap fun op =>
  match op with
  | .pushBack d x => if d = c then some x else none
  | _ => none

/-- The entity `y` is `x` or below it. -/
def Under (kids : Nat → List Nat) (x y : Nat) : Prop := Relation.ReflTransGen (fun a b => b ∈ kids a) x y

/-- The entity `y` belongs to a library with these entities. -/
def Belongs (kids : Nat → List Nat) (entities : List Nat) (y : Nat) : Prop := ∃ e ∈ entities, Under kids e y

/-- The children of the nodes of a scene. -/
def sceneKids (w : FScene.World) (x : Nat) : List Nat := ((w.nodes x).map (·.children)).getD []

/-- The children of all entities are strictly below them. -/
def Ranked (kids : Nat → List Nat) : Prop := ∃ rk : Nat → Nat, ∀ y z, z ∈ kids y → rk z < rk y

/-- The nodes whose sub ids `SetSubId` compares with: the ancestors and the descendants. -/
def Related (w : FScene.World) (x y : Nat) : Prop := FScene.Ancestor w y x ∨ FScene.Ancestor w x y

/-- The sub ids that are tried: the cleaned text, then the text followed by `_0`, `_1`, ... -/
def cand (id : List Ch) : Nat → List Ch
  | 0 => FXml.cleaned false id
  | k + 1 => id ++ 95 :: FBld.numeral k

/-- The sub ids that calls of `SetSubId` can give. -/
inductive SubReach (w : FScene.World) : (Nat → List Ch) → Prop
  | start : SubReach w fun _ => []
  | set {sub sub' x id} : SubReach w sub → (w.nodes x).isSome → 0 ∉ id → (∃ N, ∀ n ≥ N, setSubId n w sub x id = some sub') → SubReach w sub'

end Verif.FLib
