import Verif.ArcSkin
import Verif.Ctrl

/-!
# Model of the saving and loading of morph controllers (FArchiveXML/FAXControllerExport.cpp, FAXControllerImport.cpp, FAXImportLinking.cpp)

The animation of weights is not modelled. Numbers of targets are below 2^31. `none` is undefined behaviour.
-/

namespace Verif.FArc

open Verif.FEff (Text text)
open Verif.FConv (Ov)
open Verif.FCtrl (Geom)
open Verif.Enum (MorphMethod)

/-- What a morpher refers to in its document: the geometries by their ids, and the controllers by their ids with the geometry that the chain of each ends with (C107). -/
structure MorphDoc where
  geoms : List (Text × Geom) := []
  ctrls : List (Text × Option Geom) := []

/-- FCDMorphController.h 120-127: a morpher: its method, its base target (whether it is a controller, and its id), and its targets with the ids of their geometries, if they have any, and their weights. -/
structure Morph where
  method : MorphMethod := .normalized
  base : Option (Bool × Text) := none
  targets : List (Option Text × ℚ) := []
deriving DecidableEq

/-! ## Saving -/

/-- FAXControllerExport.cpp 134: the id that is written for a target. -/
def targetIdText (t : Option Text × ℚ) : Text := t.1.getD (text "UNKNOWN_IDREF")

/-- FAXControllerExport.cpp 114-159: `WriteMorphController`; `id` is the id of the controller. -/
def writeMorph (fmt : ℚ → Text) (id : Text) (m : Morph) : Node :=
  .elem (text "morph") ((text "method", text m.method.toString) :: (match m.base with | none => [] | some b => [(text "source", 35 :: b.2)])) []
    [sourceNames (id ++ text "-targets") (m.targets.map targetIdText) (text "MORPH_TARGET") true,
      sourceFloats fmt (id ++ text "-morph_weights") (m.targets.map (·.2)) 1 (some [text "MORPH_WEIGHT"]),
      .elem (text "targets") [] [] (inputNode (id ++ text "-targets") (text "MORPH_TARGET") (-1) (-1) ++ inputNode (id ++ text "-morph_weights") (text "MORPH_WEIGHT") (-1) (-1))]

/-! ## Loading -/

/-- FUDaeEnum.cpp 177-182: `FUDaeMorphMethod::FromString`. -/
def methodOf (t : Text) : MorphMethod := if t = text "NORMALIZED" then .normalized else if t = text "RELATIVE" then .relative else .normalized

/-- FAXControllerImport.cpp 280-297: an input: the sources of the targets and of the weights. -/
def morphInput (morph : Node) (d : Option Node × Option Node) (k : Node) : Option (Option Node × Option Node) :=
  (prop (some k) (text "semantic")).bind fun sem => (prop (some k) (text "source")).bind fun id =>
    if sem = text "MORPH_WEIGHT" ∨ sem = text "WEIGHT" then (findById morph id).map fun s => (d.1, s)
    else if sem = text "MORPH_TARGET" ∨ sem = text "TARGET" then (findById morph id).map fun s => (s, d.2)
    else some d

/-- FAXControllerImport.cpp 316-332: the targets, with FCDMorphController.cpp 84-97 for a morpher without base. A missing weight is read out of bounds. -/
def makeTargets (d : MorphDoc) : List Text → List ℚ → Option (List (Option Text × ℚ))
  | [], _ => some []
  | _ :: _, [] => none
  | t :: ts, w :: ws => (makeTargets d ts ws).map ((if (d.geoms.lookup t).isSome then some t else none, w) :: ·)

/-- FAXControllerImport.cpp 264-275: the inputs, if there is a `<targets>` element. -/
def morphInputs (n : Node) : List Node := match n.child (text "targets") with
  | none => []
  | some k => k.children (text "input")

/-- FAXControllerImport.cpp 299-303: sources are missing: the line of `<targets>` is asked for. -/
def missingSources (n : Node) (r : Morph × Text) : Option (Morph × Text) := if (n.child (text "targets")).isSome then some r else none

/-- FAXControllerImport.cpp 298-336: what is done with the sources. -/
def loadTargets (ov : Ov) (d : MorphDoc) (n : Node) (m : Morph) (src : Text) (s : Option Node × Option Node) : Option (Morph × Text) := match s with
  | (some ts, some ws) => (readNames ts []).bind fun names => (readFloats ov ws []).bind fun weights => (makeTargets d names weights.2).map fun l => ({ m with targets := l }, src)
  | _ => missingSources n (m, src)

/-- FAXControllerImport.cpp 245-337: `LoadMorphController` into a new morpher, from an element with the right name: the morpher, and the id that is kept for linking. -/
def loadMorph (ov : Ov) (d : MorphDoc) (n : Node) : Option (Morph × Text) :=
  (prop (some n) (text "method")).bind fun method => (prop (some n) (text "source")).bind fun src =>
    ((morphInputs n).foldlM (morphInput n) (none, none)).bind fun s => loadTargets ov d n { method := methodOf method } src s

/-! ## Linking -/

/-- FCDMorphController.cpp 100-166: `IsSimilar` of the geometry of a target to the geometry `g` of the base. -/
def fits (d : MorphDoc) (g : Geom) (t : Option Text × ℚ) : Bool := match t.1.bind fun i => d.geoms.lookup i with
  | none => false
  | some x => FCtrl.similarGeom (some (.geom g)) (some (.geom x))

/-- FCDMorphController.cpp 47-81: `SetBaseTarget` with an entity whose chain ends with `g`. -/
def setBase (d : MorphDoc) (m : Morph) (b : Bool × Text) (g : Option Geom) : Morph := match g with
  | none => { m with base := none, targets := [] }
  | some g => { m with base := some b, targets := m.targets.filter (fits d g) }

/-- FAXImportLinking.cpp 541-563: `LinkMorphController`; line 550 takes the `#` away, line 552 does not. -/
def linkMorph (d : MorphDoc) (src : Text) (m : Morph) : Bool × Morph := match m.base with
  | some _ => (true, m)
  | none => match d.geoms.lookup (stripHash src) with
    | some g => (true, setBase d m (false, stripHash src) (some g))
    | none => match d.ctrls.lookup src with
      | some g => (true, setBase d m (true, src) g)
      | none => (false, m)

end Verif.FArc
