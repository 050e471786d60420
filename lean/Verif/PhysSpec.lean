import Verif.Phys
import Verif.BoundSpec

/-!
# Specification of physics shapes, bodies and scenes (C99 - C102)
-/

namespace Verif.FPhys

open Verif.Geo (V3 Box)

/-! ## C99: volumes of meshes -/

section Mesh
variable {K : Type} [Field K] [LinearOrder K]

/-- The source gives three numbers for each of the positions `ps`. -/
def PosSource.Gives (s : PosSource K) (ps : List (V3 K)) : Prop := s.stride = 3 ∧ s.data = ps.flatMap fun p => [p.x, p.y, p.z]

/-- In no direction the first of the positions is above all the others: the bounding boxes of FCollada are right for these (C38). -/
def FirstInside : List (V3 K) → Prop
  | [] => False
  | p :: ps => (∃ q ∈ ps, p.x ≤ q.x) ∧ (∃ q ∈ ps, p.y ≤ q.y) ∧ ∃ q ∈ ps, p.z ≤ q.z

/-- `v` is the volume of the smallest box around the positions. -/
def BoundingVolume (ps : List (V3 K)) (v : K) : Prop :=
  ∃ b : Box K, b.Smallest (fun p => p ∈ ps) ∧ (∃ p, b.Has p) ∧ v = (b.max.x - b.min.x) * (b.max.y - b.min.y) * (b.max.z - b.min.z)

omit [Field K] [LinearOrder K] in
/-- The mesh `m` is, over any number of steps, the convex hull of the mesh `m'`. -/
inductive HullOf (lib : Geometries K) : Mesh K → Mesh K → Prop
  | self {m} : m.hullOf = none → HullOf lib m m
  | step {m id m' m''} : m.hullOf = some id → lib id = some (some m') → HullOf lib m' m'' → HullOf lib m m''

end Mesh

/-! ## C100 - C102: copies -/

section Copies
variable {K T : Type}

/-- What a program sees of a shape: everything but who owns the material. -/
def Shape.SameAs (a b : Shape K T) : Prop :=
  a.hollow = b.hollow ∧ a.material = b.material ∧ a.geometry = b.geometry ∧ a.anal = b.anal ∧ a.mass = b.mass ∧ a.density = b.density ∧
    a.transforms = b.transforms ∧ a.instMat = b.instMat ∧ a.densityMoreAccurate = b.densityMoreAccurate

/-- The analytical geometry is not a plane away from the origin. -/
def Anal.Kept [Zero K] (a : Anal K) : Prop := ∀ n d, a = .plane n d → d = 0

/-- The values of the material that a reference leads to. -/
def MatRef.values (mats : Nat → Material K) : MatRef K → Material K
  | .shared i => mats i
  | .own m => m
  | .borrowed m => m

/-- What a program sees of rigid body parameters. -/
def Params.SameAs (mats : Nat → Material K) (a b : Params K T) : Prop :=
  a.dynamic = b.dynamic ∧ a.mass = b.mass ∧ a.density = b.density ∧ a.inertia = b.inertia ∧ a.translate = b.translate ∧ a.axis = b.axis ∧ a.angle = b.angle ∧
    List.Forall₂ Shape.SameAs a.shapes b.shapes ∧ a.material.map (MatRef.values mats) = b.material.map (MatRef.values mats) ∧ a.instMat = b.instMat ∧
    a.densityMoreAccurate = b.densityMoreAccurate ∧ a.inertiaAccurate = b.inertiaAccurate

/-- The shape has nothing that its clone would lose. -/
def Shape.Plain [Zero K] (s : Shape K T) : Prop :=
  s.densityMoreAccurate = false ∧ (∀ e, s.instMat ≠ some (some e)) ∧ ∀ a, s.anal = some a → a.Kept

/-- The parameters have nothing that their copy would lose. -/
def Params.Plain [Zero K] (p : Params K T) : Prop :=
  p.density = 0 ∧ p.densityMoreAccurate = false ∧ p.inertiaAccurate = false ∧ ∀ s ∈ p.shapes, s.Plain

/-- The instance has no force fields. -/
def ModelInst.NoForce (m : ModelInst K T) : Prop := ∀ e, Inst.force e ∉ m.insts

/-- An instance and its copy: the copy of a rigid body instance has no target node, as the code says. -/
def Inst.SameAs (mats : Nat → Material K) : Inst K T → Inst K T → Prop
  | .body e v a _ p, .body e' v' a' t' p' => e = e' ∧ v = v' ∧ a = a' ∧ t' = none ∧ p.SameAs mats p'
  | .constraint e, .constraint e' => e = e'
  | .force e, .force e' => e = e'
  | _, _ => False

/-- The parameters in the instance have nothing that their copy would lose. -/
def Inst.Plain [Zero K] : Inst K T → Prop
  | .body _ _ _ _ p => p.Plain
  | _ => True

def ModelInst.SameAs (mats : Nat → Material K) (a b : ModelInst K T) : Prop := a.entity = b.entity ∧ List.Forall₂ (Inst.SameAs mats) a.insts b.insts

end Copies

/-! ## C101: owners of materials -/

/-- The holder `h` owns the material `m`. -/
def OwnsMat (w : Mats) (h m : Nat) : Prop := w.holders h = some ⟨some m, true⟩

/-- What a program may do: new numbers for new things, living things otherwise, and no holder is given the material that it owns. -/
def MatLegal (w : Mats) : MatOp → Prop
  | .newMaterial m => w.alive m = false ∧ m ∉ w.freed
  | .freeMaterial m => w.alive m = true
  | .newHolder h => w.holders h = none
  | .addOwn h m => (w.holders h).isSome ∧ w.alive m = false ∧ m ∉ w.freed
  | .set h p => (w.holders h).isSome ∧ ∀ m, p = some m → w.alive m = true ∧ ¬ OwnsMat w h m
  | .deleteHolder h => (w.holders h).isSome

/-- The materials that a call has to release: the one that the program releases, or the own one of the holder that gets another one or is deleted. -/
def Gone (w : Mats) : MatOp → Nat → Prop
  | .freeMaterial m, x => x = m
  | .addOwn h _, x => OwnsMat w h x
  | .set h _, x => OwnsMat w h x
  | .deleteHolder h, x => OwnsMat w h x
  | _, _ => False

/-- The material that a call makes. -/
def Made : MatOp → Nat → Prop
  | .newMaterial m, x => x = m
  | .addOwn _ m, x => x = m
  | _, _ => False

/-- The document materials, after a call. -/
def docMats (doc : List Nat) : MatOp → List Nat
  | .newMaterial m => m :: doc
  | _ => doc

/-- What a program can reach, with the materials that it made itself. -/
inductive MatReach : List Nat → Mats → Prop
  | start : MatReach [] ⟨fun _ => false, [], fun _ => none⟩
  | step {doc w op w'} : MatReach doc w → MatLegal w op → matStep w op = some w' → MatReach (docMats doc op) w'

end Verif.FPhys
