import Verif.ArcLinkData

/-!
# What a user expects of imports that load other files
-/

namespace Verif.FLinkData

/-- The steps of a file. -/
def File.steps : File → List Step
  | .broken | .foreign => []
  | .cancelled l | .whole _ l => l

/-- Every record that the import of `me` reads is one of its own, noted before, with no other file fetched in between. -/
def Guarded (me : Nat) (l : List Step) : Prop :=
  ∀ pre f o post, l = pre ++ .need f o :: post → f = me ∧ ∃ a b, pre = a ++ .note o :: b ∧ ∀ g, Step.fetch g ∉ b

/-- The import reads only records that it noted before. -/
def Noted (me : Nat) (l : List Step) : Prop := ∀ pre f o post, l = pre ++ .need f o :: post → f = me ∧ Step.note o ∈ pre

/-- The process before the first import. -/
def start : St := { count := 0, data := [], open_ := [] }

/-- The process between imports: a history of imports of files and of objects. -/
inductive Between (files : Nat → File) : St → Prop where
  | start : Between files start
  | file {s t : St} {b : Bool} {n : Nat} (f : Nat) (h : Between files s) (e : importFile files n f s = .ok t b) : Between files t
  | object {s : St} (f : Nat) (notes : List Nat) (h : Between files s) : Between files (importObject f notes s)

end Verif.FLinkData
