import Verif.Plugin

/-! # What plug-ins are expected to do -/

namespace Verif.FPlugin

open Verif.FEff (Text text)

/-- The same text but for the case of the letters `A` to `Z`. -/
def SameLetters (a b : Text) : Prop := a.map (fun c => if 65 ≤ c ∧ c ≤ 90 then c + 32 else c) = b.map fun c => if 65 ≤ c ∧ c ≤ 90 then c + 32 else c

/-- The archive supports files with the extension. -/
def Supports (es : List Text) (e : Text) : Prop := ∃ x ∈ es, SameLetters e x

/-- The lists of extra extensions that calls lead to. -/
inductive Reach : List Text → Prop
  | start : Reach []
  | add {l l' e b} : Reach l → addExt l e = some (l', b) → Reach l'
  | remove {l e} : Reach l → Reach (removeExt l e).1

variable {N O : Type}

/-- The technique is as after loading: it has an object and no nodes, the plug-in for it reads back what it writes, or it has nodes that no plug-in takes. -/
def Settled (ps : List (Plug N O)) (t : Tech N O) : Prop := match t.obj with
  | some o => t.nodes = [] ∧ ∃ p, plugFor ps t.profile = some p ∧ p.read (p.write o []) = some o
  | none => ∀ p, plugFor ps t.profile = some p → p.read t.nodes = none

end Verif.FPlugin
