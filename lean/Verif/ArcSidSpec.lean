import Verif.ArcSid
import Verif.ArcSpec

/-! # Which sub-ids are in use in a tree -/

namespace Verif.FArc

open Verif.FEff (Text text)

/-- The sub-id is that of the element or of one below it. -/
inductive HasSid (sid : Text) : Node → Prop
  | here {n as t ks} : (Node.elem n as t ks).raw (text "sid") = some sid → HasSid sid (.elem n as t ks)
  | deeper {n as t ks k} : k ∈ ks → HasSid sid k → HasSid sid (.elem n as t ks)

/-- No sub-id in the tree has a `%` or the terminator in it. -/
def PlainSids (n : Node) : Prop := ∀ sid, HasSid sid n → Plain sid

/-- Fewer than `n` different sub-ids are in the tree. -/
def FewSids (n : Nat) (k : Node) : Prop := ∃ l : List Text, l.length < n ∧ ∀ sid, HasSid sid k → sid ∈ l

end Verif.FArc
