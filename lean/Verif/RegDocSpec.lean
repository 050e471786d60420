import Verif.RegDoc

/-! # Which documents placeholders should have -/

namespace Verif.FReg

variable {U : Type} [DecidableEq U]

/-- Each placeholder for the file of an open document has a document. -/
def Linked (docs : List (Doc U)) : Prop := ∀ a ∈ docs, ∀ p ∈ a.holders, ∀ b ∈ docs, p.url = b.url → p.target ≠ none

/-- The document of each placeholder is open and has the url that the placeholder stands for. -/
def Right (docs : List (Doc U)) : Prop := ∀ a ∈ docs, ∀ p ∈ a.holders, ∀ t, p.target = some t → (docs[t]?).map (·.url) = some p.url

/-- A placeholder as it was, or with a document if it had none. -/
def Filled (p q : Holder U) : Prop := q.url = p.url ∧ (q = p ∨ p.target = none)

end Verif.FReg
