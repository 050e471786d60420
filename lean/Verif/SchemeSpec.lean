import Verif.Scheme

/-! # What should hold for the scheme callbacks of file managers -/

namespace Verif.FScheme

/-- The objects that a manager owns. -/
def owned (m : Mgr) : List Nat := m.filterMap (·.2)

/-- The objects exist, and none is listed twice. -/
def Good {α : Type} (h : Heap α) (l : List Nat) : Prop := l.Nodup ∧ ∀ a ∈ l, (h.lookup a).isSome

/-- The callbacks that a manager has for a scheme: the value of the object. -/
def has {α : Type} (h : Heap α) (m : Mgr) (s : Nat) : Option α := (m.lookup s).bind fun p => p.bind fun a => h.lookup a

/-- A manager has one entry for a scheme. -/
def Keyed (m : Mgr) : Prop := (m.map (·.1)).Nodup

end Verif.FScheme
