import Verif.Load

/-! # What the status of the loading is expected to be -/

namespace Verif.FLoad

open Verif.FArc (Kind)

variable {A : Type}

/-- All that the file has, in the order of the libraries. -/
def whole (ls : List (LibIn A)) : List (Kind × A) := ls.flatMap fun l => if l.kind = .unknown then [] else l.items.filterMap fun x => x.map fun y => (l.kind, y.1)

/-- Every part of the library is loaded without failure. -/
def GoodLib (l : LibIn A) : Prop := l.attach = true ∧ (l.kind ≠ .unknown → ∀ a ok, some (a, ok) ∈ l.items → ok = true)

/-- Every part of the file is loaded without failure. -/
def Good (f : FileIn A) : Prop := (∀ b ∈ f.assets, b = true) ∧ ∀ l ∈ f.libs, GoodLib l

/-- How often the user is asked for a library: once before it and once after each of its children. -/
def asks (l : LibIn A) : Nat := 1 + if l.kind = .unknown then 0 else l.items.length

end Verif.FLoad
