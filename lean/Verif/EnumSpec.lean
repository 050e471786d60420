/-!
# Specification of names for the values of an enumeration (C44)
-/

namespace Verif.Enum

/-- The texts `write v` are names for the values `v` with `named v`: reading the name of a value gives the value, no two of these values share a name, and a
text that is none of the names, compared exactly, is read as `other`. -/
structure Names {T : Type} (write : T → String) (read : String → T) (named : T → Prop) (other : T) : Prop where
  back : ∀ v, named v → read (write v) = v
  distinct : ∀ v w, named v → named w → write v = write w → v = w
  rest : ∀ s, (∀ v, named v → s ≠ write v) → read s = other

end Verif.Enum
