import Verif.CurveMulti

/-!
# Specification of merged curves (C51, C81)
-/

namespace Verif.Curve

variable {K : Type} [Field K] [LinearOrder K]

/-- Keys in the order of time, at least the tolerance of `IsEquivalent` apart. -/
def Spaced (keys : List (Key K)) : Prop := keys.Pairwise fun a b => a.input + 1 / 10000 ≤ b.input

/-- Every curve that is there has spaced keys. -/
def AllSpaced (toMerge : List (Option (CurveData K))) : Prop := ∀ c, some c ∈ toMerge → Spaced c.keys

/-- A key of one of the curves. -/
def HasKey (toMerge : List (Option (CurveData K))) (k : Key K) : Prop := ∃ c, some c ∈ toMerge ∧ k ∈ c.keys

/-- Keys of all the curves are at the same time or at least the tolerance apart. -/
def Apart (toMerge : List (Option (CurveData K))) : Prop :=
  ∀ j k, HasKey toMerge j → HasKey toMerge k → j.input < k.input → j.input + 1 / 10000 ≤ k.input

/-- The value of dimension `i` at the key with index `k`. -/
def valueAt (m : Multi K) (k i : Nat) : Option K := (m.keys[k]?).bind fun key => (key.dims[i]?).map (·.output)

/-- A key of a curve as a key of one dimension. -/
def single (k : Key K) : MKey K :=
  { input := k.input
    interp := k.interp
    dims := [{ output := k.output
               tangents := if k.interp = .bezier then some (k.inTangent, k.outTangent) else none
               tcb := if k.interp = .tcb then some (k.tension, k.continuity, k.bias) else none }] }

end Verif.Curve
