import Verif.CurveConv

/-! # The curves that are converted without loss -/

namespace Verif.Curve

variable {K : Type}

/-- No two keys in a row are TCB keys. -/
def NoTcbPair (keys : List (Key K)) : Prop := ∀ (i : Nat) (s e : Key K), keys[i]? = some s → keys[i + 1]? = some e → ¬(s.interp = .tcb ∧ e.interp = .tcb)

end Verif.Curve
