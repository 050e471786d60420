import Verif.SampleAnim

/-! # What the sample times of a scene node should be -/

namespace Verif.FSample

/-- The times are in order and different. -/
def Increasing (s : List ℚ) : Prop := s.Pairwise (· < ·)

/-- Some sample time is equivalent to `t`. -/
def Sampled (t : ℚ) (s : List ℚ) : Prop := ∃ x ∈ s, |x - t| < tol

/-- The keys of a curve are in order, and no two are equivalent. -/
def Apart (ks : List Key) : Prop := ks.Pairwise fun a b => a.1 + tol ≤ b.1

/-- The curves of a transform. -/
def Transf.Has (t : Transf) (ks : List Key) : Prop := some ks ∈ t.curves

/-- Two keys that follow each other. -/
def Follow (p c : Key) (ks : List Key) : Prop := ∃ a b, ks = a ++ p :: c :: b

end Verif.FSample
