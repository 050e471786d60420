import Verif.FlagsAux
import Verif.Flags
import Mathlib.Tactic.Common

/-!
# Properties of object flags (C50)
-/

namespace Verif.FFlags

/-- **C50.** `SetFlag(mask, value)` gives the flags of the mask the value and leaves all others; so do setting and resetting. `TestFlag` shows the
flags of the mask. -/
theorem mask_ops (fl f : BitVec 32) (v : Bool) (j : Nat) :
    (assign fl f v).getLsbD j = (if f.getLsbD j then v else fl.getLsbD j) ∧
    (set fl f).getLsbD j = (if f.getLsbD j then true else fl.getLsbD j) ∧
    (reset fl f).getLsbD j = (if f.getLsbD j then false else fl.getLsbD j) ∧
    (test fl f).getLsbD j = (fl.getLsbD j && f.getLsbD j) := by
  have hf : ∀ x : BitVec 32, x.getLsbD j = true → j < 32 := fun x h => BitVec.lt_of_getLsbD h
  refine ⟨?_, ?_, ?_, ?_⟩
  · cases v
    · simp only [assign, Bool.false_eq_true, if_false, BitVec.mul_zero, BitVec.or_zero, BitVec.getLsbD_and, BitVec.getLsbD_not]
      by_cases h : f.getLsbD j <;> by_cases h2 : fl.getLsbD j <;> simp [h, h2]
      exact hf _ h2
    · simp only [assign, if_true, BitVec.mul_one, BitVec.getLsbD_or, BitVec.getLsbD_and, BitVec.getLsbD_not]
      by_cases h : f.getLsbD j <;> by_cases h2 : fl.getLsbD j <;> simp [h, h2]
      exact hf _ h2
  · simp only [set, BitVec.getLsbD_or]
    by_cases h : f.getLsbD j <;> simp [h]
  · simp only [reset, BitVec.getLsbD_and, BitVec.getLsbD_not]
    by_cases h : f.getLsbD j <;> by_cases h2 : fl.getLsbD j <;> simp [h, h2]
    exact hf _ h2
  · simp [test]

/-- The mask of a flag, FUParameterizable.h 29. -/
def Flag.mask (counts : List Nat) (f : Flag) : BitVec 32 := FFlags.mask (nextAvailableBit (counts.drop (f.up + 1))) f.pos

/-- The operations on one flag of an object. -/
inductive Op where
  | assign (f : Flag) (v : Bool) | set (f : Flag) | reset (f : Flag)

/-- Run an operation. -/
def Op.run (counts : List Nat) (fl : BitVec 32) : Op → BitVec 32
  | .assign f v => FFlags.assign fl (f.mask counts) v
  | .set f => FFlags.set fl (f.mask counts)
  | .reset f => FFlags.reset fl (f.mask counts)

/-- The flag of an operation. -/
def Op.flag : Op → Flag
  | .assign f _ | .set f | .reset f => f

/-- The value an operation gives. -/
def Op.value : Op → Bool
  | .assign _ v => v
  | .set _ => true
  | .reset _ => false

/-- Specification: the value given to the flag last, or its value before. -/
def lastValue (f : Flag) (v : Bool) : List Op → Bool
  | [] => v
  | op :: ops => lastValue f (if op.flag = f then op.value else v) ops

/-- **C50.** Let an object's class and its ancestors declare at most 32 flags in all. After any history of assigning, setting and resetting
declared flags, each declared flag has the value given to it last, or the value it had before. -/
theorem flags_independent (counts : List Nat) (ht : counts.sum ≤ 32) (ops : List Op) (ho : ∀ op ∈ ops, op.flag.Declared counts)
    (f : Flag) (hf : f.Declared counts) (fl : BitVec 32) :
    get (ops.foldl (Op.run counts) fl) (f.mask counts) = lastValue f (get fl (f.mask counts)) ops := by
  have hb := bit_lt counts f hf ht
  induction ops generalizing fl with
  | nil => rfl
  | cons op ops ih =>
    rw [List.foldl_cons, ih (fun o h => ho o (by simp [h])), lastValue]
    congr 1
    have hd := ho op (by simp)
    have hlt := bit_lt counts op.flag hd ht
    have hm : (op.flag.mask counts).getLsbD (f.bit counts) = decide (op.flag = f) := by
      unfold Flag.mask
      rw [mask_bit _ _ _ hlt]
      by_cases he : op.flag = f
      · rw [he]; simp [Flag.bit]
      · have := bit_inj counts _ _ hd hf he
        simp only [he, decide_false, decide_eq_false_iff_not]
        exact fun h => this h.symm
    have hg : ∀ x : BitVec 32, get x (f.mask counts) = x.getLsbD (f.bit counts) := fun x => get_mask x _ _ hb
    rw [hg, hg]
    obtain ⟨m1, m2, m3, -⟩ := mask_ops fl (op.flag.mask counts) op.value (f.bit counts)
    rw [hm] at m1 m2 m3
    clear ih hm hg ho hd hlt
    by_cases he : op.flag = f <;> cases op <;> simp only [Op.run, Op.flag, Op.value] at * <;>
      simp only [he, decide_true, decide_false, if_true, Bool.false_eq_true, if_false] at * <;> assumption

/-- FCDSceneNode (2 flags), FCDObjectWithId (2), FCDObject (2), FUParameterizable (3): FCDSceneNode.h 78, FCDObjectWithId.h 48, FCDObject.h 63,
FUParameterizable.h 69. -/
def sceneNode : List Nat := [2, 2, 2, 3]

example : sceneNode.sum ≤ 32 ∧ Flag.Declared sceneNode ⟨0, 1⟩ ∧ Flag.Declared sceneNode ⟨3, 2⟩ := by
  simp [sceneNode, Flag.Declared]

example : get ([.set ⟨0, 1⟩, .assign ⟨3, 2⟩ true, .reset ⟨0, 0⟩].foldl (Op.run sceneNode) 0) (Flag.mask sceneNode ⟨0, 1⟩) = true := by
  decide +kernel

end Verif.FFlags
