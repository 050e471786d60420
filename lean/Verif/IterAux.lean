import Verif.IterLemmas
import Verif.SceneProps

/-! # Lemmas for the properties in IterProps -/

namespace Verif.FIter

theorem levelOrder_stable {k : Nat → List Nat} {rk : Nat → Nat} (h : Ranked k rk) (root : Nat) : ∀ d, rk root ≤ d →
    levelOrder k d root = levelOrder k (rk root) root := by
  intro d hd
  obtain ⟨m, rfl⟩ : ∃ m, d = rk root + m := ⟨d - rk root, by omega⟩
  clear hd
  induction m with
  | zero => rfl
  | succ m ih =>
    rw [← ih]
    have : level k root (rk root + m + 1) = [] := by
      apply List.eq_nil_iff_forall_not_mem.mpr
      intro y hy
      have := level_rank h root _ y hy
      omega
    simp only [levelOrder]
    rw [show rk root + (m + 1) + 1 = (rk root + m + 1) + 1 by omega, List.range_succ, List.flatMap_append]
    simp [this]

/-- A tree of nodes, for the examples: 0 has the children 1 and 2 and an instance of the leaf 5; 1 has the children 3 and 4. -/
def sample : Graph where
  children x := if x = 0 then [1, 2] else if x = 1 then [3, 4] else []
  insts x := if x = 0 then [none, some 5] else []
  parent0 x := if x = 1 ∨ x = 2 then some 0 else if x = 3 ∨ x = 4 then some 1 else none

def sampleRank (x : Nat) : Nat := if x = 0 then 2 else if x = 1 then 1 else 0

theorem sample_ranked (p : Bool) : Ranked (kids sample p) sampleRank := by
  intro x y hy
  by_cases h0 : x = 0
  · subst h0
    cases p <;> simp [kids, sample] at hy <;> simp [sampleRank] <;> grind
  · by_cases h1 : x = 1
    · subst h1
      cases p <;> simp [kids, sample] at hy <;> simp [sampleRank] <;> grind
    · cases p <;> simp [kids, sample, h0, h1] at hy

theorem depth_first_any (G : Graph) (post p : Bool) (rk : Nat → Nat) (h : Ranked (kids G p) rk) (root d : Nat) (hd : rk root ≤ d)
    (hpre : post = true ∨ p = true ∨ ∀ x z, some z ∈ G.insts x → isLeaf G z = true) (hroom : Room G p (rk root)) :
    ∃ N, ∀ n ≥ N, depthFirst n G post p root = some (if post then postOrder (kids G p) d root else preOrder (kids G p) d root) := by
  obtain ⟨c, hc⟩ := dfs_ok h hpre (rk root) root (Nat.le_refl _) _ 0 (by omega) (Nat.le_refl _)
  obtain ⟨cap', _, h2⟩ := hc [] (if post then [] else [root]) 8 (Nat.le_refl _) (by simpa using hroom)
  refine ⟨c + 1, ?_⟩
  intro n hn
  obtain ⟨m, rfl⟩ : ∃ m, n = c + (m + 1) := ⟨n - c - 1, by omega⟩
  simp only [depthFirst]
  rw [h2, kidsFrom_zero, ← ord_eq h post root, ← order_ord h post d root hd]
  simp [dfsLoop, order]

theorem scene_pure_kids {w : FScene.World} {insts : Nat → List (Option Nat)} {x y : Nat} (hy : y ∈ kids (graphOf w insts) true x) : FScene.Child w x y := by
  simp only [kids, graphOf, if_true, List.mem_filter] at hy
  cases hx : w.nodes x with
  | none => simp [hx] at hy
  | some a => exact ⟨a, hx, by simpa [hx] using hy.1⟩

end Verif.FIter
