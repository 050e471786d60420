import Verif.OwnerSteps

/-! # Lemmas for the properties in OwnerProps -/

namespace Verif.FOwn

theorem desc_leaf {w : World} {x y : Nat} {o : Obj} (ho : w.objs x = some o) (hm : o.members = []) (hd : Desc w x y) : y = x := by
  induction hd with
  | refl => rfl
  | tail _ h ih =>
    obtain ⟨c, ⟨o', h1, h2⟩, _⟩ := h
    rw [ih, ho] at h1
    obtain rfl := Option.some.inj h1
    rw [hm] at h2
    simp at h2

theorem mayOwn_leaf {w : World} {c x : Nat} (ho : w.objs x = some ⟨none, []⟩) : MayOwn w c x := by
  refine ⟨⟨_, ho, rfl⟩, ?_⟩
  intro y hy
  rw [desc_leaf ho rfl hy]
  simp [Member, ho]

theorem reach_run {w w' : World} {op : Op} (h : Reach w) (hl : Legal w op) (hr : ∀ n, run n w op = some w') : Reach w' :=
  .step h hl ⟨0, fun n _ => hr n⟩

end Verif.FOwn
