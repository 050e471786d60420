import Verif.CtrlSteps

/-! # Lemmas for the properties in CtrlProps -/

namespace Verif.FCtrl

/-- After all the calls. -/
def demo : World := put (put (put (put (fun _ => none) 0 (.geom (.mesh (some 4)))) 1 (.geom (.mesh (some 4)))) 2 (.ctrl (.skin (some 0) 4)))
  3 (.ctrl (.morph (some 2) [⟨0, some 1⟩]))

/-- The demo without the morpher. -/
def demo3 : World := put (put (put (fun _ => none) 0 (.geom (.mesh (some 4)))) 1 (.geom (.mesh (some 4)))) 2 (.ctrl (.skin (some 0) 4))

theorem demo3_reach : Reach demo3 := by
  have r1 : Reach (put (fun _ => none) 0 (.geom (.mesh (some 4)))) :=
    .step (op := .newGeometry 0 (.mesh (some 4))) .start rfl ⟨0, fun n _ => rfl⟩
  have r2 : Reach (put (put (fun _ => none) 0 (.geom (.mesh (some 4)))) 1 (.geom (.mesh (some 4)))) :=
    .step (op := .newGeometry 1 (.mesh (some 4))) r1 rfl ⟨0, fun n _ => rfl⟩
  have r3 := Reach.step (op := .newController 2) r2 rfl ⟨0, fun n _ => rfl⟩
  have r4 := Reach.step (op := .createSkin 2) r3 ⟨.empty, rfl⟩ ⟨0, fun n _ => rfl⟩
  have r5 := Reach.step (op := .setTarget 2 (some 0)) r4 ⟨⟨none, 0, rfl⟩, fun x hx => by
    cases hx
    exact ⟨rfl, no_above (fun z => geom_not_on ⟨.mesh (some 4), rfl⟩) (by decide)⟩⟩ ⟨1, fun n hn => by
      obtain ⟨m, rfl⟩ : ∃ m, n = m + 1 := ⟨n - 1, by omega⟩
      rfl⟩
  have e : put (put (put (put (put (fun _ => none) 0 (.geom (.mesh (some 4)))) 1 (.geom (.mesh (some 4)))) 2 (.ctrl .empty)) 2 (.ctrl (.skin none 0))) 2
      (.ctrl (.skin (some 0) 4)) = demo3 := by
    rw [put_put, put_put]; rfl
  rw [← e]
  exact r5

theorem demo_reach : Reach demo := by
  have r1 := Reach.step (op := .newController 3) demo3_reach rfl ⟨0, fun n _ => rfl⟩
  have r2 := Reach.step (op := .createMorph 3) r1 ⟨.empty, rfl⟩ ⟨0, fun n _ => rfl⟩
  have r3 := Reach.step (op := .setBaseTarget 3 (some 2)) r2 ⟨⟨none, [], rfl⟩, fun x hx => by cases hx; rfl⟩ ⟨2, fun n hn => by
    obtain ⟨m, rfl⟩ : ∃ m, n = m + 2 := ⟨n - 2, by omega⟩
    rfl⟩
  have r4 := Reach.step (op := .addTarget 3 0 (some 1)) r3 ⟨⟨some 2, [], rfl, fun x hx => absurd hx List.not_mem_nil⟩, fun x hx => by cases hx; exact ⟨_, rfl⟩⟩
    ⟨2, fun n hn => by
      obtain ⟨m, rfl⟩ : ∃ m, n = m + 2 := ⟨n - 2, by omega⟩
      rfl⟩
  have e : put (put (put (put demo3 3 (.ctrl .empty)) 3 (.ctrl (.morph none []))) 3 (.ctrl (.morph (some 2) []))) 3
      (.ctrl (.morph (some 2) [⟨0, some 1⟩])) = demo := by
    rw [put_put, put_put, put_put]; rfl
  rw [← e]
  exact r4

theorem demo_bottom : Bottom demo 3 0 := by
  refine ⟨.head (b := 2) ?_ (.head (b := 0) ?_ .refl), ⟨.mesh (some 4), rfl⟩⟩
  · exact Or.inr ⟨_, rfl⟩
  · exact Or.inl ⟨4, rfl⟩

end Verif.FCtrl
