import Verif.NodeCloneSpec
import Verif.XformProps

/-! # Lemmas for the properties in NodeCloneProps -/

namespace Verif.FXform

open Verif.Geo

theorem collect_map {α : Type} {f : α → Option Tree} {g : α → Tree} {l : List α} (h : ∀ x ∈ l, f x = some (g x)) :
    collect (l.map f) = some (l.map g) := by
  induction l with
  | nil => rfl
  | cons x l ih =>
    rw [List.map_cons, h x (List.mem_cons_self ..), collect, ih fun y hy => h y (List.mem_cons_of_mem _ hy)]
    rfl

end Verif.FXform
