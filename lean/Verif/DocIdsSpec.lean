import Verif.DocIds
import Verif.UniqueProps
import Verif.XmlTextProps

/-! # Terms used in the properties in DocIdsProps -/

namespace Verif.FIds

open Verif.FStr (Ch)
open Verif.FUniq (key number Keeps base)

/-- Object `i` is alive and has been given the id `s`. -/
def Holds (d : Doc) (i : Nat) (s : List Ch) : Prop := d.obj i = some ⟨s, true⟩

/-- No object holds an id that ends in the number 4294967294. -/
def Calm (d : Doc) : Prop := ∀ i s, Holds d i s → number s ≠ 2 ^ 32 - 2

/-- The documents that can be reached; ids are only taken while no object holds an id ending in 4294967294, and an object is only cloned
into one that has not been given an id. -/
inductive Reach : Doc → Prop
  | empty : Reach ⟨FTree.Map.empty, []⟩
  | create {d} (base : List Ch) : Reach d → Reach (create d base)
  | get {d} (i : Nat) {d' s} : Reach d → Calm d → getDaeId d i = some (d', s) → Reach d'
  | set {d} (i : Nat) (id : List Ch) {d'} : Reach d → 0 ∉ id → Calm d → setDaeId d i id = some d' → Reach d'
  | remove {d} (i : Nat) {d'} : Reach d → removeDaeId d i = some d' → Reach d'
  | destroy {d} (i : Nat) {d'} : Reach d → destroy d i = some d' → Reach d'
  | clone {d} (i j : Nat) {d'} : Reach d → (∀ s, ¬ Holds d j s) → clone d i j = some d' → Reach d'

end Verif.FIds
