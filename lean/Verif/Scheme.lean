/-!
# Model of the scheme callbacks of file managers (FUtils/FUFileManager.cpp)

The callbacks of a scheme are one object on the heap, known by its address; what it holds is a value of any type. A map from schemes to pointers is a list without repeated schemes; its order is not modelled. Schemes are numbers. `none` as a result is
undefined behaviour: an object that does not exist is deleted or read. The address of a new object is any unused one; the model takes the one behind the largest.
-/

namespace Verif.FScheme

/-- The objects that exist, with their addresses. -/
abbrev Heap (α : Type) := List (Nat × α)

/-- A pointer; `none` is NULL. -/
abbrev Ptr := Option Nat

/-- FUFileManager.h: the member `schemeCallbackMap`. -/
abbrev Mgr := List (Nat × Ptr)

/-- `SAFE_DELETE`: NULL is left alone. -/
def delete {α : Type} (h : Heap α) : Ptr → Option (Heap α)
  | none => some h
  | some a => if (h.lookup a).isSome then some (h.filter fun e => e.1 != a) else none

/-- FUFileManager.cpp 442-450: `RemoveSchemeCallbacks`. -/
def remove {α : Type} (s : Nat) (h : Heap α) (m : Mgr) : Option (Heap α × Mgr) :=
  match m.lookup s with
  | none => some (h, m)
  | some p => (delete h p).map fun h' => (h', m.filter fun e => e.1 != s)

/-- FUFileManager.cpp 431-440: `SetSchemeCallbacks`. -/
def set {α : Type} (s : Nat) (p : Ptr) (h : Heap α) (m : Mgr) : Option (Heap α × Mgr) := (remove s h m).map fun r => (r.1, r.2 ++ [(s, p)])

/-- FUFileManager.cpp 452-460: `RemoveAllSchemeCallbacks`, also the destructor (lines 114-117). -/
def removeAll {α : Type} (h : Heap α) (m : Mgr) : Option (Heap α) := m.foldlM (fun h e => delete h e.2) h

/-- The address of a new object. -/
def fresh {α : Type} (h : Heap α) : Nat := (h.map (·.1)).foldr max 0 + 1

/-- FUFileManager.cpp 469-474: one of the callbacks is copied; a NULL pointer is dereferenced. -/
def copyOne {α : Type} (st : Heap α × Mgr) (e : Nat × Ptr) : Option (Heap α × Mgr) :=
  match e.2 with
  | none => none
  | some a => (st.1.lookup a).map fun v => ((fresh st.1, v) :: st.1, st.2 ++ [(e.1, some (fresh st.1))])

/-- FUFileManager.cpp 462-475: `CloneSchemeCallbacks` from another manager. -/
def clone {α : Type} (src : Mgr) (h : Heap α) (m : Mgr) : Option (Heap α × Mgr) := (removeAll h m).bind fun h' => src.foldlM copyOne (h', [])

/-- FUFileManager.cpp 187-205: the openers of a scheme are asked until none takes the file; `none` if that needs more rounds than given. -/
def resolve {T : Type} (openers : List (T → Option T)) : Nat → T → Option T
  | 0, _ => none
  | n + 1, f => match openers.findSome? fun o => o f with
    | none => some f
    | some g => resolve openers n g

end Verif.FScheme
