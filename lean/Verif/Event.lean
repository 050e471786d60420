import Mathlib.Data.List.Basic

/-!
# Model of events and of the error reporting (FUtils/FUEvent.h, FUError.cpp, FUErrorLog.cpp)

Handlers are values of an arbitrary type; calling them is modelled by listing the handlers called, in order. Handlers that change the event
while it is triggered are not modelled, nor are threads.
-/

namespace Verif.FEvent

variable {F : Type}

/-- An element of the vector of handlers (FUEvent.h 32): the object and the function, or an element that `std::remove_if` left behind with an
unspecified value. -/
inductive Slot (F : Type) where
  | live (object : Nat) (f : F)
  | stale
deriving DecidableEq

/-- FUEvent.h 47-50: `InsertHandler`. -/
def insertHandler (h : List (Slot F)) (object : Nat) (f : F) : List (Slot F) := h ++ [.live object f]

/-- FUEvent.h 59: the predicate. `none`: it reads an unspecified value. -/
def hits (object : Nat) : Slot F → Option Bool
  | .live o _ => some (o = object)
  | .stale => none

/-- `std::remove_if`: the elements kept, in order, and the number of elements removed. -/
def removeIf (object : Nat) : List (Slot F) → Option (List (Slot F) × Nat)
  | [] => some ([], 0)
  | s :: h => (hits object s).bind fun b => (removeIf object h).map fun r => if b then (r.1, r.2 + 1) else (s :: r.1, r.2)

/-- FUEvent.h 56-60: `ReleaseHandler`: `remove_if` moves the kept elements to the front; the `erase` of one iterator then removes the single
element after them. If no element was removed, `erase(end())` is undefined. -/
def releaseHandler (h : List (Slot F)) (object : Nat) : Option (List (Slot F)) :=
  (removeIf object h).bind fun r => if r.2 = 0 then none else some (r.1 ++ List.replicate (r.2 - 1) .stale)

/-- FUEvent.h 67-71: `operator()`: the functions called, from the last element to the first. `none`: an unspecified function is called. -/
def fire : List (Slot F) → Option (List F)
  | [] => some []
  | .live _ f :: h => (fire h).map (· ++ [f])
  | .stale :: _ => none

/-- FUError.h 231-238: `FUError::Level`. -/
inductive Level where
  | debug | warning | error
deriving DecidableEq

/-- The number of a level. -/
def Level.num : Level → Nat
  | .debug => 0
  | .warning => 1
  | .error => 2

/-- FUError.h 243-248: the three events and the fatality level. -/
structure Errors (F : Type) where
  onError : List (Slot F)
  onWarning : List (Slot F)
  onDebug : List (Slot F)
  fatal : Level

/-- FUError.cpp 17-22: the initial values. -/
def Errors.init : Errors F := ⟨[], [], [], .error⟩

/-- FUError.cpp 36-42: the event of a level. -/
def Errors.event (e : Errors F) : Level → List (Slot F)
  | .warning => e.onWarning
  | .error => e.onError
  | .debug => e.onDebug

/-- FUError.cpp 32-45: `Error`: the handlers called and the result. -/
def Errors.report (e : Errors F) (l : Level) : Option (List F × Bool) :=
  match l with
  | .warning => (fire e.onWarning).map fun fs => (fs, decide (e.fatal.num ≤ l.num))
  | .error => (fire e.onError).map fun fs => (fs, decide (e.fatal.num ≤ l.num))
  | .debug => (fire e.onDebug).map fun fs => (fs, decide (e.fatal.num ≤ l.num))

/-- FUError.cpp 47-59: `AddErrorCallback`. -/
def Errors.add (e : Errors F) (l : Level) (object : Nat) (f : F) : Errors F :=
  match l with
  | .warning => { e with onWarning := insertHandler e.onWarning object f }
  | .error => { e with onError := insertHandler e.onError object f }
  | .debug => { e with onDebug := insertHandler e.onDebug object f }

/-- FUError.cpp 61-72: `RemoveErrorCallback`. -/
def Errors.remove (e : Errors F) (l : Level) (object : Nat) : Option (Errors F) :=
  match l with
  | .warning => (releaseHandler e.onWarning object).map fun h => { e with onWarning := h }
  | .error => (releaseHandler e.onError object).map fun h => { e with onError := h }
  | .debug => (releaseHandler e.onDebug object).map fun h => { e with onDebug := h }

/-- FUError.h 292: `SetFatalityLevel`. -/
def Errors.setFatal (e : Errors F) (l : Level) : Errors F := { e with fatal := l }

/-- FUErrorLog.h: the counters of an `FUErrorLog` and its minimum level. -/
structure Log where
  debug : Nat
  warnings : Nat
  errors : Nat
  minimum : Level
deriving DecidableEq

/-- FUErrorLog.cpp 26-31, 37-40: the levels `i` with `LEVEL_COUNT - 1 >= i >= minimumLevel`, in this order. -/
def Log.levels (m : Level) : List Level :=
  match m with
  | .debug => [.error, .warning, .debug]
  | .warning => [.error, .warning]
  | .error => [.error]

/-- FUErrorLog.cpp 53-55: `++counts[level]`; the counters are 32-bit. The line written to the log file is not modelled. -/
def Log.on (g : Log) : Level → Log
  | .debug => { g with debug := (g.debug + 1) % 2 ^ 32 }
  | .warning => { g with warnings := (g.warnings + 1) % 2 ^ 32 }
  | .error => { g with errors := (g.errors + 1) % 2 ^ 32 }

/-- FUErrorLog.cpp 45-51: `QueryNewMessages`. -/
def Log.query (g : Log) : (Nat × Nat × Nat) × Log := ((g.debug, g.warnings, g.errors), { g with debug := 0, warnings := 0, errors := 0 })

/-- FUError.h 305-306 and FUError.cpp 315: `FUErrorSimpleHandler`: its fatality level and whether it has failed. The message is not
modelled. -/
structure Simple where
  fatal : Level
  fails : Bool
deriving DecidableEq

/-- FUError.cpp 277-278. -/
def Simple.init (l : Level) : Simple := ⟨l, false⟩

/-- FUError.cpp 298-316: `OnError`. -/
def Simple.on (s : Simple) (l : Level) : Simple := { s with fails := s.fails || decide (s.fatal.num ≤ l.num) }

end Verif.FEvent
