import Verif.EventAux
import Verif.Event
import Mathlib.Data.List.Induction

/-!
# Properties of events and of the error reporting (C33, C52, C70)
-/

namespace Verif.FEvent

variable {F : Type}

/-- **C33 (partial).** After any history in which handlers are only released for objects that have exactly one, triggering the event calls
exactly the handlers registered and not released since, once for each registration, in reverse order of registration, and their number is
the handler count. What is missing: releasing for an object with several handlers or with none; see `event_violated`. -/
theorem event_partial (ops : List (Op F)) (hp : Proper ops) :
    ∃ h, exec [] ops = some h ∧ fire h = some ((active ops).map Prod.snd).reverse ∧ h.length = (active ops).length :=
  ⟨_, exec_active ops hp, fire_live _, by simp⟩

/-- A history: 1 and 2 register, 1 is released and registers again with another handler. -/
def someOps : List (Op Nat) := [.insert 1 10, .insert 2 20, .release 1, .insert 1 30]

example : Proper someOps ∧ active someOps = [(2, 20), (1, 30)] := by
  refine ⟨?_, by decide⟩
  intro a o b h
  match a with
  | [] => simp [someOps] at h
  | [x] => simp [someOps] at h
  | [x, y] =>
    simp [someOps] at h
    obtain ⟨rfl, rfl, rfl, -⟩ := h
    rfl
  | [x, y, z] => simp [someOps] at h
  | x :: y :: z :: w :: a => simp [someOps] at h

/-- **C33 is violated.** After an object with two handlers is released, the event still has a handler, and triggering it calls a function with
an unspecified value; releasing an object without handlers is undefined behaviour. -/
theorem event_violated :
    (∃ h, exec [] [.insert 1 10, .insert 1 20, .release 1] = some h ∧ h.length = 1 ∧ fire h = none) ∧
    active [.insert 1 10, .insert 1 20, .release 1] = [] ∧ exec (F := Nat) [] [.release 1] = none :=
  ⟨⟨[.stale], rfl, rfl, rfl⟩, rfl, rfl⟩

/-- **C52 (partial).** After any history of adding and removing callbacks and setting the fatality level, in which callbacks are only removed
for objects that have exactly one at the level, reporting an error at a level calls exactly the callbacks registered for this level and not
removed since, and returns true exactly when the level is at least the fatality level set last (ERROR at the start). What is missing: as for
C33. -/
theorem errors_partial (ops : List (EOp F)) (hp : ∀ l, Proper (atLevel l ops)) (l : Level) :
    ∃ e, execE Errors.init ops = some e ∧
      e.report l = some (((active (atLevel l ops)).map Prod.snd).reverse, decide ((lastFatal ops).num ≤ l.num)) := by
  have h0 : ∀ l, (Errors.init (F := F)).event l = [] := fun l => by cases l <;> rfl
  obtain ⟨e, he, hl⟩ := execE_level ops Errors.init (fun l => by rw [h0]; exact ⟨_, exec_active _ (hp l)⟩)
  have hf : e.fatal = lastFatal ops := by
    rw [execE_fatal _ _ _ he]
    split
    · rfl
    · rename_i h
      clear he hl hp
      induction ops with
      | nil => rfl
      | cons op ops ih =>
        cases op with
        | add _ _ _ => exact ih (by simpa [EOp.isFatal] using h)
        | remove _ _ => exact ih (by simpa [EOp.isFatal] using h)
        | fatal _ => simp [EOp.isFatal] at h
  have hl' := hl l
  rw [h0, exec_active _ (hp l)] at hl'
  refine ⟨e, he, ?_⟩
  have : e.report l = (fire (e.event l)).map fun fs => (fs, decide (e.fatal.num ≤ l.num)) := by cases l <;> rfl
  rw [this, ← Option.some.inj hl', fire_live, hf]
  rfl

example : (execE Errors.init [.add .warning 1 10, .add .error 1 20, .fatal .warning, .remove .error 1] : Option (Errors Nat)).bind
    (fun e => e.report .warning) = some ([10], true) := rfl

/-- **C52 is violated.** Removing the callbacks of an object that registered two leaves one behind; removing callbacks that were never
registered is undefined. -/
theorem errors_violated :
    ((execE Errors.init [.add .error 1 10, .add .error 1 20, .remove .error 1]).map fun e => e.onError) = some [(.stale : Slot Nat)] ∧
    (execE Errors.init [.remove .error 1] : Option (Errors Nat)).isNone := ⟨rfl, rfl⟩

/-- **C70.** A simple error handler has failed exactly when some reported level reached its fatality level. -/
theorem simple_handler (m : Level) (ls : List Level) : (ls.foldl Simple.on (Simple.init m)).fails = true ↔ ∃ l ∈ ls, m.num ≤ l.num := by
  suffices h : ∀ s : Simple, (ls.foldl Simple.on s).fails = true ↔ s.fails = true ∨ ∃ l ∈ ls, s.fatal.num ≤ l.num by
    simpa [Simple.init] using h (Simple.init m)
  induction ls with
  | nil => intro s; simp
  | cons l ls ih =>
    intro s
    rw [List.foldl_cons, ih]
    simp [Simple.on, or_assoc]

example : (([.debug, .warning] : List Level).foldl Simple.on (Simple.init .warning)).fails = true := rfl

/-- What a log sees: it is registered for some of the levels. -/
def Log.report (g : Log) (l : Level) : Log := if l ∈ Log.levels g.minimum then g.on l else g

/-- **C70.** A log started with a minimum level counts, modulo 2^32, the reports of each level from this one upwards; the query returns the
three counts and starts again from zero. -/
theorem log_counts (m : Level) (ls : List Level) :
    let g := ls.foldl Log.report ⟨0, 0, 0, m⟩
    let n := fun (l : Level) => if m.num ≤ l.num then ls.count l % 2 ^ 32 else 0
    g.query = ((n .debug, n .warning, n .error), ⟨0, 0, 0, m⟩) := by
  intro g n
  suffices h : ∀ (ls : List Level) (a b c : Nat), a < 2 ^ 32 → b < 2 ^ 32 → c < 2 ^ 32 → ls.foldl Log.report ⟨a, b, c, m⟩ =
      ⟨if m.num ≤ 0 then (a + ls.count .debug) % 2 ^ 32 else a, if m.num ≤ 1 then (b + ls.count .warning) % 2 ^ 32 else b,
        if m.num ≤ 2 then (c + ls.count .error) % 2 ^ 32 else c, m⟩ by
    have h1 := h ls 0 0 0 (by simp) (by simp) (by simp)
    simp only [Nat.zero_add] at h1
    show g.query = _
    simp only [g, h1, Log.query, n, Level.num]
    rfl
  clear g n
  intro ls
  induction ls with
  | nil =>
    intro a b c ha hb hc
    simp only [List.foldl_nil, List.count_nil, Nat.add_zero, Nat.mod_eq_of_lt ha, Nat.mod_eq_of_lt hb, Nat.mod_eq_of_lt hc, ite_self]
  | cons l ls ih =>
    intro a b c ha hb hc
    rw [List.foldl_cons]
    have hm : ∀ x : Nat, (x + 1) % 2 ^ 32 < 2 ^ 32 := fun x => Nat.mod_lt _ (by simp)
    cases m <;> cases l <;> simp only [Log.report, Log.levels, Log.on, List.mem_cons, List.not_mem_nil, or_false, reduceCtorEq, or_true,
      true_or, if_true, if_false, or_self] <;> rw [ih] <;> first
      | exact hm _
      | assumption
      | (simp [Level.num, List.count_cons] <;> omega)
      | simp [Level.num, List.count_cons]

example : (([.debug, .warning, .error, .warning] : List Level).foldl Log.report ⟨0, 0, 0, .warning⟩).query.1 = (0, 2, 1) := rfl

end Verif.FEvent
