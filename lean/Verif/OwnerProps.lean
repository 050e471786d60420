import Verif.OwnerAux
import Verif.OwnerSteps

/-!
# Properties of object ownership

`Reach w` (OwnerSpec.lean) says that a program that uses the classes as their comments allow has got to the world `w`.
-/

namespace Verif.FOwn

/-- The world after a list of operations. -/
def runAll (n : Nat) (w : World) : List Op → Option World
  | [] => some w
  | op :: ops => (run n w op).bind fun w => runAll n w ops

/-- The empty world. -/
def nothing : World := ⟨fun _ => none, fun _ => none, []⟩

/-- A container 1 of the program owns the object 10, whose members are the container 2 and the reference 3; 2 owns the object 11. The conditions of
the theorems below are met: the world is reachable, 10 is alive and owns 11, and the destruction of container 1 is allowed. -/
example : ∃ w, Reach w ∧ w.cons 1 = some (.list [10]) ∧ w.cons 2 = some (.list [11]) ∧ w.cons 3 = some (.ref none) ∧ Owns w 10 11 ∧
    (w.objs 10).isSome ∧ Legal w (.deleteOwner 1) := by
  have h1 : Reach _ := reach_run (op := .newOwner 1 true) Reach.start rfl (fun n => rfl)
  have h2 : Reach _ := reach_run (op := .create 10 [(2, true), (3, false)]) h1 (by simp [Legal, putC]) (fun n => rfl)
  have h3 : Reach _ := reach_run (op := .pushBack 1 10) h2 ⟨⟨_, rfl⟩, ⟨⟨_, rfl, rfl⟩, by
    rintro y _ ⟨o, ho, hm⟩
    by_cases e : y = 10
    · subst e
      obtain rfl := Option.some.inj ho
      simp at hm
    · simp [putO, putC, e] at ho⟩⟩ (fun n => rfl)
  have h4 : Reach _ := reach_run (op := .create 11 []) h3 (by simp [Legal, putC, putO]) (fun n => rfl)
  have h5 : Reach _ := reach_run (op := .pushBack 2 11) h4 ⟨⟨_, rfl⟩, mayOwn_leaf rfl⟩ (fun n => rfl)
  refine ⟨_, h5, rfl, rfl, rfl, ⟨2, ⟨_, rfl, by simp⟩, _, rfl, by simp [Content.items]⟩, rfl, rfl, ?_⟩
  rintro y ⟨o, ho, hm⟩
  by_cases e : y = 10
  · subst e
    obtain rfl := Option.some.inj ho
    simp at hm
  · by_cases e' : y = 11
    · subst e'
      obtain rfl := Option.some.inj ho
      simp at hm
    · simp [putO, putC, e, e'] at ho

/-- **C32** (no object is released twice). In every reachable world the released objects are distinct and gone, and every object that some owner
lists is alive, belongs to that owner, is listed there once and by no other owner. -/
theorem owned_once_partial (w : World) (h : Reach w) :
    w.freed.Nodup ∧ (∀ x ∈ w.freed, w.objs x = none) ∧
    (∀ c x, Lists w c x → x ∉ w.freed ∧ (∃ o, w.objs x = some o ∧ o.owner = some c) ∧ ∀ d, Lists w d x → d = c) ∧
    (∀ c v, w.cons c = some v → v.items.Nodup) := by
  obtain ⟨rk, hi⟩ := reach_good h
  refine ⟨(hi 0).fnodup, (hi 0).gone, ?_, (hi 0).nodup⟩
  intro c x hl
  obtain ⟨o, ho, how⟩ := ((hi 0).own c x).mp hl
  refine ⟨?_, ⟨o, ho, how⟩, ?_⟩
  · intro hf
    rw [(hi 0).gone x hf] at ho
    exact absurd ho (by simp)
  · intro d hd
    obtain ⟨o', ho', how'⟩ := ((hi 0).own d x).mp hd
    rw [ho] at ho'
    obtain rfl := Option.some.inj ho'
    rw [how] at how'
    exact (Option.some.inj how').symm

/-- **C32** (no use of released memory). Every allowed operation in a reachable world ends without undefined behaviour, and no object is lost: an
object that was alive is still alive afterwards or has been released. -/
theorem ownership_safe_partial (w : World) (h : Reach w) (op : Op) (hl : Legal w op) :
    ∃ w', Steps w op w' ∧ Reach w' ∧ w.freed <+: w'.freed ∧ ∀ x, (w.objs x).isSome → (w'.objs x).isSome ∨ x ∈ w'.freed := by
  obtain ⟨w', h1, _, h2⟩ := step_ok (reach_good h) hl
  exact ⟨w', h1, .step h hl h1, h2⟩

/-- **C32** (`Release`). Releasing an object deletes it and everything it owns, each object once, and nothing else; it disappears from its owner. -/
theorem release_exact (w : World) (h : Reach w) (x : Nat) (hx : (w.objs x).isSome) :
    ∃ w', Steps w (.release x) w' ∧ Gone w (Desc w x) (Parts w (Desc w x)) w' := by
  obtain ⟨w', h1, _, h2⟩ := release_top (reach_good h) hx
  exact ⟨w', h1, h2⟩

/-- **C32** (`clear` and destruction). Clearing a container deletes the objects it lists and everything they own, each once, and nothing else, and
leaves it empty; the destruction of a container or reference that is not a part of an object does the same and removes the container. -/
theorem clear_exact (w : World) (h : Reach w) (c : Nat) (l : List Nat) (hc : w.cons c = some (.list l)) :
    ∃ w', Steps w (.clear c) w' ∧ Gone w (Below w c) (Parts w (Below w c)) w' ∧ w'.cons c = some (.list []) := by
  obtain ⟨w', h1, _, h2⟩ := clear_op_ok (reach_good h) hc
  exact ⟨w', h1, h2⟩

/-- See `clear_exact`. -/
theorem delete_exact (w : World) (h : Reach w) (c : Nat) (hc : Legal w (.deleteOwner c)) :
    ∃ w', Steps w (.deleteOwner c) w' ∧ Gone w (Below w c) (fun d => Parts w (Below w c) d ∨ d = c) w' := by
  obtain ⟨v, hv⟩ := Option.isSome_iff_exists.mp hc.1
  obtain ⟨w', h1, _, h2⟩ := delete_top (reach_good h) hv hc.2
  exact ⟨w', h1, h2⟩

/-- **C32** (erasing). `erase` of an index, `erase` of a value, `pop_back` and `pop_front` delete the object they name and everything it owns, each
once, and nothing else. -/
theorem erase_exact (w : World) (h : Reach w) (c : Nat) (l : List Nat) (hc : w.cons c = some (.list l)) :
    (∀ k x, l[k]? = some x → ∃ w', Steps w (.eraseAt c k) w' ∧ Gone w (Desc w x) (Parts w (Desc w x)) w') ∧
    (∀ x ∈ l, ∃ w', Steps w (.erase c x) w' ∧ Gone w (Desc w x) (Parts w (Desc w x)) w') ∧
    (∀ x, l.getLast? = some x → ∃ w', Steps w (.popBack c) w' ∧ Gone w (Desc w x) (Parts w (Desc w x)) w') ∧
    (∀ x, l.head? = some x → ∃ w', Steps w (.popFront c) w' ∧ Gone w (Desc w x) (Parts w (Desc w x)) w') ∧
    (∀ x, x ∉ l → Steps w (.erase c x) w) := by
  have hg := reach_good h
  refine ⟨?_, ?_, ?_, ?_, ?_⟩
  · intro k x hk
    obtain ⟨w', h1, _, h2⟩ := eraseAt_core hg hc hk
    exact ⟨w', h1, h2⟩
  · intro x hx
    obtain ⟨w', h1, _, h2⟩ := erase_ok hg hc hx
    exact ⟨w', h1, h2⟩
  · intro x hx
    obtain ⟨w', h1, _, h2⟩ := popBack_ok hg hc hx
    exact ⟨w', h1, h2⟩
  · intro x hx
    obtain ⟨w', h1, _, h2⟩ := popFront_ok hg hc hx
    exact ⟨w', h1, h2⟩
  · intro x hx
    exact ⟨0, fun n _ => by simp [run, erase, getList, hc, hx]⟩

/-- **C32** (adding and detaching). Adding an object that has no owner puts it at its place and releases nothing; detaching it takes it out of the
container, leaves it alive without an owner, and releases nothing. -/
theorem add_detach_exact (w : World) (h : Reach w) (c x : Nat) (l : List Nat) (hc : w.cons c = some (.list l)) :
    (MayOwn w c x → ∃ w', Steps w (.pushBack c x) w' ∧ Linked w c x w' ∧ w'.cons c = some (.list (l ++ [x]))) ∧
    (∀ k ≤ l.length, MayOwn w c x → ∃ w', Steps w (.insert c k x) w' ∧ Linked w c x w' ∧ w'.cons c = some (.list (l.take k ++ x :: l.drop k))) ∧
    (x ∈ l → ∃ w', Steps w (.detach c x) w' ∧ w'.freed = w.freed ∧ w'.cons c = some (.list (l.erase x)) ∧
      (∃ o, w.objs x = some o ∧ w'.objs x = some { o with owner := none }) ∧ ∀ z, z ≠ x → w'.objs z = w.objs z) := by
  have hg := reach_good h
  refine ⟨?_, ?_, ?_⟩
  · intro hm
    obtain ⟨w', h1, _, h2⟩ := pushBack_ok hg hc hm
    exact ⟨w', h1, h2⟩
  · intro k hk hm
    obtain ⟨w', h1, _, h2⟩ := insert_ok hg hc hk hm
    exact ⟨w', h1, h2⟩
  · intro hx
    obtain ⟨w', h1, _, h2, h3⟩ := detach_op_ok hg hc hx
    exact ⟨w', h1, h2.freed, h3, h2.self, h2.objs⟩

/-- **C32** (references). Assigning to a reference deletes the object it had and everything that object owns, and nothing else, and then owns the new
object. -/
theorem assign_exact (w : World) (h : Reach w) (c : Nat) (q p : Option Nat) (hc : w.cons c = some (.ref q)) (hp : ∀ x, p = some x → MayOwn w c x) :
    ∃ w', Steps w (.assign c p) w' ∧ w'.cons c = some (.ref p) ∧
      ∃ w1, Gone w (Below w c) (Parts w (Below w c)) w1 ∧ (p = none → w' = w1) ∧ (∀ x, p = some x → Linked w1 c x w') := by
  obtain ⟨w', h1, _, h2⟩ := assign_ok (reach_good h) hc hp
  exact ⟨w', h1, h2⟩

/-- The violations of C32. (1) An object that is pushed into a second container is refused as an owned object, but is listed all the same: after its
release the second container still lists it, and clearing that container uses a freed object. (2) The exchange of references: the object that moves
from reference 2 to reference 1 still has 2 as its owner; after its release, reference 1 keeps its address, and the destruction of reference 1 uses a
freed object. (3) Assigning to a reference the object it already owns releases the object and keeps its address. All three hold for every number of
steps. -/
theorem ownership_violated :
    (∀ n, ∃ w, runAll (n + 9) nothing [.newOwner 1 true, .newOwner 2 true, .create 10 [], .pushBack 1 10, .pushBack 2 10, .release 10] = some w ∧
      w.freed = [10] ∧ w.cons 2 = some (.list [10]) ∧ ∀ m, run m w (.clear 2) = none) ∧
    (∀ n, ∃ w w' w'', runAll (n + 9) nothing [.newOwner 1 false, .newOwner 2 false, .create 10 [], .assign 2 (some 10)] = some w ∧
      exchange (n + 9) w 1 2 = some w' ∧ (w'.objs 10).map Obj.owner = some (some 2) ∧ w'.cons 1 = some (.ref (some 10)) ∧
      run (n + 9) w' (.release 10) = some w'' ∧ w''.freed = [10] ∧ w''.cons 1 = some (.ref (some 10)) ∧ ∀ m, run m w'' (.deleteOwner 1) = none) ∧
    (∀ n, ∃ w, runAll (n + 9) nothing [.newOwner 1 false, .create 10 [], .assign 1 (some 10)] = some w ∧ run (n + 9) w (.assign 1 (some 10)) = none) := by
  have hclear : ∀ (m : Nat) (w : World) (c : Nat), w.cons c = some (.list [10]) → w.objs 10 = none → clear m w c = none := by
    intro m w c h1 h2
    cases m with
    | zero => rfl
    | succ m => simp [clear, h1, dropOwner, putC, h2]
  have hdel : ∀ (m : Nat) (w : World) (c : Nat), w.cons c = some (.ref (some 10)) → w.objs 10 = none → clear m w c = none := by
    intro m w c h1 h2
    cases m with
    | zero => rfl
    | succ m => simp [clear, h1, dropOwner, putC, h2]
  refine ⟨fun n => ?_, fun n => ?_, fun n => ?_⟩
  · refine ⟨_, by simp [runAll, run, nothing, newOwner, create, pushBack, getList, attach, putC, putO, release, detach, onReleased, destroyAll, free]; rfl,
      ?_, ?_, ?_⟩
    · rfl
    · rfl
    · intro m
      simp only [run]
      rw [hclear m _ 2 rfl rfl]
      rfl
  · refine ⟨_, _, _, by simp [runAll, run, nothing, newOwner, create, assign, releasePtr, attachPtr, attach, putC, putO]; rfl,
      by simp [exchange, assign, releasePtr, attachPtr, attach, putC, putO]; rfl, ?_, ?_,
      by simp [run, release, detach, onReleased, destroyAll, free, putC, putO]; rfl, ?_, ?_, ?_⟩
    · rfl
    · rfl
    · rfl
    · rfl
    · intro m
      simp only [run, deleteOwner]
      rw [hdel m _ 1 rfl rfl]
      rfl
  · refine ⟨_, by simp [runAll, run, nothing, newOwner, create, assign, releasePtr, attachPtr, attach, putC, putO]; rfl, ?_⟩
    simp [run, assign, releasePtr, attachPtr, attach, putC, putO, release, detach, onReleased, destroyAll, free]

end Verif.FOwn
