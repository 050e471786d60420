import Verif.AnimatedSpec

/-! # Lemmas about animated values -/

namespace Verif.FAnim

open Verif.FStr (Ch)

variable {C T V : Type}

/-- The write of one value. -/
def write : Option Nat × List C → Option (Nat × C)
  | (some p, c :: _) => some (p, c)
  | _ => none

/-- The writes of an animated value. -/
def writes (a : Anim C) : List (Nat × C) := (a.values.zip a.curves).filterMap write

/-- Writes in order. -/
def doWrites (eval : C → T → Option V) (t : T) : List (Nat × C) → (Nat → V) → Option (Nat → V)
  | [], mem => some mem
  | (p, c) :: ws, mem => (eval c t).bind fun y => doWrites eval t ws (Function.update mem p y)

theorem evalLoop_eq (eval : C → T → Option V) (t : T) (l : List (Option Nat × List C)) (mem : Nat → V) :
    evalLoop eval t l mem = doWrites eval t (l.filterMap write) mem := by
  induction l generalizing mem with
  | nil => rfl
  | cons x l ih =>
    obtain ⟨p, cs⟩ := x
    cases p with
    | none =>
      rw [evalLoop]
      · rw [List.filterMap_cons_none rfl]
        exact ih mem
      · simp
    | some p =>
      cases cs with
      | nil =>
        rw [evalLoop]
        · rw [List.filterMap_cons_none rfl]
          exact ih mem
        · simp
      | cons c cs =>
        rw [evalLoop]
        simp only [write, List.filterMap_cons, doWrites]
        exact congrArg _ (funext fun y => ih _)

theorem doWrites_append (eval : C → T → Option V) (t : T) (l l' : List (Nat × C)) (mem : Nat → V) :
    doWrites eval t (l ++ l') mem = (doWrites eval t l mem).bind (doWrites eval t l') := by
  induction l generalizing mem with
  | nil => rfl
  | cons x l ih =>
    simp only [List.cons_append, doWrites]
    rw [Option.bind_assoc]
    exact congrArg _ (funext fun y => ih _)

theorem evaluateAll_eq (eval : C → T → Option V) (t : T) (as : List (Anim C)) (mem : Nat → V) :
    evaluateAll eval t as mem = doWrites eval t (as.flatMap writes) mem := by
  induction as generalizing mem with
  | nil => rfl
  | cons a as ih =>
    rw [List.flatMap_cons, doWrites_append, evaluateAll, evaluate, evalLoop_eq]
    exact congrArg _ (funext fun m => ih m)

theorem mem_writes {a : Anim C} {p : Nat} {c : C} :
    (p, c) ∈ writes a ↔ ∃ i : Nat, a.values[i]? = some (some p) ∧ getCurve a i 0 = some c := by
  unfold writes
  rw [List.mem_filterMap]
  constructor
  · rintro ⟨⟨o, cs⟩, hm, hw⟩
    obtain ⟨i, hi⟩ := List.getElem?_of_mem hm
    rw [List.getElem?_zip_eq_some] at hi
    cases o with
    | none => simp [write] at hw
    | some p' =>
      cases cs with
      | nil => simp [write] at hw
      | cons c' cs =>
        simp only [write, Option.some.injEq, Prod.mk.injEq] at hw
        obtain ⟨rfl, rfl⟩ := hw
        have lt := (List.getElem?_eq_some_iff.1 hi.1).1
        exact ⟨i, hi.1, by simp [getCurve, lt, hi.2]⟩
  · rintro ⟨i, h1, h2⟩
    have lt := (List.getElem?_eq_some_iff.1 h1).1
    simp only [getCurve, lt, if_true] at h2
    obtain ⟨cs, e1, e2⟩ := Option.bind_eq_some_iff.1 h2
    cases cs with
    | nil => simp at e2
    | cons c' cs =>
      simp only [List.getElem?_cons_zero, Option.some.injEq] at e2
      subst e2
      refine ⟨(some p, c' :: cs), List.mem_of_getElem? (i := i) ?_, rfl⟩
      rw [List.getElem?_zip_eq_some]
      exact ⟨h1, e1⟩

theorem doWrites_spec (eval : C → T → Option V) (t : T) (ws : List (Nat × C)) (hd : ∀ p c, (p, c) ∈ ws → (eval c t).isSome)
    (ha : ∀ p c d, (p, c) ∈ ws → (p, d) ∈ ws → c = d) (mem : Nat → V) :
    ∃ mem', doWrites eval t ws mem = some mem' ∧ (∀ p c, (p, c) ∈ ws → eval c t = some (mem' p)) ∧ ∀ p, (∀ c, (p, c) ∉ ws) → mem' p = mem p := by
  induction ws generalizing mem with
  | nil => exact ⟨mem, rfl, by simp, fun _ _ => rfl⟩
  | cons w ws ih =>
    obtain ⟨p, c⟩ := w
    obtain ⟨y, hy⟩ := Option.isSome_iff_exists.1 (hd p c (by simp))
    obtain ⟨mem', e, h1, h2⟩ := ih (fun p c h => hd p c (by simp [h])) (fun p c d h h' => ha p c d (by simp [h]) (by simp [h'])) (Function.update mem p y)
    refine ⟨mem', by simp [doWrites, hy, e], ?_, ?_⟩
    · intro q d hq
      by_cases hm : ∃ d', (q, d') ∈ ws
      · obtain ⟨d', hd'⟩ := hm
        rw [ha q d d' hq (by simp [hd'])]
        exact h1 q d' hd'
      · rcases List.mem_cons.1 hq with q' | q'
        · simp only [Prod.mk.injEq] at q'
          obtain ⟨rfl, rfl⟩ := q'
          rw [h2 q fun d h => hm ⟨d, h⟩, hy]
          simp
        · exact absurd ⟨d, q'⟩ hm
    · intro q hq
      rw [h2 q fun d h => hq d (by simp [h]), Function.update_of_ne]
      rintro rfl
      exact hq c (by simp)

/-- Writes of a list of animated values. -/
theorem writes_sampled {eval : C → T → Option V} {t : T} {as : List (Anim C)} (h : Coherent eval t as) (mem : Nat → V) :
    ∃ mem', doWrites eval t (as.flatMap writes) mem = some mem' ∧ Sampled eval t as mem mem' := by
  have hm : ∀ p c, (p, c) ∈ as.flatMap writes ↔ ∃ a ∈ as, ∃ i : Nat, a.values[i]? = some (some p) ∧ getCurve a i 0 = some c := by
    intro p c
    rw [List.mem_flatMap]
    constructor
    · rintro ⟨a, ha, h'⟩
      exact ⟨a, ha, mem_writes.1 h'⟩
    · rintro ⟨a, ha, h'⟩
      exact ⟨a, ha, mem_writes.2 h'⟩
  obtain ⟨mem', e, h1, h2⟩ := doWrites_spec eval t (as.flatMap writes)
    (by
      intro p c hc
      obtain ⟨a, ha, i, _, hi⟩ := (hm p c).1 hc
      exact h.defined a ha i c hi)
    (by
      intro p c d hc hd
      obtain ⟨a, ha, i, i1, i2⟩ := (hm p c).1 hc
      obtain ⟨b, hb, j, j1, j2⟩ := (hm p d).1 hd
      exact h.agree a ha b hb i j p c d i1 j1 i2 j2) mem
  refine ⟨mem', e, ⟨fun a ha i p c i1 i2 => h1 p c ((hm p c).2 ⟨a, ha, i, i1, i2⟩), fun p hp => h2 p fun c hc => ?_⟩⟩
  obtain ⟨a, ha, i, i1, i2⟩ := (hm p c).1 hc
  rw [hp a ha i i1] at i2
  cases i2

/-- The animated values of all documents that are reached. -/
def Visits (docs : Nat → Doc C) (d : Nat) (l : List (Anim C)) : Prop := ∀ a, a ∈ l ↔ ∃ e, Reaches docs d e ∧ a ∈ (docs e).anims

theorem setTime_eq (eval : C → T → Option V) (t : T) (docs : Nat → Doc C) (rank : Nat → Nat) (hr : ∀ d, ∀ c ∈ (docs d).children, rank c < rank d) :
    ∀ d, ∃ l, Visits docs d l ∧ ∀ n > rank d, ∀ mem : Nat → V, setTime eval t docs n d mem = doWrites eval t (l.flatMap writes) mem := by
  have key : ∀ r d, rank d < r → ∃ l, Visits docs d l ∧ ∀ n > rank d, ∀ mem : Nat → V, setTime eval t docs n d mem = doWrites eval t (l.flatMap writes) mem := by
    intro r
    induction r with
    | zero => intro d h; omega
    | succ r ih =>
      intro d hd
      have loop : ∀ cs : List Nat, (∀ c ∈ cs, rank c < rank d) → ∃ l : List (Anim C), (∀ a, a ∈ l ↔ ∃ c ∈ cs, ∃ e, Reaches docs c e ∧ a ∈ (docs e).anims) ∧
          ∀ n ≥ rank d, ∀ mem : Nat → V, childLoop (setTime eval t docs n) cs mem = doWrites eval t (l.flatMap writes) mem := by
        intro cs hcs
        induction cs with
        | nil => exact ⟨[], by simp, fun _ _ _ => rfl⟩
        | cons c cs ihc =>
          obtain ⟨l, h1, h2⟩ := ihc fun c' h => hcs c' (by simp [h])
          have hc := hcs c (by simp)
          obtain ⟨l0, g1, g2⟩ := ih c (by omega)
          refine ⟨l0 ++ l, ?_, ?_⟩
          · intro a
            rw [List.mem_append, h1 a, g1 a]
            simp
          · intro n hn mem
            rw [childLoop, g2 n (by omega), List.flatMap_append, doWrites_append]
            exact congrArg _ (funext fun m => h2 n hn m)
      obtain ⟨l, h1, h2⟩ := loop (docs d).children (hr d)
      refine ⟨(docs d).anims ++ l, ?_, ?_⟩
      · intro a
        rw [List.mem_append, h1 a]
        constructor
        · rintro (h | ⟨c, hc, e, he, ha⟩)
          · exact ⟨d, .refl d, h⟩
          · exact ⟨e, .step hc he, ha⟩
        · rintro ⟨e, he, ha⟩
          cases he with
          | refl => exact .inl ha
          | step hc he => exact .inr ⟨_, hc, e, he, ha⟩
      · intro n hn mem
        obtain ⟨m, rfl⟩ : ∃ m, n = m + 1 := ⟨n - 1, by omega⟩
        rw [setTime, evaluateAll_eq, List.flatMap_append, doWrites_append]
        exact congrArg _ (funext fun x => h2 m (by omega) x)
  exact fun d => key (rank d + 1) d (by omega)

theorem setTime_cycle (eval : C → T → Option V) (t : T) (docs : Nat → Doc C) (S : Nat → Prop) (hS : ∀ d, S d → ∃ c, c ∈ (docs d).children ∧ S c) (n : Nat) :
    ∀ d, S d → ∀ mem : Nat → V, setTime eval t docs n d mem = none := by
  induction n with
  | zero => intros; rfl
  | succ n ih =>
    intro d hd mem
    obtain ⟨c, hc, hs⟩ := hS d hd
    have loop : ∀ cs : List Nat, c ∈ cs → ∀ mem : Nat → V, childLoop (setTime eval t docs n) cs mem = none := by
      intro cs
      induction cs with
      | nil => simp
      | cons b cs ihc =>
        intro hm mem
        rw [childLoop]
        rcases List.mem_cons.1 hm with rfl | h
        · rw [ih c hs]
          rfl
        · cases setTime eval t docs n b mem with
          | none => rfl
          | some m => exact ihc h m
    rw [setTime]
    cases evaluateAll eval t (docs d).anims mem with
    | none => rfl
    | some m => exact loop _ hc m

/-- The lists of an animated value have the same length. -/
def Even (a : Anim C) : Prop := a.qualifiers.length = a.values.length ∧ a.curves.length = a.values.length

theorem step_values [DecidableEq C] (a : Anim C) (op : Op C) : (step a op).values = a.values ∧ (step a op).qualifiers = a.qualifiers ∧
    (step a op).curves.length = a.curves.length := by
  cases op with
  | add i c => simp only [step, addCurve]; split <;> simp
  | addList i cs => simp only [step, addCurves]; split <;> simp
  | remove i => simp only [step, removeCurve]; split <;> simp
  | drop c => simp [step, dropCurve]

end Verif.FAnim
