import Verif.EventSpec
import Verif.Event
import Mathlib.Data.List.Induction

/-! # Lemmas for the properties in EventProps -/

namespace Verif.FEvent

variable {F : Type}

theorem active_insert (ops : List (Op F)) (o : Nat) (f : F) : active (ops ++ [.insert o f]) = active ops ++ [(o, f)] := by
  induction ops with
  | nil => simp [active]
  | cons op ops ih =>
    cases op with
    | insert o' f' =>
      by_cases h : ops.any (Op.releases o')
      · simp [active, ih, h]
      · simp [active, ih, h, Op.releases]
    | release o' => simp [active, ih]

theorem active_release (ops : List (Op F)) (o : Nat) : active (ops ++ [.release o]) = (active ops).filter fun r => r.1 ≠ o := by
  induction ops with
  | nil => simp [active]
  | cons op ops ih =>
    cases op with
    | insert o' f' =>
      by_cases h : ops.any (Op.releases o')
      · simp [active, ih, h]
      · by_cases ho : o = o'
        · subst ho
          simp [active, ih, h, Op.releases]
        · have : ¬ o' = o := fun e => ho e.symm
          simp [active, ih, h, Op.releases, ho, this]
    | release o' => simp [active, ih]

theorem exec_append (h : List (Slot F)) (a b : List (Op F)) : exec h (a ++ b) = (exec h a).bind fun h => exec h b := by
  induction a generalizing h with
  | nil => rfl
  | cons op a ih =>
    cases op with
    | insert o f => simp [exec, ih]
    | release o =>
      simp only [List.cons_append, exec]
      cases releaseHandler h o with
      | none => rfl
      | some h' => simp [ih]

/-- A live element. -/
def toSlot (r : Nat × F) : Slot F := .live r.1 r.2

theorem removeIf_live (o : Nat) (rs : List (Nat × F)) :
    removeIf o (rs.map toSlot) = some ((rs.filter fun r => r.1 ≠ o).map toSlot, (rs.filter fun r => r.1 = o).length) := by
  induction rs with
  | nil => rfl
  | cons r rs ih =>
    simp only [List.map_cons, removeIf, toSlot, hits, Option.bind_some]
    rw [show List.map toSlot rs = rs.map toSlot from rfl, ih]
    by_cases h : r.1 = o <;> simp [h, toSlot]

theorem fire_live (rs : List (Nat × F)) : fire (rs.map toSlot) = some (rs.map Prod.snd).reverse := by
  induction rs with
  | nil => rfl
  | cons r rs ih => simp [toSlot, fire, ih]

theorem exec_active (ops : List (Op F)) (hp : Proper ops) : exec [] ops = some ((active ops).map toSlot) := by
  induction ops using List.reverseRecOn with
  | nil => rfl
  | append_singleton ops op ih =>
    have hp' : Proper ops := fun a o b h => hp a o (b ++ [op]) (by simp [h])
    rw [exec_append, ih hp', Option.bind_some]
    cases op with
    | insert o f => simp [exec, insertHandler, active_insert, toSlot]
    | release o =>
      have h1 := hp ops o [] rfl
      simp only [exec, releaseHandler, removeIf_live, Option.bind_some, h1]
      simp [active_release]

theorem execE_level (ops : List (EOp F)) : ∀ (e : Errors F), (∀ l, ∃ h, exec (e.event l) (atLevel l ops) = some h) →
    ∃ e', execE e ops = some e' ∧ ∀ l, exec (e.event l) (atLevel l ops) = some (e'.event l) := by
  induction ops with
  | nil => exact fun e _ => ⟨e, rfl, fun _ => rfl⟩
  | cons op ops ih =>
    intro e he
    cases op with
    | add l' o f =>
      have key : ∀ l, exec (e.event l) (atLevel l (.add l' o f :: ops)) = exec ((e.add l' o f).event l) (atLevel l ops) := fun l => by
        cases l <;> cases l' <;> simp [atLevel, Errors.event, Errors.add, exec]
      simp only [key] at he ⊢
      exact ih _ he
    | remove l' o =>
      obtain ⟨h, hh⟩ := he l'
      have h2 : ∃ h2, releaseHandler (e.event l') o = some h2 := by
        simp only [atLevel, if_true, exec] at hh
        cases hr : releaseHandler (e.event l') o with
        | none => simp [hr] at hh
        | some h2 => exact ⟨h2, rfl⟩
      obtain ⟨h2, hr⟩ := h2
      have h3 : ∃ e2, e.remove l' o = some e2 ∧ ∀ l, e2.event l = if l = l' then h2 else e.event l := by
        cases l' <;> simp only [Errors.event] at hr <;> simp only [Errors.remove, hr, Option.map_some] <;>
          refine ⟨_, rfl, fun l => ?_⟩ <;> cases l <;> simp [Errors.event]
      obtain ⟨e2, he2, hev⟩ := h3
      have key : ∀ l, exec (e.event l) (atLevel l (.remove l' o :: ops)) = exec (e2.event l) (atLevel l ops) := fun l => by
        rw [hev l]
        by_cases hl : l = l'
        · subst hl; simp [atLevel, exec, hr]
        · have : ¬ l' = l := fun x => hl x.symm
          simp [atLevel, hl, this]
      simp only [key] at he ⊢
      simp only [execE, he2, Option.bind_some]
      exact ih _ he
    | fatal l' =>
      have key : ∀ l, exec (e.event l) (atLevel l (.fatal l' :: ops)) = exec ((e.setFatal l').event l) (atLevel l ops) := fun l => by
        cases l <;> rfl
      simp only [key] at he ⊢
      exact ih _ he

theorem execE_fatal (ops : List (EOp F)) : ∀ (e e' : Errors F), execE e ops = some e' →
    e'.fatal = if ops.any EOp.isFatal then lastFatal ops else e.fatal := by
  induction ops with
  | nil => rintro e e' ⟨⟩; rfl
  | cons op ops ih =>
    intro e e' h
    cases op with
    | add l o f => rw [ih _ _ h]; cases l <;> simp [lastFatal, EOp.isFatal, Errors.add]
    | remove l o =>
      simp only [execE] at h
      cases hr : e.remove l o with
      | none => simp [hr] at h
      | some e2 =>
        rw [hr, Option.bind_some] at h
        have : e2.fatal = e.fatal := by
          cases l <;> simp only [Errors.remove, Option.map_eq_some_iff] at hr <;> obtain ⟨_, _, rfl⟩ := hr <;> rfl
        rw [ih _ _ h, this]
        simp [lastFatal, EOp.isFatal]
    | fatal l =>
      rw [ih _ _ h]
      by_cases ha : ops.any EOp.isFatal
      · simp [lastFatal, EOp.isFatal, ha]
      · simp [lastFatal, EOp.isFatal, ha, Errors.setFatal]

end Verif.FEvent
