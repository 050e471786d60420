import Verif.VecSpec
import Verif.VecLemmas

/-! # Lemmas for the properties in VecProps -/

namespace Verif.FVec

variable {T : Type} [DecidableEq T]

omit [DecidableEq T] in
theorem insertIdx_eq (l : List (Option T)) (it : Nat) (h : it ≤ l.length) (x : Option T) :
    l.insertIdx it x = l.take it ++ x :: l.drop it := by
  induction l generalizing it with
  | nil => simp at h; subst h; rfl
  | cons a l ih =>
    cases it with
    | zero => rfl
    | succ it => simp at h; simp [ih it h]

theorem step_ideal (triv : Bool) (dflt : T) (v : Vec T) (l : List (Option T)) (h : Rep triv v l) (op : Op T) (hok : op.ok l.length) :
    ∃ v' l', step triv dflt v op = some v' ∧ Ideal triv dflt l op l' ∧ Rep triv v' l' := by
  have hs : v.sized = l.length := h.choose_spec.2.1
  cases op with
  | pushBack x =>
    obtain ⟨v', e, h', -⟩ := insertOne_rep triv v l h v.sized (by omega) x
    rw [hs] at h'
    exact ⟨v', _, e, .pushBack l x, by simpa using h'⟩
  | pushFront x =>
    obtain ⟨v', e, h', -⟩ := insertOne_rep triv v l h 0 (by omega) x
    exact ⟨v', _, e, .pushFront l x, by simpa using h'⟩
  | insert it x =>
    obtain ⟨v', e, h', -⟩ := insertOne_rep triv v l h it hok x
    exact ⟨v', _, e, .insert l it x, by rw [insertIdx_eq l it hok]; exact h'⟩
  | insertMany it n x =>
    obtain ⟨v', e, h'⟩ := insertMany_rep triv v l h it n hok x
    exact ⟨v', _, e, .insertMany l it n x, by simpa using h'⟩
  | insertRange it xs =>
    obtain ⟨v', e, h'⟩ := insertRange_rep triv v l h it hok xs
    exact ⟨v', _, e, .insertRange l it xs, by simpa using h'⟩
  | eraseAt it =>
    obtain ⟨v', e, h', -⟩ := eraseAt_rep triv v l h it hok
    exact ⟨v', _, e, .eraseAt l it, h'⟩
  | eraseRange a b =>
    obtain ⟨v', e, h', -⟩ := eraseRange_rep triv v l h a b hok.1 hok.2
    exact ⟨v', _, e, .eraseRange l a b, h'⟩
  | eraseValue x =>
    obtain ⟨v', e, h'⟩ := eraseValue_rep triv v l h x
    exact ⟨v', _, by simp [step, e], .eraseValue l x, h'⟩
  | replace a b =>
    obtain ⟨v', e, h'⟩ := replace_rep triv v l h a b
    exact ⟨v', _, e, .replace l a b, h'⟩
  | resize n =>
    obtain ⟨v', new, e, h', hn, hd⟩ := resize_rep triv dflt v l h n
    exact ⟨v', _, e, .resize l n new hn hd, h'⟩
  | resizeWith n x =>
    obtain ⟨v', e, h'⟩ := resizeWith_rep triv v l h n x
    exact ⟨v', _, e, .resizeWith l n x, h'⟩
  | reserve n =>
    obtain ⟨v', e, h', -⟩ := reserve_rep triv v l n h
    exact ⟨v', _, e, .reserve l n, h'⟩
  | popBack =>
    obtain ⟨v', e, h', -⟩ := popBack_rep triv v l h
    exact ⟨v', _, e, .popBack l, h'⟩
  | popFront =>
    obtain ⟨v', e, h', -⟩ := eraseAt_rep triv v l h 0 hok
    exact ⟨v', _, e, .popFront l, by simpa using h'⟩
  | clear =>
    obtain ⟨v', e, h', -⟩ := reserve_rep triv v l 0 h
    exact ⟨v', _, e, .clear l, by simpa using h'⟩
  | assign xs =>
    obtain ⟨v', e, h'⟩ := assign_rep triv dflt v l h xs
    exact ⟨v', _, e, .assign l xs, h'⟩

theorem run_ideal (triv : Bool) (dflt : T) : ∀ (ops : List (Op T)) (v : Vec T) (l : List (Option T)), Rep triv v l → InRange triv dflt l ops →
    ∃ v' l', run triv dflt v ops = some v' ∧ IdealRun triv dflt l ops l' ∧ Rep triv v' l' := by
  intro ops
  induction ops with
  | nil => intro v l h _; exact ⟨v, l, rfl, .nil l, h⟩
  | cons op ops ih =>
    intro v l h hr
    obtain ⟨v1, l1, e, hi, h1⟩ := step_ideal triv dflt v l h op hr.1
    obtain ⟨v2, l2, e2, hi2, h2⟩ := ih v1 l1 h1 (hr.2 l1 hi)
    exact ⟨v2, l2, by rw [run, e, Option.bind_some, e2], .cons hi hi2, h2⟩

end Verif.FVec
