import Verif.SplineTerms
import Mathlib.Data.Rat.Defs
import Mathlib.Algebra.Order.Field.Rat
import Verif.SplineLemmas

/-! # Lemmas for the properties in SplineProps -/

namespace Verif.FSpline

open Verif.FEff (Text text)

variable {P K : Type}

section linear

theorem toBezier_curve (s b : Spline P K) (h : 2 ≤ s.cvs.length) (hb : b.closed = true → s.closed = true) :
    (toBezier s b).closed = s.closed ∧ curve (toBezier s b) = (polyline s).map fun x => ⟨x.1, x.1, x.2, x.2⟩ := by
  have hv : linearValid s = true := decide_eq_true h
  have e : toBezier s b = { b with form := if s.closed then 1 else b.form, cvs := bezierCVs s.closed s.cvs.length s.cvs 0 } := by
    rw [toBezier, hv]
    rfl
  cases hc : s.closed
  · have hbc : b.closed = false := by
      cases hx : b.closed
      · rfl
      · rw [hb hx] at hc
        cases hc
    have h1 : (toBezier s b).closed = false := by rw [e, hc]; exact hbc
    have h2 : (toBezier s b).cvs = bezierCVs false s.cvs.length s.cvs 0 := by rw [e, hc]
    refine ⟨h1, ?_⟩
    simp only [curve, polyline, h1, h2, hc, Bool.false_eq_true, if_false]
    exact toBezier_open _ h
  · have h1 : (toBezier s b).closed = true := by rw [e, hc]; rfl
    have h2 : (toBezier s b).cvs = bezierCVs true s.cvs.length s.cvs 0 := by rw [e, hc]
    refine ⟨h1, ?_⟩
    simp only [curve, polyline, h1, h2, hc, if_true]
    exact toBezier_closed _

theorem line_runsAlong [AddCommGroup P] [Module ℝ P] (p q : P) : RunsAlong (⟨p, p, q, q⟩ : Seg P) (p, q) := by
  refine ⟨line_image p q, fun t => 3 * t ^ 2 - 2 * t ^ 3, by norm_num, by norm_num, ?_, fun t => line_at p q t⟩
  intro a b h0 h1 h2
  exact smooth_mono h0 h1 h2

end linear

section nurbs

variable [Field K] [LinearOrder K]

theorem nurbsList_same [AddCommGroup P] [Module K P] (l : List (Seg P)) : List.Forall₂ (SameCurve K) l (nurbsList K l) := by
  rw [nurbsList, List.forall₂_map_right_iff, List.forall₂_same]
  intro s _
  exact nurbsOf_same s.a s.b s.c s.d

theorem point_unique [AddCommGroup P] [Module K P] {p : Nat} {cvs : List P} {w u : List K} {t : K} {x y : P} (h : IsNurbsPoint p cvs w u t x) (h' : IsNurbsPoint p cvs w u t y) : x = y := by
  have := h.2.2.2.trans h'.2.2.2.symm
  have e := congrArg (fun z => (weightAt p w u t)⁻¹ • z) this
  simpa only [inv_smul_smul₀ h.2.2.1] using e

theorem start_eq [AddCommGroup P] [Module K P] [IsStrictOrderedRing K] {g : Seg P} {a b c d : P} (h : SameCurve K g (nurbsOf a b c d)) : g.a = a := by
  obtain ⟨_, p, w, u, e, hp⟩ := h
  obtain ⟨_, p', w', u', e', hp'⟩ := nurbsOf_same (K := K) a b c d
  rw [e] at e'
  simp only [Kind.nurbs.injEq, Option.some.injEq] at e'
  obtain ⟨rfl, rfl, rfl⟩ := e'
  have := point_unique (hp 0 le_rfl zero_lt_one) (hp' 0 le_rfl zero_lt_one)
  simpa [Seg.at] using this

end nurbs

section geometry

theorem newSpline_type {t : Nat} {s : Spline P K} (h : newSpline t = some s) : s.kind.type = t := by
  match t, h with
  | 0, h => cases h; rfl
  | 1, h => cases h; rfl
  | 2, h => cases h; rfl

theorem edit_type [Zero K] [LT K] [DecidableLT K] (s : Spline P K) (e : Edit P K) : (edit s e).kind.type = s.kind.type := by
  cases e with
  | setName => rfl
  | setClosed => rfl
  | clearCVs => rfl
  | addCV =>
    simp only [edit, addPlain]
    split <;> rfl
  | addWeighted cv w =>
    simp only [edit, addCV]
    split
    · rename_i h
      split
      · rfl
      · rw [h]; rfl
    · rfl
  | setDegree =>
    simp only [edit, setDegree]
    split
    · rename_i h
      rw [h]; rfl
    · rfl
  | addKnot =>
    simp only [edit, addKnot]
    split
    · rename_i h
      rw [h]; rfl
    · rfl

theorem addSpline_cases (g : Geo P K) (t : Nat) : ((addSpline g t).2 = none ∧ (addSpline g t).1 = g)
    ∨ ∃ s, newSpline g.type = some s ∧ (t = unknown ∨ t = g.type) ∧ addSpline g t = ({ g with splines := g.splines ++ [s] }, some s) := by
  by_cases h : t ≠ unknown ∧ t ≠ g.type
  · left
    simp [addSpline, h]
  · have ht : (if t = unknown then g.type else t) = g.type := by
      split
      · rfl
      · rename_i hn
        by_contra hne
        exact h ⟨hn, hne⟩
    have h' : t = unknown ∨ t = g.type := by
      by_contra hn
      push Not at hn
      exact h hn
    have e : addSpline g t = match (newSpline g.type : Option (Spline P K)) with
        | none => (g, none)
        | some s => ({ g with splines := g.splines ++ [s] }, some s) := by
      simp only [addSpline, if_neg h, ht]
      rfl
    cases hs : (newSpline g.type : Option (Spline P K)) with
    | none =>
      left
      rw [e, hs]
      exact ⟨rfl, rfl⟩
    | some s =>
      right
      refine ⟨s, rfl, h', ?_⟩
      rw [e, hs]

theorem step_uniform [Zero K] [LT K] [DecidableLT K] (g : Geo P K) (o : Op P K) (h : Uniform g) : Uniform (step g o) := by
  cases o with
  | setType t => intro s hs; cases hs
  | addSpline t =>
    change Uniform (addSpline g t).1
    rcases addSpline_cases g t with ⟨_, e⟩ | ⟨s, hs, _, e⟩
    · rw [e]; exact h
    · rw [e]
      intro x hx
      rcases List.mem_append.mp hx with hx | hx
      · exact h x hx
      · rw [List.mem_singleton.mp hx]
        exact newSpline_type hs
  | edit i e =>
    intro s hs
    obtain ⟨j, hj, rfl⟩ := List.getElem_of_mem hs
    simp only [step, List.getElem_modify]
    have hj' : j < g.splines.length := by simpa [step] using hj
    split
    · rw [edit_type]
      exact h _ (List.getElem_mem hj')
    · exact h _ (List.getElem_mem hj')
  | release i =>
    intro s hs
    exact h s (List.mem_of_mem_eraseIdx hs)

theorem cloneInto_same {s d : Spline P K} (h : s.kind.type = d.kind.type) : s.cloneInto d = s := by
  obtain ⟨ks, fs, ns, cs⟩ := s
  obtain ⟨kd, fd, nd, cd⟩ := d
  cases ks <;> cases kd <;> first | rfl | (simp [Kind.type] at h)

theorem clone_loop (l : List (Spline P K)) : ∀ (c : Geo P K), (∀ s ∈ l, s.kind.type = c.type) →
    l.foldl cloneStep c = { c with splines := c.splines ++ l } := by
  induction l with
  | nil => intro c _; simp
  | cons s l ih =>
    intro c h
    have hs := h s List.mem_cons_self
    have hn : ∃ d : Spline P K, newSpline c.type = some d := by
      rw [← hs]
      cases s.kind <;> exact ⟨_, rfl⟩
    obtain ⟨d, hd⟩ := hn
    have e : cloneStep c s = { c with splines := c.splines ++ [s] } := by
      have : addSpline c unknown = ({ c with splines := c.splines ++ [d] }, some d) := by
        simp [addSpline, hd]
      simp only [cloneStep, this]
      rw [cloneInto_same (hs.trans (newSpline_type hd).symm)]
    rw [List.foldl_cons, e, ih ⟨c.type, c.splines ++ [s]⟩ (fun x hx => h x (List.mem_cons_of_mem _ hx))]
    simp

end geometry

end Verif.FSpline
