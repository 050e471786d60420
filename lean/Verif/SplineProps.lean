import Verif.SplineAux
import Mathlib.Data.Rat.Defs
import Mathlib.Algebra.Order.Field.Rat
import Verif.SplineLemmas

/-! # Properties of splines (C133, C134, C135) -/

namespace Verif.FSpline

open Verif.FEff (Text text)

variable {P K : Type}

/-- C135: with fewer than 2^64 knots and vertices, a NURBS spline is valid exactly when it has vertices, a weight for each, and as many knots as vertices, degree and one together. -/
theorem nurbs_valid (d : Nat) (w u : List K) (cvs : List P) (hu : u.length < 2 ^ 64) (hd : d < 2 ^ 32) (hc : cvs.length + d + 1 < 2 ^ 64) :
    nurbsValid (some d) w u cvs = some true ↔ cvs ≠ [] ∧ cvs.length = w.length ∧ u.length = cvs.length + d + 1 := by
  have e : d % 2 ^ 32 = d := Nat.mod_eq_of_lt hd
  have key : cvs.length = (u.length + 2 ^ 64 - d % 2 ^ 32 + 2 ^ 64 - 1) % 2 ^ 64 ↔ u.length = cvs.length + d + 1 := by
    rw [e]
    omega
  simp only [nurbsValid, Option.map_some, Option.some.injEq, Bool.and_eq_true, decide_eq_true_eq, key, and_assoc, ne_eq, List.length_eq_zero_iff]

section linear

/-- C133: converting a linear spline of two vertices or more into a Bezier spline that is not closed unless the linear spline is gives a Bezier spline closed exactly when the linear one is, with one segment for each side of the linear spline, each running along its side. The name and the class of the given spline stay. -/
theorem linear_to_bezier_partial [AddCommGroup P] [Module ℝ P] (s b : Spline P K) (h : 2 ≤ s.cvs.length) (hb : b.closed = true → s.closed = true) :
    (toBezier s b).closed = s.closed ∧ (toBezier s b).kind = b.kind ∧ (toBezier s b).name = b.name
      ∧ List.Forall₂ RunsAlong (curve (toBezier s b)) (polyline s) := by
  obtain ⟨h1, h2⟩ := toBezier_curve s b h hb
  refine ⟨h1, ?_, ?_, ?_⟩
  · rw [toBezier]; split <;> rfl
  · rw [toBezier]; split <;> rfl
  · rw [h2]
    rw [List.forall₂_map_left_iff, List.forall₂_same]
    intro x _
    exact line_runsAlong x.1 x.2

example : (3 : Nat) = (polyline (⟨.linear, 1, [], [(0 : ℚ), 1, 2]⟩ : Spline ℚ ℚ)).length ∧ curve (toBezier (⟨.linear, 1, [], [(0 : ℚ), 1, 2]⟩ : Spline ℚ ℚ) ⟨.bezier, 0, [], []⟩)
    = [⟨0, 0, 1, 1⟩, ⟨1, 1, 2, 2⟩, ⟨2, 2, 0, 0⟩] := by decide +kernel

/-- C133, violated: an open linear spline converted into a Bezier spline that was closed gives a closed one, whose segments do not end where the sides do. -/
theorem linear_to_bezier_violated : (∀ s b : Spline P K, 2 ≤ s.cvs.length → b.closed = true → (toBezier s b).closed = true)
    ∧ ∃ s b : Spline ℚ ℚ, 2 ≤ s.cvs.length ∧ s.closed = false ∧ b.closed = true
      ∧ (curve (toBezier s b)).map Seg.d ≠ (polyline s).map Prod.snd := by
  constructor
  · intro s b h hb
    rw [toBezier, show linearValid s = true from decide_eq_true h]
    change ((if s.closed then 1 else b.form) == 1) = true
    split
    · rfl
    · exact hb
  · exact ⟨⟨.linear, 0, [], [0, 1]⟩, ⟨.bezier, 1, [], []⟩, by decide, rfl, rfl, by decide +kernel⟩

/-- C133, violated: a linear spline of fewer than two vertices leaves the given Bezier spline as it was, with all its vertices. -/
theorem linear_too_short_violated (s b : Spline P K) (h : s.cvs.length < 2) : toBezier s b = b := by
  rw [toBezier, show linearValid s = false from decide_eq_false (by omega)]
  rfl

example : (toBezier (⟨.linear, 0, [], [(7 : ℚ)]⟩ : Spline ℚ ℚ) ⟨.bezier, 0, [], [1, 2, 3, 4]⟩).cvs = [1, 2, 3, 4] := by decide +kernel

end linear

section nurbs

variable [Field K] [LinearOrder K]

/-- C134: converting an open Bezier spline gives, for each of its segments in turn, one open NURBS spline with the same curve; there are `(n - 1) / 3` for `n` vertices. -/
theorem bezier_to_nurbs_open [AddCommGroup P] [Module K P] (s : Spline P K) (h : s.closed = false) :
    ∃ L, toNURBs s = some L ∧ List.Forall₂ (SameCurve K) (segments s.cvs) L ∧ L.length = (s.cvs.length - 1) / 3 := by
  refine ⟨_, toNURBs_open s h, nurbsList_same _, ?_⟩
  rw [nurbsList, List.length_map, segments_length _ _ le_rfl]

/-- C134: converting a closed Bezier spline with an in-tangent, a position and an out-tangent for each of its knots gives one open NURBS spline for each segment, with the same curve, the last one coming back to the first knot. -/
theorem bezier_to_nurbs_closed_partial [AddCommGroup P] [Module K P] (s : Spline P K) (h : s.closed = true) (k : Nat) (hk : s.cvs.length = 3 * (k + 1)) :
    ∃ L, toNURBs s = some L ∧ List.Forall₂ (SameCurve K) (loopSegments s.cvs) L ∧ L.length = k + 1 := by
  refine ⟨_, toNURBs_closed s h hk, nurbsList_same _, ?_⟩
  rw [nurbsList, List.length_map]
  match e : s.cvs, hk with
  | i :: q :: l, hk =>
    rw [loopSegments, segments_length _ _ le_rfl]
    simp only [List.length_append, List.length_cons, List.length_nil] at hk ⊢
    omega

omit [LinearOrder K] in
/-- C134: every NURBS spline made by the conversion is one its validity check accepts. -/
theorem converted_valid (s : Spline P K) (L : List (Spline P K)) (h : s.closed = false ∨ ∃ k, s.cvs.length = 3 * (k + 1)) (e : toNURBs s = some L) (n : Spline P K) (hn : n ∈ L) :
    ∃ d w u, n.kind = .nurbs d w u ∧ nurbsValid d w u n.cvs = some true := by
  have key : ∀ l : List (Seg P), n ∈ nurbsList K l → ∃ d w u, n.kind = .nurbs d w u ∧ nurbsValid d w u n.cvs = some true := by
    intro l hl
    obtain ⟨g, _, rfl⟩ := List.mem_map.mp hl
    exact ⟨some 3, _, _, rfl, (nurbs_valid 3 _ _ _ (by norm_num) (by norm_num) (by norm_num [nurbsOf])).mpr ⟨by simp [nurbsOf], rfl, rfl⟩⟩
  cases hc : s.closed
  · rw [toNURBs_open s hc, Option.some.injEq] at e
    subst e
    exact key _ hn
  · rcases h with h | ⟨k, hk⟩
    · rw [hc] at h
      cases h
    · rw [toNURBs_closed s hc hk, Option.some.injEq] at e
      subst e
      exact key _ hn

/-- C133 and C134: a linear spline converted into a new Bezier spline and then to NURBS splines gives one for each side, running along it. -/
theorem linear_to_nurbs [AddCommGroup P] [Module K P] (s : Spline P K) (h : 2 ≤ s.cvs.length) :
    ∃ L, toNURBs (toBezier s { kind := .bezier }) = some L
      ∧ List.Forall₂ (fun x n => ∃ p w u, n.kind = Kind.nurbs (some p) w u ∧ ∀ t : K, 0 ≤ t → t < 1 → IsNurbsPoint p n.cvs w u t (x.1 + (3 * t ^ 2 - 2 * t ^ 3) • (x.2 - x.1))) (polyline s) L := by
  obtain ⟨h1, h2⟩ := toBezier_curve s { kind := .bezier } h (fun hb => nomatch hb)
  have key : ∀ l : List (P × P), List.Forall₂ (fun x n => ∃ p w u, n.kind = Kind.nurbs (some p) w u ∧ ∀ t : K, 0 ≤ t → t < 1 → IsNurbsPoint p n.cvs w u t (x.1 + (3 * t ^ 2 - 2 * t ^ 3) • (x.2 - x.1)))
      l (nurbsList K (l.map fun x => ⟨x.1, x.1, x.2, x.2⟩)) := by
    intro l
    rw [nurbsList, List.map_map, List.forall₂_map_right_iff, List.forall₂_same]
    intro x _
    obtain ⟨_, p, w, u, e, hp⟩ := nurbsOf_same (K := K) x.1 x.1 x.2 x.2
    refine ⟨p, w, u, e, ?_⟩
    intro t a b
    have := hp t a b
    rw [line_at] at this
    exact this
  cases hc : s.closed
  · rw [hc] at h1
    refine ⟨_, toNURBs_open _ h1, ?_⟩
    simp only [curve, h1, Bool.false_eq_true, if_false] at h2
    rw [h2]
    exact key _
  · rw [hc] at h1
    have hl : (toBezier s ({ kind := .bezier } : Spline P K)).cvs.length = 3 * (s.cvs.length - 1 + 1) := by
      rw [toBezier, show linearValid s = true from decide_eq_true h, hc]
      change (bezierCVs true s.cvs.length s.cvs 0).length = _
      rw [bezierCVs_length_closed]
      omega
    refine ⟨_, toNURBs_closed _ h1 hl, ?_⟩
    simp only [curve, h1, if_true] at h2
    rw [h2]
    exact key _

example : (toNURBs (toBezier (⟨.linear, 1, [], [(0 : ℚ), 1, 2]⟩ : Spline ℚ ℚ) { kind := .bezier })).map (fun l => l.map fun n => n.cvs)
    = some [[0, 0, 1, 1], [1, 1, 2, 2], [2, 2, 0, 0]] := by decide +kernel

omit [LinearOrder K] in
/-- C134, violated: converting a closed Bezier spline without vertices, or with one only, reads outside of the list. -/
theorem closed_small_violated (s : Spline P K) (h : s.closed = true) (hl : s.cvs.length < 2) : toNURBs s = none := by
  simp only [toNURBs, h, Bool.not_true, Bool.false_eq_true, if_false, if_pos hl, Option.bind_eq_none_iff]
  intros
  trivial

example : ∃ s : Spline ℚ ℚ, s.closed = true ∧ s.cvs.length < 2 ∧ bezierValid false s = true := ⟨⟨.bezier, 1, [], [5]⟩, rfl, by decide, rfl⟩

end nurbs

/-- C134, violated: the segments of a closed Bezier spline as the class describes them, the first vertex being used again at the end, are not those of the NURBS splines. -/
theorem closed_documented_violated : ∃ s : Spline ℚ ℚ, s.closed = true ∧ s.cvs.length = 3
    ∧ ¬ ∃ L, toNURBs s = some L ∧ List.Forall₂ (SameCurve ℚ) (docSegments true s.cvs) L := by
  refine ⟨⟨.bezier, 1, [], [0, 1, 2]⟩, rfl, rfl, ?_⟩
  rintro ⟨L, e, hf⟩
  have e' : toNURBs (⟨.bezier, 1, [], [0, 1, 2]⟩ : Spline ℚ ℚ) = some [nurbsOf 1 2 0 1] := by decide +kernel
  rw [e', Option.some.injEq] at e
  subst e
  have hs : docSegments true ([0, 1, 2] : List ℚ) = [⟨0, 1, 2, 0⟩] := by simp [docSegments, segments]
  rw [hs] at hf
  cases hf with
  | cons h _ => exact absurd (start_eq h) (by norm_num)

/-- C134, violated: a closed Bezier spline with a number of vertices that is no multiple of three gives splines that do not start at its first knot. -/
theorem closed_count_violated : ∃ s : Spline ℚ ℚ, s.closed = true ∧ s.cvs.length = 4
    ∧ ¬ ∃ L, toNURBs s = some L ∧ List.Forall₂ (SameCurve ℚ) (loopSegments s.cvs) L := by
  refine ⟨⟨.bezier, 1, [], [0, 1, 2, 3]⟩, rfl, rfl, ?_⟩
  rintro ⟨L, e, hf⟩
  have e' : toNURBs (⟨.bezier, 1, [], [0, 1, 2, 3]⟩ : Spline ℚ ℚ) = some [nurbsOf 2 3 0 1] := by decide +kernel
  rw [e', Option.some.injEq] at e
  subst e
  have hs : loopSegments ([0, 1, 2, 3] : List ℚ) = [⟨1, 2, 3, 0⟩] := by simp [loopSegments, segments]
  rw [hs] at hf
  cases hf with
  | cons h _ => exact absurd (start_eq h) (by norm_num)

section geometry

/-- What can be done to a geometric spline from its creation on. -/
inductive Reach [Zero K] [LT K] [DecidableLT K] : Geo P K → Prop
  | init : Reach {}
  | step {g : Geo P K} (o : Op P K) : Reach g → Reach (step g o)

/-- C135: after any sequence of changes of type, new splines, changes of splines and releases, every spline of a geometric spline has its type. -/
theorem splines_have_type [Zero K] [LT K] [DecidableLT K] (g : Geo P K) (h : Reach g) : Uniform g := by
  induction h with
  | init => intro s hs; cases hs
  | step o _ ih => exact step_uniform _ o ih

/-- C135: adding a spline gives one exactly when the geometric spline has a type and that type or none is asked for; the new spline is empty, open, of that type, and last. Otherwise nothing changes. -/
theorem add_spline (g : Geo P K) (t : Nat) :
    (((addSpline g t).2 ≠ none) ↔ g.type ≤ 2 ∧ (t = unknown ∨ t = g.type))
      ∧ ((addSpline g t).2 = none → (addSpline g t).1 = g)
      ∧ ∀ s, (addSpline g t).2 = some s → s.kind.type = g.type ∧ s.form = 0 ∧ s.cvs = [] ∧ (addSpline g t).1.type = g.type ∧ (addSpline g t).1.splines = g.splines ++ [s] := by
  have hn : g.type ≤ 2 ↔ (newSpline g.type : Option (Spline P K)) ≠ none := by
    match g.type with
    | 0 => simp [newSpline]
    | 1 => simp [newSpline]
    | 2 => simp [newSpline]
    | n + 3 => simp [newSpline]
  rcases addSpline_cases g t with ⟨e1, e2⟩ | ⟨s, hs, ht, e⟩
  · refine ⟨⟨fun h => absurd e1 h, ?_⟩, fun _ => e2, ?_⟩
    · rintro ⟨h1, h2⟩
      exfalso
      rw [hn] at h1
      have hc : ¬ (t ≠ unknown ∧ t ≠ g.type) := by
        rintro ⟨a, b⟩
        rcases h2 with h2 | h2
        · exact a h2
        · exact b h2
      have ht : (if t = unknown then g.type else t) = g.type := by
        rcases h2 with h2 | h2
        · rw [if_pos h2]
        · rw [h2]; simp
      simp only [addSpline, if_neg hc, ht] at e1
      cases hs : (newSpline g.type : Option (Spline P K)) with
      | none => exact h1 hs
      | some s => rw [hs] at e1; cases e1
    · intro s hs
      rw [e1] at hs
      cases hs
  · rw [e]
    refine ⟨⟨fun _ => ⟨?_, ht⟩, fun _ => by simp⟩, fun h => (by cases h), ?_⟩
    · rw [hn, hs]; simp
    · intro x hx
      cases hx
      refine ⟨newSpline_type hs, ?_, ?_, rfl, rfl⟩
      · match g.type, hs with
        | 0, h => cases h; rfl
        | 1, h => cases h; rfl
        | 2, h => cases h; rfl
      · match g.type, hs with
        | 0, h => cases h; rfl
        | 1, h => cases h; rfl
        | 2, h => cases h; rfl

/-- C135: the copy of a geometric spline has its type and the same splines in the same order: class, name, form, vertices, weights, knots and degree. -/
theorem clone_same [Zero K] [LT K] [DecidableLT K] (g : Geo P K) (h : Reach g) : g.clone = g := by
  rw [Geo.clone, Geo.cloneInto, clone_loop g.splines ⟨g.type, []⟩ (splines_have_type g h)]
  simp

/-- C135: a copy into a geometric spline that has splines adds them after these. -/
theorem clone_into_partial [Zero K] [LT K] [DecidableLT K] (g c : Geo P K) (h : Reach g) : g.cloneInto c = ⟨g.type, c.splines ++ g.splines⟩ := by
  rw [Geo.cloneInto, clone_loop g.splines ⟨g.type, c.splines⟩ (splines_have_type g h)]

/-- C135, violated: after a copy into a geometric spline of another type the splines do not all have the type; the conversion to NURBS then treats a linear spline as a Bezier spline. -/
theorem clone_into_violated : ∃ g c : Geo ℚ ℚ, Reach g ∧ Reach c ∧ ¬ Uniform (g.cloneInto c) ∧ convert (g.cloneInto c) = none := by
  refine ⟨step {} (.setType 1), step (step {} (.setType 0)) (.addSpline 0), .step _ .init, .step _ (.step _ .init), ?_, ?_⟩
  · intro h
    have := h { kind := .linear } (by decide +kernel)
    exact absurd this (by decide +kernel)
  · decide +kernel

/-- C135: the count of vertices is the sum over the splines. -/
theorem total_cvs (g : Geo P K) : totalCVs g = (g.splines.map fun s => s.cvs.length).sum := by
  have : ∀ (l : List (Spline P K)) (n : Nat), l.foldl (fun n s => n + s.cvs.length) n = n + (l.map fun s => s.cvs.length).sum := by
    intro l
    induction l with
    | nil => intro n; simp
    | cons s l ih => intro n; rw [List.foldl_cons, ih]; simp; omega
  rw [totalCVs, this, Nat.zero_add]

/-- C135: a geometric spline of Bezier splines which are all open gives one NURBS spline for each segment of each, in order, with the same curve; one of another type gives none. -/
theorem convert_open [Field K] [LinearOrder K] [AddCommGroup P] [Module K P] (g : Geo P K) (h : Reach g) :
    (g.type ≠ 1 → convert g = some []) ∧ (g.type = 1 → (∀ s ∈ g.splines, s.closed = false) →
      ∃ L, convert g = some L ∧ List.Forall₂ (SameCurve K) (g.splines.flatMap fun s => segments s.cvs) L) := by
  refine ⟨fun ht => if_pos ht, ?_⟩
  intro ht hc
  rw [convert, if_neg (not_not.mpr ht)]
  have hu := splines_have_type g h
  rw [Uniform, ht] at hu
  have : ∀ l : List (Spline P K), (∀ s ∈ l, s.kind.type = 1 ∧ s.closed = false) → ∃ L, convertLoop l = some L ∧ List.Forall₂ (SameCurve K) (l.flatMap fun s => segments s.cvs) L := by
    intro l
    induction l with
    | nil => intro _; exact ⟨[], rfl, .nil⟩
    | cons s l ih =>
      intro hl
      obtain ⟨L, e, hL⟩ := ih fun x hx => hl x (List.mem_cons_of_mem _ hx)
      obtain ⟨h1, h2⟩ := hl s List.mem_cons_self
      refine ⟨nurbsList K (segments s.cvs) ++ L, ?_, ?_⟩
      · rw [convertLoop, convertOne, if_pos h1, toNURBs_open s h2, e]
        rfl
      · rw [List.flatMap_cons]
        exact List.rel_append (nurbsList_same _) hL
  exact this g.splines fun s hs => ⟨hu s hs, hc s hs⟩

example : ∃ g : Geo ℚ ℚ, Reach g ∧ g.type = 1 ∧ g.splines.length = 1 ∧ totalCVs g = 4 :=
  ⟨step (step (step (step (step (step {} (.setType 1)) (.addSpline 3)) (.edit 0 (.addCV 1))) (.edit 0 (.addCV 2))) (.edit 0 (.addCV 3))) (.edit 0 (.addCV 4)),
    .step _ (.step _ (.step _ (.step _ (.step _ (.step _ .init))))), rfl, rfl, rfl⟩

/-- C135: a NURBS spline refuses a vertex with a negative weight, and takes any other with its weight. -/
theorem nurbs_add_cv [Zero K] [LT K] [DecidableLT K] (s : Spline P K) (d : Option Nat) (w u : List K) (h : s.kind = .nurbs d w u) (cv : P) (x : K) :
    (x < 0 → addCV s cv x = (s, false)) ∧ (¬ x < 0 → addCV s cv x = ({ s with cvs := s.cvs ++ [cv], kind := .nurbs d (w ++ [x]) u }, true)) := by
  constructor <;> intro hx <;> simp only [addCV, h, hx, if_true, if_false]

/-- C135, violated: clearing the vertices of a NURBS spline leaves its weights; however it is filled again it is not valid. -/
theorem cleared_nurbs_violated [Zero K] [LT K] [DecidableLT K] (s : Spline P K) (d : Nat) (w u : List K) (h : s.kind = .nurbs (some d) w u) (hw : w ≠ []) (l : List (P × K)) :
    ∃ w', (l.foldl (fun s x => (addCV s x.1 x.2).1) (edit s .clearCVs)).kind = .nurbs (some d) w' u
      ∧ nurbsValid (some d) w' u (l.foldl (fun s x => (addCV s x.1 x.2).1) (edit s .clearCVs)).cvs = some false := by
  have key : ∀ (l : List (P × K)) (s : Spline P K) (w : List K), s.kind = .nurbs (some d) w u → s.cvs.length < w.length →
      ∃ w', (l.foldl (fun s x => (addCV s x.1 x.2).1) s).kind = .nurbs (some d) w' u ∧ (l.foldl (fun s x => (addCV s x.1 x.2).1) s).cvs.length < w'.length := by
    intro l
    induction l with
    | nil => intro s w h1 h2; exact ⟨w, h1, h2⟩
    | cons x l ih =>
      intro s w h1 h2
      rw [List.foldl_cons]
      by_cases hx : x.2 < 0
      · rw [(nurbs_add_cv s _ _ _ h1 x.1 x.2).1 hx]
        exact ih s w h1 h2
      · rw [(nurbs_add_cv s _ _ _ h1 x.1 x.2).2 hx]
        exact ih _ (w ++ [x.2]) rfl (by simp; omega)
  obtain ⟨w', e1, e2⟩ := key l (edit s .clearCVs) w h (by simpa [edit] using List.length_pos_iff.mpr hw)
  refine ⟨w', e1, ?_⟩
  have hne : decide ((l.foldl (fun s x => (addCV s x.1 x.2).1) (edit s .clearCVs)).cvs.length = w'.length) = false := decide_eq_false (by omega)
  simp only [nurbsValid, Option.map_some, hne, Bool.and_false, Bool.false_and]

example : ∃ s : Spline ℚ ℚ, s.kind = .nurbs (some 3) [1, 1, 1, 1] [0, 0, 0, 0, 1, 1, 1, 1] ∧ nurbsValid (some 3) [1, 1, 1, 1] ([0, 0, 0, 0, 1, 1, 1, 1] : List ℚ) s.cvs = some true :=
  ⟨nurbsOf 0 1 2 3, rfl, (nurbs_valid 3 _ _ _ (by norm_num) (by norm_num) (by norm_num [nurbsOf])).mpr ⟨by simp [nurbsOf], rfl, rfl⟩⟩

/-- C135, violated: a Bezier spline without vertices is valid as long as warnings are not fatal, which is the default. -/
theorem empty_bezier_violated (s : Spline P K) (h : s.cvs = []) : bezierValid false s = true := by
  simp [bezierValid, h]

/-- C135: a Bezier spline with vertices is valid whatever the fatal level, and one without is not when warnings are fatal. -/
theorem bezier_valid_partial (s : Spline P K) (fatal : Bool) (h : s.cvs ≠ [] ∨ fatal = true) : bezierValid fatal s = true ↔ s.cvs ≠ [] := by
  by_cases he : s.cvs = []
  · rcases h with h | h
    · exact absurd he h
    · simp [bezierValid, he, h]
  · simp [bezierValid, he]

/-- What can be done to a geometry. -/
inductive GReach {M : Type} : Geometry M P K → Prop
  | init : GReach {}
  | mesh {g : Geometry M P K} (m : M) : GReach g → GReach (createMesh m g)
  | spline {g : Geometry M P K} : GReach g → GReach (createSpline g)
  | setMesh {g : Geometry M P K} (m : M) : GReach g → g.mesh ≠ none → GReach { g with mesh := some m }
  | setSpline {g : Geometry M P K} (s : Geo P K) : GReach g → g.spline ≠ none → GReach { g with spline := some s }

/-- C135: a geometry never has both a mesh and a spline; creating one removes the other, and a copy has the same one, the copy of the original's. -/
theorem geometry_one {M : Type} (cm : M → M) (g : Geometry M P K) (h : GReach g) :
    (g.mesh = none ∨ g.spline = none) ∧ (g.clone cm).mesh = g.mesh.map cm ∧ (g.clone cm).spline = g.spline.map Geo.clone := by
  have h1 : g.mesh = none ∨ g.spline = none := by
    induction h with
    | init => exact Or.inl rfl
    | mesh => exact Or.inr rfl
    | spline => exact Or.inl rfl
    | setMesh m _ hn ih =>
      rcases ih with ih | ih
      · exact absurd ih hn
      · exact Or.inr ih
    | setSpline m _ hn ih =>
      rcases ih with ih | ih
      · exact Or.inl ih
      · exact absurd ih hn
  refine ⟨h1, ?_⟩
  obtain ⟨m, s⟩ := g
  cases m <;> cases s <;> simp_all [Geometry.clone]

example : GReach (M := Nat) (P := ℚ) (K := ℚ) (createSpline (createMesh 5 {})) := .spline (.mesh 5 .init)

end geometry

end Verif.FSpline
