import Verif.ArcSplineLemmas
import Verif.ArcTransProps

/-!
# C172: splines are the same after saving and loading

Wanted: a geometry has the same splines after it has been saved and loaded.
-/

namespace Verif.FArc

open Verif.FEff (Text text)
open Verif.FConv (Ov Formats shown)
open Verif.FSpline (Spline Geo)

/-- **C172.** One spline: it is written, and its element gives the spline as the file shows it if it is valid; otherwise nothing and a failure. -/
theorem spline_back (ov : Ov) (fatal : Bool) {fmt rnd} (hf : Formats fmt rnd) (id : Text) (hid : Plain id) (hh : id.head? ≠ some 35) (i : Nat) (s : QSpline) (hs : GoodSpline s) (r : SplineLoad) :
    ∃ n, writeSpline fmt id i s = some n ∧ n.name = text "spline" ∧ loadSplineNode ov fatal r n = some (afterSpline fatal (shown rnd) s r) := by
  cases hk : s.kind with
  | linear => exact plain_spline ov fatal hf id hid i s hs r (.inl hk)
  | bezier => exact plain_spline ov fatal hf id hid i s hs r (.inr hk)
  | nurbs d ws ks => exact nurbs_spline ov fatal hf id hid hh i s hs r d ws ks hk

/-- All splines, one after the other. -/
theorem splines_fold (ov : Ov) (fatal : Bool) {fmt rnd} (hf : Formats fmt rnd) (id : Text) (hid : Plain id) (hh : id.head? ≠ some 35) : ∀ (ss : List QSpline) (i : Nat) (r : SplineLoad),
    (∀ s ∈ ss, GoodSpline s) → ∃ ns, writeSplines fmt id i ss = some ns ∧ ns.length = ss.length ∧
      ns.foldlM (loadSplineNode ov fatal) r = some (ss.foldl (fun r s => afterSpline fatal (shown rnd) s r) r)
  | [], _, r, _ => ⟨[], rfl, rfl, rfl⟩
  | s :: ss, i, r, h => by
    obtain ⟨n, h1, _, h2⟩ := spline_back ov fatal hf id hid hh i s (h s (List.mem_cons_self ..)) r
    obtain ⟨ns, h3, h4, h5⟩ := splines_fold ov fatal hf id hid hh ss (i + 1) (afterSpline fatal (shown rnd) s r) fun s hs => h s (List.mem_cons_of_mem _ hs)
    refine ⟨n :: ns, by rw [writeSplines, h1, Option.bind_some, h3]; rfl, by rw [List.length_cons, h4, List.length_cons], ?_⟩
    rw [List.foldlM_cons, h2]
    exact h5

/-- **C172, partial.** A geometry with one valid spline has this spline again after saving and loading, as the file shows it. Missing: `splines_lost_violated` (several splines),
`spline_empty_violated` (none), `spline_name_violated` (its name). -/
theorem spline_roundtrip_partial (ov : Ov) (fatal : Bool) {fmt rnd} (hf : Formats fmt rnd) (id : Text) (hid : Plain id) (hh : id.head? ≠ some 35) (s : QSpline) (hs : GoodSpline s)
    (hv : validSpline fatal s = true) :
    ∃ ns, writeSplines fmt id 0 [s] = some ns ∧
      (loadSplines ov fatal ns).map (fun r => (r.geo.type, r.geo.splines, r.status)) = some (s.kind.type, [shownSpline (shown rnd) s], true) := by
  obtain ⟨ns, h1, _, h2⟩ := splines_fold ov fatal hf id hid hh [s] 0 { geo := {}, status := true } (by intro x hx; rw [List.mem_singleton.1 hx]; exact hs)
  refine ⟨ns, h1, ?_⟩
  unfold loadSplines
  rw [h2]
  show some _ = _
  simp only [List.foldl_cons, List.foldl_nil, afterSpline, hv, if_true]

/-- **C172, violated.** Of several splines that are all valid only the last is loaded, without a failure: each element sets the type again, which releases the splines loaded before. -/
theorem splines_lost_violated (ov : Ov) (fatal : Bool) {fmt rnd} (hf : Formats fmt rnd) (id : Text) (hid : Plain id) (hh : id.head? ≠ some 35) (ss : List QSpline) (s : QSpline)
    (hs : ∀ x ∈ ss ++ [s], GoodSpline x) (hv : ∀ x ∈ ss ++ [s], validSpline fatal x = true) :
    ∃ ns, writeSplines fmt id 0 (ss ++ [s]) = some ns ∧ ns.length = ss.length + 1 ∧
      (loadSplines ov fatal ns).map (fun r => (r.geo.type, r.geo.splines, r.status)) = some (s.kind.type, [shownSpline (shown rnd) s], true) := by
  obtain ⟨ns, h1, h3, h2⟩ := splines_fold ov fatal hf id hid hh (ss ++ [s]) 0 { geo := {}, status := true } hs
  refine ⟨ns, h1, by rw [h3, List.length_append]; rfl, ?_⟩
  have hst : ∀ (l : List QSpline) (r : SplineLoad), (∀ x ∈ l, validSpline fatal x = true) → (l.foldl (fun r s => afterSpline fatal (shown rnd) s r) r).status = r.status := by
    intro l
    induction l with
    | nil => intro r _; rfl
    | cons x l ih =>
      intro r h
      rw [List.foldl_cons, ih _ fun y hy => h y (List.mem_cons_of_mem _ hy)]
      unfold afterSpline
      rw [if_pos (h x (List.mem_cons_self ..))]
  unfold loadSplines
  rw [h2]
  show some _ = _
  rw [List.foldl_append, List.foldl_cons, List.foldl_nil]
  unfold afterSpline
  rw [if_pos (hv s (List.mem_append_right _ (List.mem_cons_self ..)))]
  have := hst ss { geo := {}, status := true } fun x hx => hv x (List.mem_append_left _ hx)
  unfold afterSpline at this
  simp only [this]

/-- **C172.** The spline loaded last is the only one, for every file. -/
theorem splines_at_most_one (ov : Ov) (fatal : Bool) (ns : List Node) (r : SplineLoad) (h : loadSplines ov fatal ns = some r) : r.geo.splines.length ≤ 1 := by
  have one : ∀ (n : Node) (r r' : SplineLoad), r.geo.splines.length ≤ 1 → loadSplineNode ov fatal r n = some r' → r'.geo.splines.length ≤ 1 := by
    intro n r r' hr e
    unfold loadSplineNode at e
    split at e
    · cases e; exact hr
    · split at e
      · cases e; exact hr
      · split at e
        · cases e; exact hr
        · obtain ⟨ty, _, e⟩ := Option.bind_eq_some_iff.1 e
          simp only at e
          split at e
          · cases e
          · obtain ⟨x, _, rfl⟩ := Option.map_eq_some_iff.1 e
            split
            · exact Nat.le_refl 1
            · exact Nat.zero_le 1
  have all : ∀ (ns : List Node) (r r' : SplineLoad), r.geo.splines.length ≤ 1 → ns.foldlM (loadSplineNode ov fatal) r = some r' → r'.geo.splines.length ≤ 1 := by
    intro ns
    induction ns with
    | nil => intro r r' hr e; cases e; exact hr
    | cons n ns ih =>
      intro r r' hr e
      rw [List.foldlM_cons] at e
      obtain ⟨q, h1, h2⟩ := Option.bind_eq_some_iff.1 e
      exact ih q r' (one n r q hr h1) h2
  exact all ns { geo := {}, status := true } r (Nat.zero_le 1) h

/-- **C172.** A spline whose vertices cannot be read is not kept. -/
theorem spline_refused (ov : Ov) (fatal : Bool) (n t : Node) (s q : QSpline) (h : loadSpline ov n s = some (q, false)) : loadTyped ov fatal n t s = some (q, false) := by
  unfold loadTyped
  rw [h, Option.bind_some]
  rfl

/-- **C172.** A spline without `<control_vertices>` cannot be read. -/
theorem spline_no_vertices (ov : Ov) (n : Node) (s : QSpline) (hc : n.raw (text "closed") = none) (hv : n.child (text "control_vertices") = none) : ∃ q, loadSpline ov n s = some (q, false) := by
  unfold loadSpline
  rw [prop_absent hc, Option.bind_some, show readBool [] = some false by decide +kernel, Option.bind_some]
  simp only [hv]
  exact ⟨_, rfl⟩

/-- **C172.** A NURBS spline that is kept has the degree 3 if there is no `<degree>`. -/
theorem spline_degree_default (ov : Ov) (fatal : Bool) (n t : Node) (s q : QSpline) (d : Option Nat) (ws ks : List ℚ) (hk : s.kind = .nurbs d ws ks) (ht : t.child (text "degree") = none) (h : loadTyped ov fatal n t s = some (q, true)) :
    ∃ ws ks, q.kind = .nurbs (some 3) ws ks := by
  unfold loadTyped at h
  obtain ⟨⟨r, b⟩, h1, h⟩ := Option.bind_eq_some_iff.1 h
  cases b with
  | false => simp at h
  | true =>
    simp only [Bool.not_true, Bool.false_eq_true, if_false, hk] at h
    have hd : loadDegree t = some 3 := by unfold loadDegree; rw [ht]
    unfold loadNurbs at h
    split at h
    · rw [hd, Option.bind_some] at h
      split at h
      · have := (Prod.mk.inj (Option.some.inj h)).1
        exact ⟨_, _, by rw [← this]⟩
      · obtain ⟨x, -, h⟩ := Option.bind_eq_some_iff.1 h
        split at h
        · obtain ⟨ok, -, h⟩ := Option.map_eq_some_iff.1 h
          exact ⟨_, _, by rw [← (Prod.mk.inj h).1]⟩
        · exact ⟨_, _, by rw [← (Prod.mk.inj (Option.some.inj h)).1]⟩
    · cases h

/-- **C172, violated.** A geometry whose spline object has no spline is written without any element: after loading it has no spline object. -/
theorem spline_empty_violated (fmt : ℚ → Text) (id : Text) : writeSplines fmt id 0 [] = some [] := rfl

/-- **C172, violated.** The name of a spline is not written. -/
theorem spline_name_violated (fmt : ℚ → Text) (id a b : Text) (i : Nat) (s : QSpline) : writeSpline fmt id i { s with name := a } = writeSpline fmt id i { s with name := b } := rfl

/-- **C172, violated.** A type that is not one of the three, as `TCB`, is undefined behaviour: no spline is made and it is used. -/
theorem spline_type_violated (ov : Ov) (fatal : Bool) (r : SplineLoad) (n t k : Node) (ty : Text) (hn : n.name = text "spline") (ht : splineTech n = some t) (hk : t.child (text "type") = some k)
    (hc : content k = some ty) (h : ty ≠ text "LINEAR" ∧ ty ≠ text "BEZIER" ∧ ty ≠ text "NURBS") : loadSplineNode ov fatal r n = none := by
  unfold loadSplineNode
  rw [if_neg (not_not.2 hn), ht]
  simp only [hk, hc, Option.bind_some, splineTypeOf, if_neg h.1, if_neg h.2.1, if_neg h.2.2]
  rfl

/-- **C172, violated.** A NURBS spline whose degree was not set is not written: its value is indeterminate. -/
theorem spline_degree_violated (fmt : ℚ → Text) (id : Text) (i : Nat) (s : QSpline) (ws ks : List ℚ) (h : s.kind = .nurbs none ws ks) : writeSpline fmt id i s = none := by
  unfold writeSpline
  rw [h]

/-- A closed Bezier spline with a name. -/
def sampleBezier : QSpline := ⟨.bezier, 1, text "loop", [[0, 2, 0], [2, 2, 0], [2, 0, 2]]⟩

/-- A NURBS spline of degree one. -/
def sampleNurbs : QSpline := ⟨.nurbs (some 1) [2, 2] [0, 0, 2, 2], 0, [], [[0, 0, 2], [2, 0, 0]]⟩

theorem sampleBezier_good : GoodSpline sampleBezier := ⟨by decide +kernel, by decide, fun d ws ks h => by cases h⟩

theorem sampleNurbs_good : GoodSpline sampleNurbs := ⟨by decide +kernel, by decide, fun d ws ks h => by cases h; exact ⟨by decide, by decide, 1, rfl, by decide⟩⟩

/-- A cubic with four vertices. -/
def sampleCubic : QSpline := ⟨.nurbs (some 3) [2, 2, 2, 2] [0, 0, 0, 0, 2, 2, 2, 2], 0, [], [[0, 0, 2], [2, 0, 0], [2, 2, 0], [0, 2, 2]]⟩

/-- Its element, read with a technique that has no degree. -/
example : ((writeSpline fmt02 (text "s") 0 sampleCubic).bind fun n => loadTyped .wrap true n (leaf (text "technique")) ⟨.nurbs none [] [], 0, [], []⟩).map (fun r => (r.1.kind, r.2)) =
    some (.nurbs (some 3) [2, 2, 2, 2] [0, 0, 0, 0, 2, 2, 2, 2], true) := by decide +kernel

example : loadSpline .wrap (leaf (text "spline")) sampleCubic = some (sampleCubic, false) := by decide +kernel

example : validSpline true sampleBezier = true ∧ validSpline true sampleNurbs = true := by decide +kernel

/-- Two Bezier splines are written, one is loaded. -/
example : ∃ ns, writeSplines fmt02 (text "shape") 0 [sampleBezier, sampleBezier] = some ns ∧
    ((loadSplines .wrap true ns).map fun r => (r.geo.splines, r.status)) = some ([{ sampleBezier with name := [] }], true) := ⟨_, rfl, by decide +kernel⟩

example : ∃ ns, writeSplines fmt02 (text "shape") 0 [sampleNurbs] = some ns ∧
    ((loadSplines .wrap true ns).map fun r => (r.geo.splines, r.status)) = some ([sampleNurbs], true) := ⟨_, rfl, by decide +kernel⟩

/-- A spline of type `TCB`. -/
def tcbNode : Node := .elem (text "spline") [] [] [splineExtra [textChild (text "type") (text "TCB")]]

example : loadSplines .wrap true [tcbNode] = none := rfl

end Verif.FArc
