import Verif.FxParamAux
import Mathlib.Algebra.Order.Field.Rat
import Mathlib.Tactic.Linarith
import Verif.FxParamSpec

/-! # Copies of effect parameters and their comparison: C128, C129 -/

namespace Verif.FFx

open Verif.FEff (Text text Role)

variable {K : Type}

/-- C128. The copy of an effect parameter has its usage, reference, semantic and annotations, and of its value all but the curves, the modes of a sampler, and the names, the type and the order of images of a
surface. -/
theorem clone_kept [Zero K] [One K] (p : Param K) (hd : Distinct p.body) :
    p.clone.role = p.role ∧ p.clone.ref = p.ref ∧ p.clone.sem = p.sem ∧ p.clone.notes = p.notes ∧ p.clone.type = p.type ∧ Kept p.body p.clone.body := by
  refine ⟨rfl, rfl, rfl, by simp [Param.clone, Param.cloneInto, newParam], ?_, ?_⟩
  · rcases p with ⟨_, _, _, _, b⟩
    cases b <;> simp [Param.clone, Param.cloneInto, newParam, blank, Body.cloneInto, Param.type, Body.type]
  · rcases p with ⟨_, _, _, _, b⟩
    cases b with
    | surface s =>
      refine ⟨_, rfl, ?_⟩
      rw [surface_clone_eq s hd]
      refine ⟨rfl, ?_, rfl, rfl, rfl, rfl, rfl, rfl⟩
      cases s.init <;> simp [init_clone_kind]
    | sampler s => exact ⟨_, rfl, rfl, rfl⟩
    | num s h v c => simp [Param.clone, Param.cloneInto, newParam, blank, Body.cloneInto, Kept]
    | _ => rfl

/-- C128, in part: the copy of an effect parameter is like the original. Missing: curves, modes of samplers, names and types of surfaces and the order of the images of a cube map, which are lost. -/
theorem clone_partial [Zero K] [One K] (p : Param K) (hd : Distinct p.body) (hp : Plain p.body) : p.clone = p := by
  rcases p with ⟨r, f, s, n, b⟩
  have hb : b.cloneInto (blank b) = b := by
    cases b with
    | num s h v c => simp only [Plain] at hp; subst hp; simp [blank, Body.cloneInto]
    | sampler s =>
      rcases s with ⟨x, t, m⟩
      simp only [Plain] at hp; subst hp; rfl
    | surface s =>
      obtain ⟨h1, h2, h3⟩ := hp
      change Body.surface (s.cloneInto newSurface) = _
      rw [surface_clone_eq s hd]
      have h4 : s.init.map (fun i => i.cloneInto i.create) = s.init := by
        rcases hi : s.init with _ | i
        · rfl
        · rw [Option.map_some, init_clone_eq i (fun t o e => h3 t o (by rw [hi, e]))]
      rw [h4, ← h1, ← h2]
    | _ => rfl
  simp [Param.clone, Param.cloneInto, newParam, hb]

/-- C128. A container of parameters copies as `Clone` does. -/
theorem copy_eq [Zero K] [One K] (p : Param K) (hm : Made p.body) : p.copy = p.clone := by
  rcases p with ⟨r, f, s, n, b⟩
  cases b with
  | num s h v c => obtain ⟨h1, h2⟩ := hm; cases s <;> first | rfl | exact absurd rfl h1 | exact absurd rfl h2
  | _ => rfl

/-- C128. A copy into a parameter of another class takes the usage, the reference, the semantic and the annotations, and no value. -/
theorem clone_other_class (p q : Param K) (h : ¬ SameClass p.body q.body) :
    p.cloneInto q = ⟨p.role, p.ref, p.sem, q.notes ++ p.notes, q.body⟩ := by
  rcases p with ⟨_, _, _, _, b⟩
  rcases q with ⟨_, _, _, _, d⟩
  have : b.cloneInto d = d := by
    cases b <;> cases d <;> simp_all [SameClass, Body.cloneInto]
  simp [Param.cloneInto, this]

/-- C128 fails for animated parameters: the copy has the value and no curves. -/
theorem clone_curves_violated : ∃ p : Param ℚ, (p.body = .num .float false [1] (some 7)) ∧ p.clone.body = .num .float false [1] none :=
  ⟨⟨.generator, text "a", [], [], .num .float false [1] (some 7)⟩, rfl, rfl⟩

/-- C128 fails for samplers: the copy has the modes of wrapping and the filters of a new sampler. -/
theorem clone_sampler_violated : ∃ p : Param ℚ, p.body = .sampler ⟨some 3, 1, [3, 3, 3, 2, 2, 6]⟩ ∧ p.clone.body = .sampler ⟨some 3, 1, [1, 1, 1, 0, 0, 0]⟩ :=
  ⟨⟨.generator, text "a", [], [], .sampler ⟨some 3, 1, [3, 3, 3, 2, 2, 6]⟩⟩, rfl, rfl⟩

/-- C128 fails for cube maps: the copy of a cube map from six images has no order of images, and it is of type 2D. -/
theorem clone_cube_violated : ∃ p d : Param ℚ, d = p.clone ∧
    p.body = .surface ⟨[], [0, 1, 2, 3, 4, 5], some (.cube 2 [5, 4, 3, 2, 1, 0]), text "A8R8G8B8", none, [0, 0, 0], 1, 0, false, text "CUBE"⟩ ∧
    d.body = .surface ⟨[], [0, 1, 2, 3, 4, 5], some (.cube 2 []), text "A8R8G8B8", none, [0, 0, 0], 1, 0, false, text "2D"⟩ :=
  ⟨⟨.generator, text "a", [], [], .surface ⟨[], [0, 1, 2, 3, 4, 5], some (.cube 2 [5, 4, 3, 2, 1, 0]), text "A8R8G8B8", none, [0, 0, 0], 1, 0, false, text "CUBE"⟩⟩, _, rfl, rfl, by decide +kernel⟩

/-- A surface from a file with two images and a hint meets the hypotheses of `clone_partial`. -/
example : ∃ p : Param ℚ, Distinct p.body ∧ Plain p.body ∧ p.notes ≠ [] ∧ p.ref = text "s" ∧ p.type = .surface :=
  ⟨⟨.generator, text "s", [], [⟨text "UIMin", 3, text "0"⟩], .surface ⟨[], [4, 9], some (.from_ [text "0"] [] []), text "X", some ⟨1, 2, 3, [0]⟩, [64, 64, 0], 1, 2, true, text "2D"⟩⟩,
    by simp [Distinct], ⟨rfl, rfl, fun t o e => by simp at e⟩, by simp, rfl, rfl⟩

section Compare

variable [Field K] [LinearOrder K]

/-- C129, in part: parameters that are not surfaces compare equal exactly when they have the same value. Missing: surfaces. -/
theorem equal_iff_partial [IsStrictOrderedRing K] (ref : Nat → Text) (i j : Nat) (a b : Param K) (h : ¬ (IsSurface a.body ∧ IsSurface b.body)) :
    isValueEqual ref i a (some (j, b)) = true ↔ SameValue ref a.body b.body := by
  change valueEqual ref i a j b = true ↔ _
  by_cases ht : a.type = b.type
  · rw [valueEqual_of_type ref i j a b ht]
    rcases a with ⟨_, _, _, _, x⟩
    rcases b with ⟨_, _, _, _, y⟩
    cases x <;> cases y <;> simp only
    case num.num s k v c t l w d =>
      rw [sameValue_num]
      by_cases h2 : k = l
      · rw [if_neg (not_not.2 h2), nearby_iff]; exact ⟨fun h => ⟨ht, h2, h⟩, fun h => h.2.2⟩
      · rw [if_pos h2]; simp [h2]
    case sampler.sampler s t =>
      rw [sampler_equal_iff]
      exact ⟨fun h => .sampler h.1 h.2, fun h => by cases h; exact ⟨‹_›, ‹_›⟩⟩
    case surface.surface s t => exact absurd ⟨⟨s, rfl⟩, ⟨t, rfl⟩⟩ h
    case int.int m n => exact ⟨fun h => of_decide_eq_true h ▸ .int m, fun h => by cases h; simp⟩
    case bool.bool m n => exact ⟨fun h => beq_iff_eq.1 h ▸ .bool m, fun h => by cases h; simp⟩
    case string.string m n => exact ⟨fun h => of_decide_eq_true h ▸ .string m, fun h => by cases h; simp⟩
    all_goals exact ⟨fun h => absurd h (by simp), fun h => nomatch h⟩
  · exact ⟨fun h => absurd (valueEqual_type h) ht, fun h => absurd (sameValue_type h) ht⟩

/-- C129. Nothing compares equal to the null pointer; every parameter compares equal to itself; the comparison is symmetric. -/
theorem equal_refl_symm [IsStrictOrderedRing K] (ref : Nat → Text) (i j : Nat) (a b : Param K) :
    isValueEqual ref i a none = false ∧ isValueEqual ref i a (some (i, a)) = true ∧ isValueEqual ref i a (some (j, b)) = isValueEqual ref j b (some (i, a)) := by
  refine ⟨rfl, ?_, ?_⟩
  · change valueEqual ref i a i a = true
    rw [valueEqual_of_type ref i i a a rfl]
    rcases a with ⟨_, _, _, _, x⟩
    cases x <;> simp only
    case num s k v c => rw [if_neg (by simp), nearby_iff]; exact close_refl v
    case sampler s => rw [sampler_equal_iff]; exact ⟨rfl, rfl⟩
    case surface s => rw [surface_equal_iff]; simp
    all_goals simp
  · by_cases hs : IsSurface a.body ∧ IsSurface b.body
    · obtain ⟨⟨s, e1⟩, ⟨t, e2⟩⟩ := hs
      have ht : a.type = b.type := by rw [Param.type, Param.type, e1, e2]; rfl
      change valueEqual ref i a j b = valueEqual ref j b i a
      rw [valueEqual_of_type ref i j a b ht, valueEqual_of_type ref j i b a ht.symm, e1, e2]
      change s.equal _ t = t.equal _ s
      rw [Bool.eq_iff_iff, surface_equal_iff, surface_equal_iff]
      simp only [eq_comm]
    · rw [Bool.eq_iff_iff, equal_iff_partial ref i j a b hs, equal_iff_partial ref j i b a (fun h => hs h.symm)]
      have : ∀ x y : Body K, SameValue ref x y → SameValue ref y x := by
        intro x y h
        cases h with
        | int => exact .int _
        | bool => exact .bool _
        | string => exact .string _
        | num hs hv => exact .num hs.symm (close_symm hv)
        | sampler ht hr => exact .sampler ht.symm hr.symm
      exact ⟨this _ _, this _ _⟩

/-- C129 fails for surfaces: two surfaces, however alike, never compare equal. -/
theorem equal_surfaces_violated [IsStrictOrderedRing K] (ref : Nat → Text) (i j : Nat) (a b : Param K) (hij : i ≠ j) (ha : IsSurface a.body) :
    isValueEqual ref i a (some (j, b)) = false := by
  rw [Bool.eq_false_iff]
  intro h
  change valueEqual ref i a j b = true at h
  rw [valueEqual_of_type ref i j a b (valueEqual_type h)] at h
  obtain ⟨s, e⟩ := ha
  rw [e] at h
  cases hb : b.body with
  | surface t =>
    rw [hb] at h
    have := (surface_equal_iff _ s t).1 h
    simp [hij] at this
  | _ => rw [hb] at h; simp at h

/-- C129. The copy of a parameter that is no surface compares equal to it. -/
theorem clone_equal [IsStrictOrderedRing K] (ref : Nat → Text) (i j : Nat) (p : Param K) (hs : ¬ IsSurface p.body) : isValueEqual ref i p (some (j, p.clone)) = true := by
  rw [equal_iff_partial ref i j p p.clone (fun h => hs h.1)]
  rcases p with ⟨_, _, _, _, b⟩
  cases b with
  | int n => exact .int n
  | bool n => exact .bool n
  | string n => exact .string n
  | num s h v c =>
    change SameValue ref (.num s h v c) (Body.cloneInto (.num s h v c) (blank (.num s h v c)))
    simp only [blank, Body.cloneInto, if_true]
    exact .num rfl (close_refl v)
  | sampler s => exact .sampler rfl rfl
  | surface s => exact absurd ⟨s, rfl⟩ hs

/-- C129 fails for numbers: the comparison with a tolerance is not transitive. -/
theorem equal_trans_violated : ∃ (a b c : Param ℚ) (ref : Nat → Text), isValueEqual ref 0 a (some (1, b)) = true ∧ isValueEqual ref 1 b (some (2, c)) = true ∧ isValueEqual ref 0 a (some (2, c)) = false :=
  ⟨⟨.generator, [], [], [], .num .float false [0] none⟩, ⟨.generator, [], [], [], .num .float false [6 / 100000] none⟩, ⟨.generator, [], [], [], .num .float false [12 / 100000] none⟩, fun _ => [],
    by decide +kernel⟩

/-- C129, in part: after `Overwrite` of a parameter of the same kind the two compare equal, and the parameter keeps the rest. Missing: numbers of another precision, samplers of another type and surfaces. -/
theorem overwrite_partial [IsStrictOrderedRing K] (ref : Nat → Text) (i j : Nat) (a b : Param K) (h : Fits a.body b.body) :
    isValueEqual ref i a (some (j, a.overwrite b)) = true ∧ (a.overwrite b).role = b.role ∧ (a.overwrite b).ref = b.ref ∧ (a.overwrite b).sem = b.sem ∧ (a.overwrite b).notes = b.notes := by
  have hns : ¬ IsSurface a.body := by
    rintro ⟨s, e⟩
    rw [e] at h
    cases hb : b.body <;> rw [hb] at h <;> exact h
  rw [equal_iff_partial ref i j a _ (fun h => hns h.1)]
  rcases a with ⟨_, _, _, _, x⟩
  rcases b with ⟨_, _, _, _, y⟩
  cases x <;> cases y <;> simp only [Fits] at h
  case int.int m n => exact ⟨.int m, rfl, rfl, rfl, rfl⟩
  case bool.bool m n => exact ⟨.bool m, rfl, rfl, rfl, rfl⟩
  case string.string m n => exact ⟨.string m, rfl, rfl, rfl, rfl⟩
  case num.num s k v c t l w d =>
    obtain ⟨h1, rfl⟩ := h
    rw [Param.overwrite, if_neg (not_not.2 (by exact h1.symm))]
    exact ⟨.num h1 (close_refl v), rfl, rfl, rfl, rfl⟩
  case sampler.sampler s t =>
    rw [Param.overwrite, if_neg (not_not.2 (by rfl))]
    simp only [if_pos h]
    exact ⟨.sampler h rfl, trivial, trivial, trivial, trivial⟩

omit [Field K] [LinearOrder K] in
/-- C129. `Overwrite` of a parameter of another type changes nothing. -/
theorem overwrite_other (a b : Param K) (h : a.type ≠ b.type) : a.overwrite b = b := by
  rw [Param.overwrite, if_pos (Ne.symm h)]

omit [Field K] [LinearOrder K] in
/-- C129. `Overwrite` of a parameter of the same type writes the value and nothing else. -/
theorem overwrite_writes (a b : Param K) (h : a.type = b.type) : ∃ c, a.overwrite b = ⟨b.role, b.ref, b.sem, b.notes, c⟩ ∧ Written a.body b.body c := by
  have hn : ∀ s : Shape, s.type ≠ .integer ∧ s.type ≠ .boolean ∧ s.type ≠ .string ∧ s.type ≠ .sampler ∧ s.type ≠ .surface := by
    intro s
    cases s <;> decide
  rw [Param.overwrite, if_neg (not_not.2 h.symm)]
  rcases a with ⟨_, _, _, _, x⟩
  rcases b with ⟨_, _, _, _, y⟩
  cases x <;> cases y <;> simp only [Param.type, Body.type] at h
  case sampler.sampler s t =>
    by_cases hs : s.type = t.type
    · simp [Written, hs]
    · simp [Written, hs]
  all_goals first
    | exact ⟨_, rfl, rfl⟩
    | exact absurd h (by decide)
    | exact absurd h (hn _).1
    | exact absurd h (hn _).2.1
    | exact absurd h (hn _).2.2.1
    | exact absurd h (hn _).2.2.2.1
    | exact absurd h (hn _).2.2.2.2
    | exact absurd h.symm (hn _).1
    | exact absurd h.symm (hn _).2.1
    | exact absurd h.symm (hn _).2.2.1
    | exact absurd h.symm (hn _).2.2.2.1
    | exact absurd h.symm (hn _).2.2.2.2

omit [Field K] [LinearOrder K] in
/-- C129. Two parameters of numbers are of the same type exactly when they have the same number of components: a colour is of the type of a vector. -/
theorem number_types (r r' : Role) (n n' m m' : Text) (ns ns' : List Note) (s t : Shape) (k l : Bool) (v w : List K) (c d : Option Nat) :
    (Param.mk r n m ns (.num s k v c)).type = (Param.mk r' n' m' ns' (.num t l w d)).type ↔ s.components = t.components := by
  cases s <;> cases t <;> simp [Param.type, Body.type, Shape.type, Shape.components]

/-- C129 fails for numbers of another precision: a half written over a float leaves them different. -/
theorem overwrite_half_violated : ∃ a b : Param ℚ, a.type = b.type ∧ isValueEqual (fun _ => []) 0 a (some (1, a.overwrite b)) = false :=
  ⟨⟨.generator, [], [], [], .num .float true [2] none⟩, ⟨.generator, [], [], [], .num .float false [1] none⟩, by decide +kernel⟩

/-- C129 fails for samplers of another type: the surface is not written. -/
theorem overwrite_sampler_violated : ∃ a b : Param ℚ, a.type = b.type ∧ a.body ≠ b.body ∧ a.overwrite b = b :=
  ⟨⟨.generator, [], [], [], .sampler ⟨some 3, 1, []⟩⟩, ⟨.generator, [], [], [], .sampler ⟨none, 3, []⟩⟩, by decide +kernel⟩

/-- C129 fails for surfaces: `Overwrite` does not write the way of initialising. -/
theorem overwrite_surface_violated : ∃ (a b : Param ℚ) (s : Surface ℚ), a.body = .surface s ∧ s.init.map Init.kind = some 3 ∧ ∃ d, (a.overwrite b).body = .surface d ∧ d.init = none :=
  ⟨⟨.generator, [], [], [], .surface { (newSurface : Surface ℚ) with init := some (.cube 0 []) }⟩, ⟨.generator, [], [], [], .surface newSurface⟩, _, rfl, rfl, _, rfl, rfl⟩

/-- Two parameters of three numbers meet the hypotheses of `overwrite_partial`. -/
example : Fits (Body.num .float3 true [(1 : ℚ), 2, 3] none) (.num .float3 true [0, 0, 0] (some 4)) ∧ ¬ Close [(1 : ℚ), 2, 3] [0, 0, 0] :=
  ⟨⟨rfl, rfl⟩, fun h => by rw [← nearby_iff] at h; revert h; decide +kernel⟩

end Compare

end Verif.FFx
