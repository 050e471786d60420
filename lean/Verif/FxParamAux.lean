import Mathlib.Algebra.Order.Field.Rat
import Mathlib.Tactic.Linarith
import Verif.FxParamSpec

/-! # Lemmas for the properties in FxParamProps -/

namespace Verif.FFx

open Verif.FEff (Text text Role)

variable {K : Type}

theorem foldl_addImage (l acc : List Nat) (h : (acc ++ l).Nodup) : l.foldl addImage acc = acc ++ l := by
  induction l generalizing acc with
  | nil => simp
  | cons x l ih =>
    have hx : x ∉ acc := fun hm => (List.nodup_append.1 h).2.2 x hm x (List.mem_cons_self ..) rfl
    rw [List.foldl_cons, addImage, if_neg hx, ih _ (by simpa using h)]
    simp

theorem init_clone_kind (i : Init) : (i.cloneInto i.create).kind = i.kind := by cases i <;> rfl

theorem init_clone_eq (i : Init) (h : ∀ t o, i = .cube t o → o = []) : i.cloneInto i.create = i := by
  cases i with
  | cube t o => rw [h t o rfl]; rfl
  | _ => rfl

theorem surface_clone_eq [Zero K] [One K] (s : Surface K) (hd : s.images.Nodup) :
    s.cloneInto newSurface = { s with names := [], type := text "2D", init := s.init.map fun i => i.cloneInto i.create } := by
  rw [Surface.cloneInto, foldl_addImage _ _ (by simpa [newSurface] using hd)]
  rcases s with ⟨_, _, _ | i, _, _ | h, _, _, _, _, _⟩ <;> simp [newSurface]

section Compare

variable [Field K] [LinearOrder K]

theorem equivalent_iff (a b : K) [IsStrictOrderedRing K] : Geo.equivalent a b = true ↔ |a - b| < Geo.tolerance := by
  rw [Geo.equivalent, Bool.and_eq_true, decide_eq_true_eq, decide_eq_true_eq, abs_lt]
  constructor <;> rintro ⟨h1, h2⟩ <;> constructor <;> linarith

theorem nearby_iff [IsStrictOrderedRing K] (v w : List K) : nearby v w = true ↔ Close v w := by
  induction v generalizing w with
  | nil => cases w <;> simp [nearby, Close]
  | cons a v ih =>
    cases w with
    | nil => simp [nearby, Close]
    | cons b w => rw [nearby, Bool.and_eq_true, ih, equivalent_iff, Close, Close, List.forall₂_cons]

theorem tolerance_pos [IsStrictOrderedRing K] : (0 : K) < Geo.tolerance := by unfold Geo.tolerance; positivity

theorem close_refl [IsStrictOrderedRing K] (v : List K) : Close v v := by
  induction v with
  | nil => exact List.Forall₂.nil
  | cons a v ih => exact List.Forall₂.cons (by rw [sub_self, abs_zero]; exact tolerance_pos) ih

theorem close_symm [IsStrictOrderedRing K] {v w : List K} (h : Close v w) : Close w v := by
  induction h with
  | nil => exact List.Forall₂.nil
  | cons h _ ih => exact List.Forall₂.cons (by rw [abs_sub_comm]; exact h) ih

theorem sampler_equal_iff (ref : Nat → Text) (s t : Sampler) : s.equal ref t = true ↔ s.type = t.type ∧ s.surface.map ref = t.surface.map ref := by
  rcases s with ⟨a, x, _⟩
  rcases t with ⟨b, y, _⟩
  by_cases h : x = y
  · subst h
    cases a <;> cases b <;> simp [Sampler.equal, eq_comm]
  · simp [Sampler.equal, h]

omit [Field K] in
theorem surface_equal_iff (same : Bool) (s t : Surface K) :
    s.equal same t = true ↔ same = true ∧ s.images = t.images ∧ s.init.map Init.kind = t.init.map Init.kind ∧ s.mips = t.mips ∧ s.generate = t.generate ∧ s.ratio = t.ratio := by
  rw [Surface.equal]
  by_cases h1 : s.images = t.images
  · rw [if_neg (not_not.2 h1)]
    by_cases h2 : s.init.map Init.kind = t.init.map Init.kind
    · rw [if_neg (not_not.2 h2)]
      cases same
      · simp
      · by_cases h3 : s.mips = t.mips
        · rw [if_neg (by simp), if_neg (not_not.2 h3)]
          by_cases h4 : s.generate = t.generate
          · rw [if_neg (not_not.2 h4)]; simp [h1, h2, h3, h4]
          · rw [if_pos h4]; simp [h4]
        · rw [if_neg (by simp), if_pos h3]; simp [h3]
    · rw [if_pos h2]; simp [h2]
  · rw [if_pos h1]; simp [h1]

/-- The comparison of the values of two parameters, after that of their types. -/
theorem valueEqual_of_type (ref : Nat → Text) (i j : Nat) (a b : Param K) (h : a.type = b.type) :
    valueEqual ref i a j b = match a.body, b.body with
    | .int x, .int y => decide (x = y)
    | .bool x, .bool y => x == y
    | .string x, .string y => decide (x = y)
    | .num _ h v _, .num _ h' v' _ => if h ≠ h' then false else nearby v v'
    | .sampler s, .sampler t => s.equal ref t
    | .surface s, .surface t => s.equal (decide (i = j)) t
    | _, _ => false := by
  rw [valueEqual, if_neg (not_not.2 h)]
  rfl

theorem valueEqual_type {ref : Nat → Text} {i j : Nat} {a b : Param K} (h : valueEqual ref i a j b = true) : a.type = b.type := by
  by_contra hne
  rw [valueEqual, if_pos hne] at h
  exact absurd h (by simp)

theorem sameValue_type {ref : Nat → Text} {a b : Body K} (h : SameValue ref a b) : a.type = b.type := by
  cases h <;> first | rfl | assumption

theorem sameValue_num {ref : Nat → Text} (s t : Shape) (k l : Bool) (v w : List K) (c d : Option Nat) :
    SameValue ref (.num s k v c) (.num t l w d) ↔ s.type = t.type ∧ k = l ∧ Close v w := by
  constructor
  · rintro ⟨⟩; exact ⟨‹_›, rfl, ‹_›⟩
  · rintro ⟨h1, rfl, h3⟩; exact .num h1 h3

end Compare

end Verif.FFx
