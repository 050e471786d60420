import Verif.InstMatSpec
import Verif.ConvLemmas

/-!
# Lemmas on the material instances
-/

namespace Verif.FMat

theorem firstWith_zero {α : Type} {f : α → Text} {x : α} {l : List α} {s : Text} (h : f x = s) : FirstWith f (x :: l) s 0 :=
  ⟨⟨x, rfl, h⟩, fun j hj => absurd hj (Nat.not_lt_zero j)⟩

theorem firstWith_succ {α : Type} {f : α → Text} {x : α} {l : List α} {s : Text} {k : Nat} (h : f x ≠ s) :
    FirstWith f (x :: l) s (k + 1) ↔ FirstWith f l s k := by
  constructor
  · rintro ⟨⟨y, hy, hs⟩, hb⟩
    refine ⟨⟨y, by simpa using hy, hs⟩, fun j hj z hz => hb (j + 1) (by omega) z (by simpa using hz)⟩
  · rintro ⟨⟨y, hy, hs⟩, hb⟩
    refine ⟨⟨y, by simpa using hy, hs⟩, fun j hj z hz => ?_⟩
    cases j with
    | zero =>
      have : x = z := by simpa using hz
      exact this ▸ h
    | succ j => exact hb j (by omega) z (by simpa using hz)

/-- A search written as the model's loops finds the first position. -/
theorem search_first {α : Type} (f : α → Text) (g : List α → Text → Option Nat) (hn : ∀ s, g [] s = none)
    (hc : ∀ x l s, g (x :: l) s = if f x = s then some 0 else (g l s).map (· + 1)) (l : List α) (s : Text) :
    (∀ k, g l s = some k ↔ FirstWith f l s k) ∧ (g l s = none ↔ Without f l s) := by
  induction l with
  | nil =>
    rw [hn]
    refine ⟨fun k => ⟨fun h => absurd h (by simp), ?_⟩, by simp [Without]⟩
    rintro ⟨⟨x, hx, _⟩, _⟩
    simp at hx
  | cons x l ih =>
    rw [hc]
    by_cases h : f x = s
    · rw [if_pos h]
      refine ⟨fun k => ⟨fun e => ?_, fun e => ?_⟩, ?_⟩
      · obtain rfl : 0 = k := by simpa using e
        exact firstWith_zero h
      · cases k with
        | zero => rfl
        | succ k => exact absurd h (e.2 0 (by omega) x rfl)
      · constructor
        · intro e; simp at e
        · intro e; exact absurd h (e x (by simp))
    · rw [if_neg h]
      refine ⟨fun k => ?_, ?_⟩
      · cases k with
        | zero =>
          constructor
          · intro e; simp at e
          · rintro ⟨⟨y, hy, hs⟩, _⟩
            obtain rfl : x = y := by simpa using hy
            exact absurd hs h
        | succ k =>
          rw [firstWith_succ h, ← ih.1 k]
          simp
      · rw [Option.map_eq_none_iff, ih.2]
        simp [Without, h]

theorem findMaterial_spec (l : List Mat) (s : Text) :
    (∀ k, findMaterial l s = some k ↔ FirstWith Mat.semantic l s k) ∧ (findMaterial l s = none ↔ Without Mat.semantic l s) :=
  search_first _ _ (fun _ => rfl) (fun _ _ _ => rfl) l s

theorem findSet_spec (l : List PSet) (s : Text) :
    (∀ k, findSet l s = some k ↔ FirstWith PSet.semantic l s k) ∧ (findSet l s = none ↔ Without PSet.semantic l s) :=
  search_first _ _ (fun _ => rfl) (fun _ _ _ => rfl) l s

theorem without_first {α : Type} {f : α → Text} {l : List α} {s : Text} (h : Without f l s) {x : α} (hx : f x = s) : FirstWith f (l ++ [x]) s l.length := by
  refine ⟨⟨x, by simp, hx⟩, fun j hj y hy => ?_⟩
  rw [List.getElem?_append_left hj] at hy
  exact h y (List.mem_of_getElem? hy)

theorem digit_iff (c : Int) : FConv.digit c = true ↔ IsDigit c := by
  simp [FConv.digit, IsDigit]

/-- Texts that end without a digit, followed by the digits of a number, differ as soon as the texts or the numbers do. -/
theorem split_digits {a b d e : Text} (ha : NoDigitAtEnd a) (hb : NoDigitAtEnd b) (hd : ∀ c ∈ d, IsDigit c) (he : ∀ c ∈ e, IsDigit c)
    (h : a ++ d = b ++ e) : a = b ∧ d = e := by
  rcases List.append_eq_append_iff.mp h with ⟨x, hx, hy⟩ | ⟨x, hx, hy⟩
  · rcases List.eq_nil_or_concat x with rfl | ⟨y, c, rfl⟩
    · simp only [List.append_nil] at hx
      simp only [List.nil_append] at hy
      exact ⟨hx.symm, hy⟩
    · exfalso
      refine hb c ?_ (hd c ?_)
      · rw [hx]; simp
      · rw [hy]; simp
  · rcases List.eq_nil_or_concat x with rfl | ⟨y, c, rfl⟩
    · simp only [List.append_nil] at hx
      simp only [List.nil_append] at hy
      exact ⟨hx, hy.symm⟩
    · exfalso
      refine ha c ?_ (he c ?_)
      · rw [hx]; simp
      · rw [hy]; simp

theorem decimal_inj {m n : Nat} (h : FBld.decimal m = FBld.decimal n) : m = n := by
  rw [← FConv.decVal_decimal m, h, FConv.decVal_decimal]

theorem decimal_isDigit (n : Nat) : ∀ c ∈ FBld.decimal n, IsDigit c := fun c hc => (digit_iff c).mp (FConv.decimal_digits n c hc)

theorem generated_ne_nil (id : Text) (n : Nat) : generated id n ≠ [] := by
  unfold generated
  intro h
  exact FConv.decimal_ne_nil _ (List.append_eq_nil_iff.mp h).2

/-- The instance that `AddMaterialInstance` makes. -/
def madeMat (parent : Option Nat) (e : Nat) (s : Text) : Mat := { newMat parent with base := setEntity (newBase parent) (some e), semantic := s }

theorem bindEach_spec (ids : Nat → Text) (parent : Option Nat) (es : List Nat) :
    ∀ (post : List PSet) (ms : List Mat) (pre : List PSet), post.length = es.length → (∀ p ∈ post, p.semantic = []) →
      bindEach ids parent es pre.length (ms, pre ++ post) =
        some (ms ++ List.zipWith (fun e (p : PSet) => madeMat parent e (generated (ids e) p.offset)) es post,
          pre ++ List.zipWith (fun e (p : PSet) => { p with semantic := generated (ids e) p.offset }) es post) := by
  induction es with
  | nil =>
    intro post ms pre hl _
    obtain rfl : post = [] := List.length_eq_zero_iff.mp hl
    simp [bindEach]
  | cons e es ih =>
    intro post ms pre hl he
    cases post with
    | nil => simp at hl
    | cons p post =>
      have hp : p.semantic = [] := he p (by simp)
      have hstep : addBound ids parent ms (pre ++ p :: post) (some e) (some pre.length) =
          some (ms ++ [madeMat parent e (generated (ids e) p.offset)], (pre ++ [{ p with semantic := generated (ids e) p.offset }]) ++ post) := by
        simp [addBound, hp, addNamed, madeMat]
      have := ih post (ms ++ [madeMat parent e (generated (ids e) p.offset)]) (pre ++ [{ p with semantic := generated (ids e) p.offset }])
        (by simpa using hl) (fun q hq => he q (by simp [hq]))
      simp only [bindEach, hstep, Option.bind_some]
      simp only [List.length_append, List.length_singleton] at this
      rw [this]
      simp

theorem findBind_spec (l : List Bind) (s : Text) :
    (∀ b, findBind l s = some b ↔ ∃ k, FirstWith Bind.semantic l s k ∧ l[k]? = some b) ∧ (findBind l s = none ↔ Without Bind.semantic l s) := by
  induction l with
  | nil => simp [findBind, Without, FirstWith]
  | cons x l ih =>
    unfold findBind
    by_cases h : x.semantic = s
    · rw [if_pos h]
      refine ⟨fun b => ⟨fun e => ⟨0, firstWith_zero h, by simpa using e⟩, ?_⟩, ⟨fun e => by simp at e, fun e => absurd h (e x (by simp))⟩⟩
      rintro ⟨k, hk, hb⟩
      cases k with
      | zero => simpa using hb
      | succ k => exact absurd h (hk.2 0 (by omega) x rfl)
    · rw [if_neg h]
      refine ⟨fun b => ?_, by rw [ih.2]; simp [Without, h]⟩
      rw [ih.1]
      constructor
      · rintro ⟨k, hk, hb⟩
        exact ⟨k + 1, (firstWith_succ h).mpr hk, by simpa using hb⟩
      · rintro ⟨k, hk, hb⟩
        cases k with
        | zero =>
          obtain ⟨⟨y, hy, hs⟩, _⟩ := hk
          obtain rfl : x = y := by simpa using hy
          exact absurd hs h
        | succ k => exact ⟨k, (firstWith_succ h).mp hk, by simpa using hb⟩

theorem findVBind_spec (l : List VBind) (s : Text) :
    (∀ b, findVBind l s = some b ↔ ∃ k, FirstWith VBind.semantic l s k ∧ l[k]? = some b) ∧ (findVBind l s = none ↔ Without VBind.semantic l s) := by
  induction l with
  | nil => simp [findVBind, Without, FirstWith]
  | cons x l ih =>
    unfold findVBind
    by_cases h : x.semantic = s
    · rw [if_pos h]
      refine ⟨fun b => ⟨fun e => ⟨0, firstWith_zero h, by simpa using e⟩, ?_⟩, ⟨fun e => by simp at e, fun e => absurd h (e x (by simp))⟩⟩
      rintro ⟨k, hk, hb⟩
      cases k with
      | zero => simpa using hb
      | succ k => exact absurd h (hk.2 0 (by omega) x rfl)
    · rw [if_neg h]
      refine ⟨fun b => ?_, by rw [ih.2]; simp [Without, h]⟩
      rw [ih.1]
      constructor
      · rintro ⟨k, hk, hb⟩
        exact ⟨k + 1, (firstWith_succ h).mpr hk, by simpa using hb⟩
      · rintro ⟨k, hk, hb⟩
        cases k with
        | zero =>
          obtain ⟨⟨y, hy, hs⟩, _⟩ := hk
          obtain rfl : x = y := by simpa using hy
          exact absurd hs h
        | succ k => exact ⟨k, (firstWith_succ h).mp hk, by simpa using hb⟩

theorem setEntity_new (p e : Option Nat) : (setEntity (newBase p) e).entity = e := by
  cases e <;> rfl

theorem cloneMats_same (p : Option Nat) (ms : List Mat) : List.Forall₂ SameMat ms (cloneMats p ms) := by
  induction ms with
  | nil => exact .nil
  | cons m ms ih =>
    refine .cons ⟨?_, rfl, ?_, ?_⟩ ih
    · exact (setEntity_new p m.base.entity).symm
    · simp [cloneMatInto, newMat]
    · simp [cloneMatInto, newMat]

end Verif.FMat
