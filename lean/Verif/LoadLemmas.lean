import Verif.LoadSpec

/-! # Lemmas on the status of the loading -/

namespace Verif.FLoad

open Verif.FArc (Kind)

variable {A : Type}

/-- The entities of the children of a library. -/
def entsIn (kind : Kind) (xs : List (Item A)) : List (Kind × A) := xs.filterMap fun x => x.map fun y => (kind, y.1)

theorem entsIn_cons (kind : Kind) (x : Item A) (xs : List (Item A)) : entsIn kind (x :: xs) = entOf kind x ++ entsIn kind xs := by
  cases x <;> rfl

/-- The library is read to its end, or the user has said to stop. -/
theorem loadLib_cases (cancel : Nat → Bool) (kind : Kind) : ∀ (xs : List (Item A)) (k : Nat),
    ((loadLib cancel kind k xs).2.1 = entsIn kind xs ∧ (loadLib cancel kind k xs).2.2 = k + xs.length ∧ (loadLib cancel kind k xs).1 = xs.all okOf) ∨
    (∃ j, k ≤ j ∧ j < (loadLib cancel kind k xs).2.2 ∧ cancel j = true) ∧ (loadLib cancel kind k xs).2.1 <+: entsIn kind xs ∧ (loadLib cancel kind k xs).1 = false
  | [], k => .inl ⟨rfl, rfl, rfl⟩
  | x :: xs, k => by
    unfold loadLib
    by_cases h : cancel k = true
    · rw [if_pos h, entsIn_cons]
      exact .inr ⟨⟨k, Nat.le_refl k, Nat.lt_succ_self k, h⟩, List.prefix_append _ _, rfl⟩
    · rw [if_neg h, entsIn_cons]
      rcases loadLib_cases cancel kind xs (k + 1) with ⟨h1, h2, h3⟩ | ⟨⟨j, h1, h2, h3⟩, h4, h5⟩
      · refine .inl ⟨by rw [h1], ?_, by rw [h3]; rfl⟩
        rw [h2, List.length_cons]
        omega
      · refine .inr ⟨⟨j, by omega, h2, h3⟩, (List.prefix_append_right_inj _).2 h4, ?_⟩
        rw [h5, Bool.and_false]

theorem loadLib_never (cancel : Nat → Bool) (hc : ∀ k, cancel k = false) (kind : Kind) (xs : List (Item A)) (k : Nat) :
    (loadLib cancel kind k xs).2.1 = entsIn kind xs ∧ (loadLib cancel kind k xs).1 = xs.all okOf := by
  rcases loadLib_cases cancel kind xs k with ⟨h1, _, h3⟩ | ⟨⟨j, _, _, h3⟩, _⟩
  · exact ⟨h1, h3⟩
  · rw [hc j] at h3
    cases h3

/-- Each child takes one question. -/
theorem loadLib_length (cancel : Nat → Bool) (kind : Kind) : ∀ (xs : List (Item A)) (k : Nat), (loadLib cancel kind k xs).2.1.length + k ≤ (loadLib cancel kind k xs).2.2
  | [], k => by simp [loadLib]
  | x :: xs, k => by
    have hx : (entOf kind x).length ≤ 1 := by cases x <;> simp [entOf]
    unfold loadLib
    by_cases h : cancel k = true
    · rw [if_pos h]
      show (entOf kind x).length + k ≤ k + 1
      omega
    · rw [if_neg h]
      have := loadLib_length cancel kind xs (k + 1)
      show (entOf kind x ++ _).length + k ≤ (loadLib cancel kind (k + 1) xs).2.2
      rw [List.length_append]
      omega

/-- No question is asked after the answer to stop. -/
theorem loadLib_asked (cancel : Nat → Bool) (kind : Kind) (j : Nat) (hj : cancel j = true) : ∀ (xs : List (Item A)) (k : Nat), k ≤ j → (loadLib cancel kind k xs).2.2 ≤ j + 1
  | [], k, h => by
    show k ≤ j + 1
    omega
  | x :: xs, k, hk => by
    unfold loadLib
    by_cases h : cancel k = true
    · rw [if_pos h]
      show k + 1 ≤ j + 1
      omega
    · rw [if_neg h]
      refine loadLib_asked cancel kind j hj xs (k + 1) ?_
      rcases Nat.lt_or_eq_of_le hk with h1 | h1
      · exact h1
      · rw [h1] at h
        exact absurd hj h

/-- The entities of a library of the file. -/
def libEnts (l : LibIn A) : List (Kind × A) := if l.kind = .unknown then [] else entsIn l.kind l.items

theorem whole_cons (l : LibIn A) (ls : List (LibIn A)) : whole (l :: ls) = libEnts l ++ whole ls := rfl

theorem loadOne_cases (cancel : Nat → Bool) (l : LibIn A) (k : Nat) :
    ((loadOne cancel k l).2.1 = libEnts l ∧ (loadOne cancel k l).2.2 + 1 = k + asks l) ∨ (∃ j, k ≤ j ∧ j < (loadOne cancel k l).2.2 ∧ cancel j = true) ∧ (loadOne cancel k l).2.1 <+: libEnts l := by
  unfold loadOne libEnts asks
  by_cases h : l.kind = .unknown
  · rw [if_pos h, if_pos h, if_pos h]
    exact .inl ⟨rfl, by show k + 1 = k + (1 + 0); omega⟩
  · rw [if_neg h, if_neg h, if_neg h]
    rcases loadLib_cases cancel l.kind l.items k with ⟨h1, h2, _⟩ | ⟨h1, h2, _⟩
    · exact .inl ⟨h1, by omega⟩
    · exact .inr ⟨h1, h2⟩

theorem loadOne_length (cancel : Nat → Bool) (l : LibIn A) (k : Nat) : (loadOne cancel k l).2.1.length + k ≤ (loadOne cancel k l).2.2 := by
  unfold loadOne
  split
  · simp
  · exact loadLib_length ..

theorem loadOne_asked (cancel : Nat → Bool) (l : LibIn A) (j : Nat) (hj : cancel j = true) (k : Nat) (h : k ≤ j) : (loadOne cancel k l).2.2 ≤ j + 1 := by
  unfold loadOne
  split
  · show k ≤ j + 1
    omega
  · exact loadLib_asked cancel l.kind j hj l.items k h

theorem items_ok (xs : List (Item A)) : xs.all okOf = true ↔ ∀ a ok, some (a, ok) ∈ xs → ok = true := by
  rw [List.all_eq_true]
  constructor
  · intro h a ok hm
    exact h _ hm
  · intro h x hx
    match x, hx with
    | none, _ => rfl
    | some (a, ok), hx => exact h a ok hx

theorem loadLibs_never (cancel : Nat → Bool) (hc : ∀ k, cancel k = false) : ∀ (ls : List (LibIn A)) (k : Nat),
    (loadLibs cancel k ls).loaded = whole ls ∧ (loadLibs cancel k ls).stopped = false ∧ ((loadLibs cancel k ls).status = true ↔ ∀ l ∈ ls, GoodLib l)
  | [], k => ⟨rfl, rfl, by simp [loadLibs]⟩
  | l :: ls, k => by
    unfold loadLibs
    rw [if_neg (by rw [hc k]; exact Bool.false_ne_true)]
    obtain ⟨h1, h2, h3⟩ := loadLibs_never cancel hc ls (loadOne cancel (k + 1) l).2.2
    refine ⟨?_, h2, ?_⟩
    · show (loadOne cancel (k + 1) l).2.1 ++ _ = _
      rw [h1, whole_cons]
      rcases loadOne_cases cancel l (k + 1) with ⟨h, _⟩ | ⟨⟨j, _, _, h⟩, _⟩
      · rw [h]
      · rw [hc j] at h
        cases h
    · show ((loadOne cancel (k + 1) l).1 && l.attach && _) = true ↔ _
      have hs : (loadOne cancel (k + 1) l).1 = true ↔ (l.kind ≠ .unknown → ∀ a ok, some (a, ok) ∈ l.items → ok = true) := by
        unfold loadOne
        by_cases h : l.kind = .unknown
        · rw [if_pos h]
          exact ⟨fun _ h2 => absurd h h2, fun _ => rfl⟩
        · rw [if_neg h, (loadLib_never cancel hc l.kind l.items (k + 1)).2, items_ok]
          exact ⟨fun x _ => x, fun x => x h⟩
      rw [Bool.and_eq_true, Bool.and_eq_true, h3, hs, List.forall_mem_cons]
      unfold GoodLib
      exact and_congr_left' and_comm

theorem loadLibs_sublist (cancel : Nat → Bool) : ∀ (ls : List (LibIn A)) (k : Nat), ((loadLibs cancel k ls).loaded).Sublist (whole ls)
  | [], k => List.Sublist.refl _
  | l :: ls, k => by
    unfold loadLibs
    by_cases h : cancel k = true
    · rw [if_pos h]
      exact List.nil_sublist _
    · rw [if_neg h, whole_cons]
      refine List.Sublist.append ?_ (loadLibs_sublist cancel ls _)
      rcases loadOne_cases cancel l (k + 1) with ⟨h, _⟩ | ⟨_, h⟩
      · rw [h]
      · exact h.sublist

theorem loadLibs_prefix (cancel : Nat → Bool) (hc : ∀ i j, i ≤ j → cancel i = true → cancel j = true) : ∀ (ls : List (LibIn A)) (k : Nat), (loadLibs cancel k ls).loaded <+: whole ls
  | [], k => List.prefix_refl _
  | l :: ls, k => by
    unfold loadLibs
    by_cases h : cancel k = true
    · rw [if_pos h]
      exact List.nil_prefix
    · rw [if_neg h, whole_cons]
      show (loadOne cancel (k + 1) l).2.1 ++ _ <+: _
      rcases loadOne_cases cancel l (k + 1) with ⟨h, _⟩ | ⟨⟨j, _, h2, h3⟩, h4⟩
      · rw [h]
        exact (List.prefix_append_right_inj _).2 (loadLibs_prefix cancel hc ls _)
      · have : (loadLibs cancel (loadOne cancel (k + 1) l).2.2 ls).loaded = [] := by
          cases ls with
          | nil => rfl
          | cons m ms =>
            unfold loadLibs
            rw [if_pos (hc j _ (Nat.le_of_lt h2) h3)]
        rw [this, List.append_nil]
        exact h4.trans (List.prefix_append _ _)

theorem loadLibs_length (cancel : Nat → Bool) (hc : ∀ i j, i ≤ j → cancel i = true → cancel j = true) (j : Nat) (hj : cancel j = true) : ∀ (ls : List (LibIn A)) (k : Nat),
    (loadLibs cancel k ls).loaded.length ≤ j - k
  | [], k => Nat.zero_le _
  | l :: ls, k => by
    unfold loadLibs
    by_cases h : cancel k = true
    · rw [if_pos h]
      exact Nat.zero_le _
    · rw [if_neg h]
      have hk : k < j := by
        by_contra hn
        exact h (hc j k (by omega) hj)
      show ((loadOne cancel (k + 1) l).2.1 ++ _).length ≤ _
      rw [List.length_append]
      have h1 := loadOne_length cancel l (k + 1)
      have h2 := loadOne_asked cancel l j hj (k + 1) hk
      have h3 := loadLibs_length cancel hc j hj ls (loadOne cancel (k + 1) l).2.2
      omega

theorem loadLibs_stopped (cancel : Nat → Bool) (hc : ∀ i j, i ≤ j → cancel i = true → cancel j = true) (last : LibIn A) : ∀ (ls : List (LibIn A)) (k j : Nat), cancel j = true → j ≤ k + (ls.map asks).sum →
    (loadLibs cancel k (ls ++ [last])).stopped = true
  | [], k, j, hj, h => by
    show (loadLibs cancel k [last]).stopped = true
    unfold loadLibs
    rw [if_pos (hc j k h hj)]
  | l :: ls, k, j, hj, h => by
    show (loadLibs cancel k (l :: (ls ++ [last]))).stopped = true
    unfold loadLibs
    by_cases hk : cancel k = true
    · rw [if_pos hk]
    · rw [if_neg hk]
      show (loadLibs cancel (loadOne cancel (k + 1) l).2.2 (ls ++ [last])).stopped = true
      rw [List.map_cons, List.sum_cons] at h
      rcases loadOne_cases cancel l (k + 1) with ⟨_, h1⟩ | ⟨⟨i, _, h2, h3⟩, _⟩
      · exact loadLibs_stopped cancel hc last ls _ j hj (by omega)
      · exact loadLibs_stopped cancel hc last ls _ i h3 (by omega)

/-! ## Linking -/

mutual
theorem linkScene_true : ∀ n : SNode, linkScene n = true
  | .node insts kids => by
    unfold linkScene
    rw [linkScenes_true kids, Bool.and_true, List.all_eq_true]
    intro x _
    cases x <;> rfl
theorem linkScenes_true : ∀ ns : List SNode, linkScenes ns = true
  | [] => by unfold linkScenes; rfl
  | n :: ns => by
    unfold linkScenes
    rw [linkScene_true n, linkScenes_true ns]
    rfl
end

theorem foldl_or {B : Type} (p : B → Bool) : ∀ (l : List B) (s : Bool), l.foldl (fun s a => s || p a) s = (s || l.any p)
  | [], s => by simp
  | a :: l, s => by rw [List.foldl_cons, foldl_or p l, List.any_cons, Bool.or_assoc]

theorem foldl_and {B : Type} (p : B → Bool) : ∀ (l : List B) (s : Bool), l.foldl (fun s a => s && p a) s = (s && l.all p)
  | [], s => by simp
  | a :: l, s => by rw [List.foldl_cons, foldl_and p l, List.all_cons, Bool.and_assoc]

theorem linkAnim_iff (w : Links A) (a : A) : linkAnim w a = true ↔ w.drivers a = 0 ∨ w.fatal = true := by
  unfold linkAnim
  rw [List.all_eq_true]
  constructor
  · intro h
    by_cases h0 : w.drivers a = 0
    · exact .inl h0
    · exact .inr (h _ (List.mem_replicate.2 ⟨h0, rfl⟩))
  · rintro (h | h) x hx
    · rw [h] at hx
      cases hx
    · rw [(List.mem_replicate.1 hx).2]
      exact h

theorem mem_entsOf (loaded : List (Kind × A)) (kind : Kind) (a : A) : a ∈ entsOf loaded kind ↔ (kind, a) ∈ loaded := by
  unfold entsOf
  rw [List.mem_map]
  constructor
  · rintro ⟨x, hx, rfl⟩
    obtain ⟨h1, h2⟩ := List.mem_filter.1 hx
    rw [← of_decide_eq_true h2]
    exact h1
  · intro h
    exact ⟨(kind, a), List.mem_filter.2 ⟨h, decide_eq_true rfl⟩, rfl⟩

theorem linkStatus_iff (w : Links A) (loaded : List (Kind × A)) (s : Bool) : linkStatus w loaded s = true ↔
    (s = true ∨ (∃ a, (Kind.controller, a) ∈ loaded ∧ w.controller a = true) ∨ ∃ a, (Kind.visualScene, a) ∈ loaded) ∧ ∀ a, (Kind.animation, a) ∈ loaded → w.drivers a = 0 ∨ w.fatal = true := by
  unfold linkStatus
  rw [foldl_or, foldl_or, foldl_and, Bool.and_eq_true, Bool.or_eq_true, Bool.or_eq_true, List.any_eq_true, List.any_eq_true, List.all_eq_true, or_assoc]
  simp only [mem_entsOf, linkScene_true, and_true, linkAnim_iff]

end Verif.FLoad
