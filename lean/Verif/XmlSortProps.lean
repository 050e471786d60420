import Verif.XmlSortLemmas

/-!
# Sorted insertion of XML children: theorems (C53)

`strLe` is the order of `strcmp`; that it is an order is shown first.
-/

namespace Verif.XmlSort

variable {α : Type}

/-- The elements among some children are in the order of their names. -/
def Sorted (l : List (Node α)) : Prop := (l.filter (·.elem)).Pairwise fun p q => strLe p.name q.name = true

/-- C53: the order of the names is a linear order. -/
theorem names_order : (∀ a, strLe a a = true) ∧ (∀ a b, strLe a b = true ∨ strLe b a = true) ∧ (∀ a b c, strLe a b = true → strLe b c = true → strLe a c = true) ∧
    ∀ a b, strLe a b = true → strLe b a = true → a = b :=
  ⟨strLe_refl, strLe_total, strLe_trans, strLe_antisymm⟩

/-- C53: no child is lost, moved or doubled: the new one is put in somewhere, between the same children as before. -/
theorem inserted (children : List (Node α)) (child : Node α) : ∃ a b, children = a ++ b ∧ addChildSorted children child = a ++ child :: b := by
  rw [addChildSorted]
  cases h : walk child children.reverse [] with
  | some l =>
    obtain ⟨a, b, e1, e2, _⟩ := walk_some _ _ _ h
    exact ⟨a, b, by simpa using e1, by simpa using e2⟩
  | none =>
    cases children with
    | nil => exact ⟨[], [], rfl, rfl⟩
    | cons p children =>
      simp only [addTop]
      split
      · exact ⟨[], p :: children, rfl, rfl⟩
      · exact ⟨p :: children, [], by simp, by simp⟩

/-- C53: if the elements among the children are in order and the first child is an element, the new element goes behind all elements with
the same or a smaller name and before all elements with a greater name. Missing: a parent whose first child is a text or a comment, see
`text_violated`. -/
theorem place_partial {children : List (Node α)} {child : Node α} (hs : Sorted children) (hf : ∀ p, children.head? = some p → p.elem = true) :
    ∃ a b, children = a ++ b ∧ addChildSorted children child = a ++ child :: b ∧
      (∀ p ∈ a, p.elem = true → strLe p.name child.name = true) ∧ ∀ p ∈ b, p.elem = true → strLe p.name child.name = false := by
  rw [addChildSorted]
  cases h : walk child children.reverse [] with
  | some l =>
    obtain ⟨a, b, e1, e2, ⟨p, a', e3, e4, e5⟩, e6⟩ := walk_some _ _ _ h
    refine ⟨a, b, by simpa using e1, by simpa using e2, ?_, e6⟩
    intro q hq hqe
    rw [List.reverse_reverse] at e1
    rw [e3] at hq
    rcases List.mem_append.mp hq with hq | hq
    · refine strLe_trans _ _ _ ?_ e5
      rw [Sorted, e1, e3] at hs
      simp only [List.filter_append, List.append_assoc] at hs
      exact (List.pairwise_append.mp hs).2.2 q (List.mem_filter.mpr ⟨hq, hqe⟩) p (by simp [e4])
    · simp at hq; subst hq; exact e5
  | none =>
    have hn := walk_none _ _ h
    refine ⟨[], children, rfl, ?_, by simp, fun p hp => hn p (by simpa using hp)⟩
    cases children with
    | nil => rfl
    | cons p children =>
      have := hf p rfl
      simp [addTop, this]

theorem place_all {children : List (Node α)} {child : Node α} (hs : Sorted children) (hc : child.elem = true) (hf : ∀ p, children.head? = some p → p.elem = true) :
    Sorted (addChildSorted children child) ∧ ∀ p, (addChildSorted children child).head? = some p → p.elem = true := by
  obtain ⟨a, b, e1, e2, e3, e4⟩ := place_partial (child := child) hs hf
  rw [e2]
  constructor
  · rw [Sorted, e1, List.filter_append, List.pairwise_append] at hs
    rw [Sorted, List.filter_append, List.filter_cons_of_pos hc, List.pairwise_append]
    refine ⟨hs.1, List.pairwise_cons.mpr ⟨?_, hs.2.1⟩, ?_⟩
    · intro q hq
      obtain ⟨h1, h2⟩ := List.mem_filter.mp hq
      have h3 := e4 q h1 h2
      rcases strLe_total child.name q.name with h | h
      · exact h
      · rw [h] at h3; simp at h3
    · intro p hp q hq
      rcases List.mem_cons.mp hq with rfl | hq
      · exact e3 p (List.mem_filter.mp hp).1 (List.mem_filter.mp hp).2
      · exact hs.2.2 p hp q hq
  · intro p hp
    cases a with
    | nil => simp at hp; subst hp; exact hc
    | cons q a => exact hf p (by rw [e1]; simpa using hp)

/-- C53: whatever elements are added one after the other to a node without children: they are all there, once each; they are in the order of their
names; and those with the same name are in the order of their addition. -/
theorem built (cs : List (Node α)) (hc : ∀ c ∈ cs, c.elem = true) :
    (cs.foldl addChildSorted []).Perm cs ∧ (cs.foldl addChildSorted []).Pairwise (fun p q => strLe p.name q.name = true) ∧
    ∀ n, (cs.foldl addChildSorted []).filter (·.name = n) = cs.filter (·.name = n) := by
  have key : ∀ (cs l : List (Node α)), (∀ c ∈ cs, c.elem = true) → (∀ c ∈ l, c.elem = true) → Sorted l →
      (cs.foldl addChildSorted l).Perm (l ++ cs) ∧ (cs.foldl addChildSorted l).Pairwise (fun p q => strLe p.name q.name = true) ∧
      ∀ n, (cs.foldl addChildSorted l).filter (·.name = n) = l.filter (·.name = n) ++ cs.filter (·.name = n) := by
    intro cs
    induction cs with
    | nil =>
      intro l _ hl hs
      refine ⟨by simp, ?_, by simp⟩
      rw [Sorted, List.filter_eq_self.mpr hl] at hs
      exact hs
    | cons c cs ih =>
      intro l hc hl hs
      have hf : ∀ p, l.head? = some p → p.elem = true := fun p hp => hl p (List.mem_of_mem_head? hp)
      obtain ⟨a, b, e1, e2, e3, e4⟩ := place_partial (child := c) hs hf
      have hs' := (place_all hs (hc c (by simp)) hf).1
      obtain ⟨h1, h2, h3⟩ := ih (addChildSorted l c) (fun x hx => hc x (by simp [hx])) (by
        rw [e2]
        intro x hx
        rcases List.mem_append.mp hx with hx | hx
        · exact hl x (by simp [e1, hx])
        · rcases List.mem_cons.mp hx with rfl | hx
          · exact hc x (by simp)
          · exact hl x (by simp [e1, hx])) hs'
      refine ⟨?_, h2, ?_⟩
      · refine h1.trans ?_
        rw [e2, e1]
        simp only [List.append_assoc, List.cons_append]
        refine List.Perm.append_left a ?_
        exact List.perm_middle.symm
      · intro n
        rw [List.foldl_cons, h3 n, e2, e1]
        by_cases hn : c.name = n
        · have hb : b.filter (·.name = n) = [] := by
            rw [List.filter_eq_nil_iff]
            intro q hq
            have := e4 q hq (hl q (by simp [e1, hq]))
            intro e
            simp at e
            rw [e, hn, strLe_refl] at this
            simp at this
          simp [hn, hb]
        · simp [hn]
  simpa using key cs [] hc (by simp) (by simp [Sorted])

/-- Three elements and a text; the new element goes behind the one of the same name. -/
def sample : List (Node Nat) := [⟨true, [97], 0⟩, ⟨true, [98], 1⟩, ⟨false, [], 2⟩, ⟨true, [99], 3⟩]

example : Sorted sample ∧ (∀ p, sample.head? = some p → p.elem = true) ∧
    addChildSorted sample ⟨true, [98], 4⟩ = [⟨true, [97], 0⟩, ⟨true, [98], 1⟩, ⟨true, [98], 4⟩, ⟨false, [], 2⟩, ⟨true, [99], 3⟩] := by
  refine ⟨?_, ?_, by decide⟩
  · rw [Sorted]; decide
  · intro p hp; simp [sample] at hp; subst hp; rfl

example : ([⟨true, [99], 0⟩, ⟨true, [97, 98], 1⟩, ⟨true, [97], 2⟩, ⟨true, [99], 3⟩] : List (Node Nat)).foldl addChildSorted [] =
    [⟨true, [97], 2⟩, ⟨true, [97, 98], 1⟩, ⟨true, [99], 0⟩, ⟨true, [99], 3⟩] := by decide

/-- C53 fails if the first child is a text (or a comment) and all elements have greater names: the new element goes to the end. -/
theorem text_violated : ∃ (children : List (Node Nat)) (child : Node Nat), Sorted children ∧ child.elem = true ∧ ¬ Sorted (addChildSorted children child) := by
  refine ⟨[⟨false, [], 0⟩, ⟨true, [98], 1⟩], ⟨true, [97], 2⟩, ?_, rfl, ?_⟩ <;> rw [Sorted] <;> decide

end Verif.XmlSort
