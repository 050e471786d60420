import Verif.SchemeSpec
import Mathlib.Data.List.Nodup

/-!
# C190: the scheme callbacks of file managers are deleted once
-/

namespace Verif.FScheme

variable {α : Type}

theorem lookup_filter (a b : Nat) {β : Type} : ∀ h : List (Nat × β), b ≠ a → (h.filter fun e => e.1 != a).lookup b = h.lookup b
  | [], _ => rfl
  | (k, v) :: h, hb => by
    rw [List.filter_cons]
    by_cases hk : k = a
    · subst hk
      simp only [bne_self_eq_false, Bool.false_eq_true, if_false]
      rw [lookup_filter k b h hb, List.lookup_cons, beq_eq_false_iff_ne.2 hb]
    · simp only [bne_iff_ne, ne_eq, hk, not_false_eq_true, if_true]
      rw [List.lookup_cons, List.lookup_cons, lookup_filter a b h hb]

theorem lookup_filter_self (a : Nat) {β : Type} : ∀ h : List (Nat × β), (h.filter fun e => e.1 != a).lookup a = none
  | [] => rfl
  | (k, v) :: h => by
    rw [List.filter_cons]
    by_cases hk : k = a
    · subst hk
      simp only [bne_self_eq_false, Bool.false_eq_true, if_false]
      exact lookup_filter_self k h
    · simp only [bne_iff_ne, ne_eq, hk, not_false_eq_true, if_true]
      rw [List.lookup_cons, beq_eq_false_iff_ne.2 (fun e => hk e.symm)]
      exact lookup_filter_self a h

theorem lookup_mem {β : Type} {k : Nat} {v : β} : ∀ {m : List (Nat × β)}, m.lookup k = some v → (k, v) ∈ m
  | (k', v') :: m, h => by
    rw [List.lookup_cons] at h
    split at h
    · next e =>
      rw [beq_iff_eq] at e
      obtain rfl := Option.some.inj h
      rw [e]
      exact List.mem_cons_self
    · exact List.mem_cons_of_mem _ (lookup_mem h)

/-- One object is deleted; the others stay. -/
theorem delete_good {h : Heap α} {a : Nat} {l : List Nat} (hg : Good h (a :: l)) : ∃ h', delete h (some a) = some h' ∧ Good h' l ∧ h'.lookup a = none ∧ ∀ b, b ≠ a → h'.lookup b = h.lookup b := by
  refine ⟨h.filter fun e => e.1 != a, ?_, ⟨(List.nodup_cons.1 hg.1).2, fun b hb => ?_⟩, lookup_filter_self a h, fun b hb => lookup_filter a b h hb⟩
  · exact if_pos (hg.2 a List.mem_cons_self)
  · rw [lookup_filter a b h fun e => (List.nodup_cons.1 hg.1).1 (e ▸ hb)]
    exact hg.2 b (List.mem_cons_of_mem a hb)

/-- **C190.** Removing all callbacks, as the destructor does, deletes each object of the manager once, and nothing else. -/
theorem remove_all (others : List Nat) : ∀ (m : Mgr) (h : Heap α), Good h (owned m ++ others) → ∃ h', removeAll h m = some h' ∧ Good h' others ∧ (∀ a ∈ owned m, h'.lookup a = none) ∧ ∀ b, b ∉ owned m → h'.lookup b = h.lookup b
  | [], h, hg => ⟨h, rfl, hg, fun a ha => absurd ha List.not_mem_nil, fun _ _ => rfl⟩
  | (s, none) :: m, h, hg => remove_all others m h hg
  | (s, some a) :: m, h, hg => by
    obtain ⟨h1, e1, g1, n1, k1⟩ := delete_good (l := owned m ++ others) hg
    obtain ⟨h2, e2, g2, n2, k2⟩ := remove_all others m h1 g1
    have hna : a ∉ owned m := fun hm => (List.nodup_cons.1 hg.1).1 (List.mem_append_left _ hm)
    refine ⟨h2, ?_, g2, ?_, ?_⟩
    · unfold removeAll
      rw [List.foldlM_cons]
      simp only [e1]
      exact e2
    · intro b hb
      rcases List.mem_cons.1 hb with rfl | hb
      · rw [k2 b hna]
        exact n1
      · exact n2 b hb
    · intro b hb
      have hb' : b ≠ a ∧ b ∉ owned m := ⟨fun e => hb (e ▸ List.mem_cons_self), fun h => hb (List.mem_cons_of_mem a h)⟩
      rw [k2 b hb'.2, k1 b hb'.1]

theorem owned_perm {s : Nat} : ∀ {m : Mgr} {p : Ptr}, Keyed m → m.lookup s = some p → (owned m).Perm (p.toList ++ owned (m.filter fun e => e.1 != s))
  | (k, q) :: m, p, hk, h => by
    obtain ⟨k1, k2⟩ := List.nodup_cons.1 hk
    rw [List.lookup_cons] at h
    rw [List.filter_cons]
    split at h
    · next e =>
      rw [beq_iff_eq] at e
      subst e
      obtain rfl := Option.some.inj h
      have hf : m.filter (fun e => e.1 != s) = m := List.filter_eq_self.2 fun e he => by
        rw [bne_iff_ne]
        intro e'
        exact k1 (List.mem_map.2 ⟨e, he, e'⟩)
      simp only [bne_self_eq_false, Bool.false_eq_true, if_false, hf]
      cases q with
      | none => exact List.Perm.refl _
      | some a => exact List.Perm.refl _
    · next e =>
      have hne : k ≠ s := fun e' => by rw [e', beq_self_eq_true] at e; exact absurd e (by decide)
      simp only [bne_iff_ne, ne_eq, hne, not_false_eq_true, if_true]
      have ih := owned_perm k2 h
      cases q with
      | none => exact ih
      | some a => exact (ih.cons a).trans List.perm_middle.symm

/-- **C190.** Removing the callbacks of a scheme deletes their object; other schemes and other managers keep theirs. -/
theorem remove_scheme (s : Nat) (h : Heap α) (m : Mgr) (others : List Nat) (hk : Keyed m) (hg : Good h (owned m ++ others)) :
    ∃ h' m', remove s h m = some (h', m') ∧ Keyed m' ∧ Good h' (owned m' ++ others) ∧ m'.lookup s = none ∧ (∀ t, t ≠ s → m'.lookup t = m.lookup t) ∧ (∀ b ∈ owned m' ++ others, h'.lookup b = h.lookup b) ∧
      (∀ a, m.lookup s = some (some a) → h'.lookup a = none) := by
  unfold remove
  cases hl : m.lookup s with
  | none => exact ⟨h, m, rfl, hk, hg, hl, fun _ _ => rfl, fun _ _ => rfl, fun a ha => by cases ha⟩
  | some p =>
    have hp := owned_perm hk hl
    have hk' : Keyed (m.filter fun e => e.1 != s) := List.Nodup.sublist (List.Sublist.map _ List.filter_sublist) hk
    cases p with
    | none =>
      exact ⟨h, _, rfl, hk', ⟨(hp.append_right others).nodup_iff.1 hg.1, fun a ha => hg.2 a ((hp.append_right others).mem_iff.2 ha)⟩, lookup_filter_self s m, fun t ht => lookup_filter s t m ht, fun _ _ => rfl, fun a ha => by cases ha⟩
    | some a =>
      have hg' : Good h (a :: (owned (m.filter fun e => e.1 != s) ++ others)) := ⟨(hp.append_right others).nodup_iff.1 hg.1, fun b hb => hg.2 b ((hp.append_right others).mem_iff.2 hb)⟩
      obtain ⟨h1, e1, g1, n1, k1⟩ := delete_good hg'
      refine ⟨h1, _, by simp only [e1, Option.map_some], hk', g1, lookup_filter_self s m, fun t ht => lookup_filter s t m ht, fun b hb => k1 b fun e => (List.nodup_cons.1 hg'.1).1 (e ▸ hb), fun b hb => ?_⟩
      obtain rfl := Option.some.inj (Option.some.inj hb)
      exact n1

theorem lookup_append {β : Type} (s : Nat) : ∀ (m r : List (Nat × β)), (m ++ r).lookup s = (m.lookup s).or (r.lookup s)
  | [], _ => rfl
  | (k, v) :: m, r => by
    rw [List.cons_append, List.lookup_cons, List.lookup_cons]
    split
    · rfl
    · exact lookup_append s m r

/-- **C190, partial.** Setting the callbacks of a scheme to an object that nobody owns yet: the scheme has it, its old one is deleted, and all others are kept. Missing: objects that the manager has already (`set_again_violated`, `set_twice_violated`). -/
theorem set_scheme_partial (s a : Nat) (h : Heap α) (m : Mgr) (others : List Nat) (hk : Keyed m) (hg : Good h (owned m ++ a :: others)) :
    ∃ h' m', set s (some a) h m = some (h', m') ∧ Keyed m' ∧ Good h' (owned m' ++ others) ∧ has h' m' s = h.lookup a ∧ (∀ t, t ≠ s → has h' m' t = has h m t) ∧ (∀ b, m.lookup s = some (some b) → h'.lookup b = none) := by
  obtain ⟨h1, m1, e1, k1, g1, n1, l1, b1, d1⟩ := remove_scheme s h m (a :: others) hk hg
  have ho : owned (m1 ++ [(s, some a)]) = owned m1 ++ [a] := by unfold owned; rw [List.filterMap_append]; rfl
  refine ⟨h1, m1 ++ [(s, some a)], by unfold set; rw [e1]; rfl, ?_, ?_, ?_, ?_, d1⟩
  · unfold Keyed
    rw [List.map_append]
    refine List.nodup_append.2 ⟨k1, by simp, ?_⟩
    intro x hx y hy e
    obtain rfl : y = s := by simpa using hy
    subst e
    obtain ⟨⟨k, p⟩, he, rfl⟩ := List.mem_map.1 hx
    rw [List.lookup_eq_none_iff] at n1
    have := n1 _ he
    simp at this
  · rw [ho, List.append_assoc]
    exact g1
  · unfold has
    rw [lookup_append, n1]
    simp only [Option.none_or, List.lookup_cons, beq_self_eq_true, Option.bind_some]
    exact b1 a (by simp)
  · intro t ht
    unfold has
    rw [lookup_append, l1 t ht]
    simp only [List.lookup_cons, beq_eq_false_iff_ne.2 ht, List.lookup_nil, Option.or_none]
    cases hl : m.lookup t with
    | none => rfl
    | some p =>
      cases p with
      | none => rfl
      | some b =>
        simp only [Option.bind_some]
        refine b1 b (List.mem_append_left _ ?_)
        rw [← l1 t ht] at hl
        exact List.mem_filterMap.2 ⟨_, lookup_mem hl, rfl⟩

theorem fresh_none (h : Heap α) : h.lookup (fresh h) = none := by
  have : ∀ (h : Heap α) (n : Nat), (h.map (·.1)).foldr max 0 < n → h.lookup n = none := by
    intro h
    induction h with
    | nil => intro n _; rfl
    | cons e h ih =>
      intro n hn
      rw [List.map_cons, List.foldr_cons] at hn
      rw [List.lookup_cons, beq_eq_false_iff_ne.2 (by omega)]
      exact ih n (by omega)
  exact this h _ (Nat.lt_succ_self _)

theorem copies (others : List Nat) : ∀ (src : Mgr) (h : Heap α) (m : Mgr), Good h (owned m ++ others) → Keyed src → (∀ e ∈ src, e.1 ∉ m.map (·.1)) → (∀ e ∈ src, ∃ a ∈ others, e.2 = some a) →
    ∃ h' m', src.foldlM copyOne (h, m) = some (h', m ++ m') ∧ Good h' (owned (m ++ m') ++ others) ∧ (∀ b, (h.lookup b).isSome → h'.lookup b = h.lookup b) ∧ ∀ s, has h' m' s = has h src s
  | [], h, m, hg, _, _, _ => ⟨h, [], by rw [List.append_nil]; rfl, by rw [List.append_nil]; exact hg, fun _ _ => rfl, fun _ => rfl⟩
  | (k, p) :: src, h, m, hg, hk, hd, hs => by
    obtain ⟨k1, k2⟩ := List.nodup_cons.1 hk
    obtain ⟨a, ha, hp⟩ := hs (k, p) List.mem_cons_self
    simp only at hp
    subst hp
    obtain ⟨v, hv⟩ := Option.isSome_iff_exists.1 (hg.2 a (List.mem_append_right _ ha))
    have hf := fresh_none h
    have ho : owned (m ++ [(k, some (fresh h))]) = owned m ++ [fresh h] := by unfold owned; rw [List.filterMap_append]; rfl
    have keep : ∀ b, (h.lookup b).isSome → ((fresh h, v) :: h).lookup b = h.lookup b := by
      intro b hb
      rw [List.lookup_cons, beq_eq_false_iff_ne.2 (fun e => by rw [e, hf] at hb; cases hb)]
    have g1 : Good ((fresh h, v) :: h) (owned (m ++ [(k, some (fresh h))]) ++ others) := by
      rw [ho, List.append_assoc]
      refine ⟨(List.perm_middle (l₁ := owned m)).nodup_iff.2 (List.nodup_cons.2 ⟨fun hm => ?_, hg.1⟩), fun b hb => ?_⟩
      · have := hg.2 _ hm
        rw [hf] at this
        cases this
      · have hb' : b = fresh h ∨ b ∈ owned m ++ others := by
          rcases List.mem_append.1 hb with hb | hb
          · exact .inr (List.mem_append_left _ hb)
          · rcases List.mem_cons.1 hb with hb | hb
            · exact .inl hb
            · exact .inr (List.mem_append_right _ hb)
        rcases hb' with rfl | hb'
        · simp
        · rw [keep b (hg.2 b hb')]
          exact hg.2 b hb'
    obtain ⟨h2, m2, e2, g2, l2, c2⟩ := copies others src ((fresh h, v) :: h) (m ++ [(k, some (fresh h))]) g1 k2 (by
      intro e he hm
      rw [List.map_append, List.mem_append] at hm
      rcases hm with hm | hm
      · exact hd e (List.mem_cons_of_mem _ he) hm
      · have : e.1 = k := by simpa using hm
        exact k1 (List.mem_map.2 ⟨e, he, this⟩)) fun e he => hs e (List.mem_cons_of_mem _ he)
    refine ⟨h2, (k, some (fresh h)) :: m2, ?_, ?_, ?_, ?_⟩
    · rw [List.foldlM_cons]
      have : copyOne (h, m) (k, some a) = some ((fresh h, v) :: h, m ++ [(k, some (fresh h))]) := by
        unfold copyOne
        simp only [hv, Option.map_some]
      rw [this]
      simpa using e2
    · simpa using g2
    · intro b hb
      rw [l2 b (by rw [keep b hb]; exact hb), keep b hb]
    · intro s
      unfold has
      rw [List.lookup_cons, List.lookup_cons]
      by_cases hsk : s = k
      · subst hsk
        simp only [beq_self_eq_true, Option.bind_some]
        rw [l2 (fresh h) (by simp), hv]
        simp
      · rw [beq_eq_false_iff_ne.2 hsk]
        have := c2 s
        unfold has at this
        simp only
        rw [this]
        cases hl : src.lookup s with
        | none => rfl
        | some p =>
          obtain ⟨b, hb, e⟩ := hs (s, p) (List.mem_cons_of_mem _ (lookup_mem hl))
          simp only at e
          subst e
          simp only [Option.bind_some]
          exact keep b (hg.2 b (List.mem_append_right _ hb))

/-- **C190, partial.** After cloning the callbacks of another manager, a manager has copies of them for the same schemes and nothing else, its old ones are deleted, and the other manager keeps its own. Missing: schemes with a NULL pointer
(`clone_null_violated`). -/
theorem clone_callbacks_partial (src : Mgr) (h : Heap α) (m : Mgr) (others : List Nat) (hk : Keyed src) (hg : Good h (owned m ++ (owned src ++ others))) (hn : ∀ e ∈ src, e.2 ≠ none) :
    ∃ h' m', clone src h m = some (h', m') ∧ Good h' (owned m' ++ (owned src ++ others)) ∧ (∀ s, has h' m' s = has h src s) ∧ (∀ s, has h' src s = has h src s) := by
  obtain ⟨h1, e1, g1, _, l1⟩ := remove_all (owned src ++ others) m h hg
  have hsrc : ∀ e ∈ src, ∃ a ∈ owned src ++ others, e.2 = some a := by
    intro e he
    obtain ⟨a, ha⟩ := Option.ne_none_iff_exists'.1 (hn e he)
    exact ⟨a, List.mem_append_left _ (List.mem_filterMap.2 ⟨e, he, ha⟩), ha⟩
  have same : ∀ s, has h1 src s = has h src s := by
    intro s
    unfold has
    cases hl : src.lookup s with
    | none => rfl
    | some p =>
      cases p with
      | none => rfl
      | some b =>
        refine l1 b fun hm => ?_
        exact (List.nodup_append.1 hg.1).2.2 b hm b (List.mem_append_left _ (List.mem_filterMap.2 ⟨_, lookup_mem hl, rfl⟩)) rfl
  obtain ⟨h2, m2, e2, g2, l2, c2⟩ := copies (owned src ++ others) src h1 [] g1 hk (fun e _ hm => absurd hm List.not_mem_nil) hsrc
  refine ⟨h2, m2, by unfold clone; rw [e1]; exact e2, g2, fun s => by rw [c2, same], fun s => ?_⟩
  rw [← same s]
  unfold has
  cases hl : src.lookup s with
  | none => rfl
  | some p =>
    cases p with
    | none => rfl
    | some b => exact l2 b (g1.2 b (List.mem_append_left _ (List.mem_filterMap.2 ⟨_, lookup_mem hl, rfl⟩)))

/-- **C190.** The file that is opened in the end is taken by no opener. -/
theorem resolved {T : Type} (openers : List (T → Option T)) : ∀ (n : Nat) (f g : T), resolve openers n f = some g → ∀ o ∈ openers, o g = none
  | n + 1, f, g, h => by
    unfold resolve at h
    split at h
    · next e =>
      obtain rfl := Option.some.inj h
      exact List.findSome?_eq_none_iff.1 e
    · exact resolved openers n _ g h

/-! ## What does not hold -/

/-- **C190, violated.** Setting the object that a scheme has already deletes it and keeps the pointer. -/
theorem set_again_violated (s a : Nat) (h : Heap α) (m : Mgr) (others : List Nat) (hk : Keyed m) (hg : Good h (owned m ++ others)) (hl : m.lookup s = some (some a)) :
    ∃ h' m', set s (some a) h m = some (h', m') ∧ m'.lookup s = some (some a) ∧ h'.lookup a = none := by
  obtain ⟨h1, m1, e1, _, _, n1, _, _, d1⟩ := remove_scheme s h m others hk hg
  refine ⟨h1, m1 ++ [(s, some a)], by unfold set; rw [e1]; rfl, ?_, d1 a hl⟩
  rw [lookup_append, n1]
  simp

/-- **C190, violated.** One object set for two schemes is deleted twice. -/
theorem set_twice_violated : (((set 1 (some 7) [(7, ())] []).bind fun r => set 2 (some 7) r.1 r.2).bind fun r => removeAll r.1 r.2) = none := by decide +kernel

/-- **C190, violated.** A scheme that was set to NULL makes the cloning read through it. -/
theorem clone_null_violated : ((set 1 none ([] : Heap Unit) []).bind fun r => clone r.2 r.1 []) = none := by decide +kernel

/-- **C190, violated.** The opening does not end if the openers always take what they made. -/
theorem openers_loop_violated {T : Type} (openers : List (T → Option T)) (P : T → Prop) (h : ∀ f, P f → ∃ g, (openers.findSome? fun o => o f) = some g ∧ P g) : ∀ (n : Nat) (f : T), P f → resolve openers n f = none
  | 0, _, _ => rfl
  | n + 1, f, hf => by
    obtain ⟨g, e, hg⟩ := h f hf
    unfold resolve
    rw [e]
    exact openers_loop_violated openers P h n g hg

example : Good [(7, 'a'), (8, 'b'), (9, 'c')] (owned [(1, some 7), (2, none), (3, some 8)] ++ [9]) ∧ Keyed [(1, some 7), (2, none), (3, some 8)] := by
  unfold Good Keyed
  decide +kernel
example : set 3 (some 9) [(7, 'a'), (8, 'b'), (9, 'c')] [(1, some 7), (2, none), (3, some 8)] = some ([(7, 'a'), (9, 'c')], [(1, some 7), (2, none), (3, some 9)]) := by decide +kernel
example : clone [(1, some 7), (3, some 8)] [(7, 'a'), (8, 'b'), (9, 'c')] [(3, some 9)] = some ([(10, 'b'), (9, 'a'), (7, 'a'), (8, 'b')], [(1, some 9), (3, some 10)]) := by decide +kernel
example : resolve [fun n => if n < 3 then some (n + 1) else none] 9 0 = some 3 := by decide +kernel
example : ∀ n, resolve [fun f : Nat => some f] n 0 = none := fun n => openers_loop_violated _ (fun _ => True) (fun f _ => ⟨f, rfl, trivial⟩) n 0 trivial

end Verif.FScheme
