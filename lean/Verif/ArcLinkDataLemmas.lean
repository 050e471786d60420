import Verif.ArcLinkDataSpec

/-!
# Lemmas about the records of imports
-/

namespace Verif.FLinkData

variable {load : Nat → St → Out} {me : Nat}

/-- The steps of a list one after the other. -/
theorem steps_append (a b : List Step) (s : St) :
    steps load me (a ++ b) s = match steps load me a s with
      | .ok u _ => steps load me b u
      | o => o := by
  induction a generalizing s with
  | nil => rfl
  | cons x a ih =>
    cases x with
    | note o => simp only [List.cons_append, steps]; exact ih _
    | need f o =>
      simp only [List.cons_append, steps]
      by_cases h : (f, o) ∈ s.data
      · rw [if_pos h, if_pos h]; exact ih _
      · rw [if_neg h, if_neg h]
    | mention f => simp only [List.cons_append, steps]; exact ih _
    | fetch f =>
      simp only [List.cons_append, steps]
      split
      · exact ih _
      · cases load f { s with open_ := onTop (mention f) s.open_ } with
        | ok u st => exact ih _
        | ub => rfl
        | fuel => rfl

/-- Steps that are completed are completed up to any place. -/
theorem steps_prefix {a b : List Step} {s t : St} {st : Bool} (h : steps load me (a ++ b) s = .ok t st) :
    ∃ u st', steps load me a s = .ok u st' ∧ steps load me b u = .ok t st := by
  rw [steps_append] at h
  cases e : steps load me a s with
  | ok u st' => rw [e] at h; exact ⟨u, st', rfl, h⟩
  | ub => rw [e] at h; cases h
  | fuel => rw [e] at h; cases h

/-- An import that is completed leaves no records. -/
theorem import_cleared {files : Nat → File} {n f : Nat} {s t : St} {st : Bool} (h : importFile files n f s = .ok t st) : t.data = [] := by
  cases n with
  | zero => cases h
  | succ n =>
    unfold importFile at h
    split at h
    · cases h; rfl
    · cases h; rfl
    · split at h
      · cases h; rfl
      · rename_i o ho
        exact absurd h (ho t st)
    · split at h
      · cases h; rfl
      · rename_i o ho
        exact absurd h (ho t st)

/-- The files of the placeholders. -/
def keys (l : List (List (Nat × Bool))) : List (List Nat) := l.map fun ps => ps.map Prod.fst

theorem register_keys (f : Nat) (ps : List (Nat × Bool)) : (register f ps).map Prod.fst = ps.map Prod.fst := by
  unfold register
  rw [List.map_map]
  refine List.map_congr_left fun p _ => ?_
  show (if p.1 = f then (f, true) else p).1 = p.1
  split
  · rename_i h; exact h.symm
  · rfl

theorem keys_register (f : Nat) (l : List (List (Nat × Bool))) : keys (l.map (register f)) = keys l := by
  unfold keys
  rw [List.map_map]
  refine List.map_congr_left fun ps _ => register_keys f ps

theorem keys_onTop (f : Nat) (l : List (List (Nat × Bool))) : (keys (onTop (mention f) l)).tail = (keys l).tail := by
  cases l <;> rfl

/-- Steps do not add placeholders to the documents that wait. -/
theorem steps_keys (hl : ∀ f s t st, load f s = .ok t st → keys t.open_ = keys s.open_) (l : List Step) (s : St) {t : St} {st : Bool} (h : steps load me l s = .ok t st) :
    (keys t.open_).tail = (keys s.open_).tail := by
  induction l generalizing s with
  | nil => cases h; rfl
  | cons x l ih =>
    cases x with
    | note o => rw [steps] at h; have := ih _ h; exact this
    | need f o =>
      rw [steps] at h
      split at h
      · exact ih _ h
      · cases h
    | mention f => rw [steps] at h; rw [ih _ h]; exact keys_onTop f s.open_
    | fetch f =>
      simp only [steps] at h
      split at h
      · rw [ih _ h]; exact keys_onTop f s.open_
      · split at h
        · rename_i u ok e
          have := ih _ h
          rw [this]
          have e' := hl _ _ _ _ e
          cases ok
          · show (keys u.open_).tail = _
            rw [e']; exact keys_onTop f s.open_
          · show (keys (u.open_.map (register f))).tail = _
            rw [keys_register, e']; exact keys_onTop f s.open_
        · rename_i o ho
          exact absurd h (ho t st)

/-- An import adds no placeholders to the documents that wait. -/
theorem import_keys (files : Nat → File) (n f : Nat) (s t : St) (st : Bool) (h : importFile files n f s = .ok t st) : keys t.open_ = keys s.open_ := by
  have tl : ∀ l : List (List (Nat × Bool)), keys l.tail = (keys l).tail := fun l => by cases l <;> rfl
  induction n generalizing f s t st with
  | zero => cases h
  | succ n ih =>
    unfold importFile at h
    split at h
    · cases h; rfl
    · cases h; rfl
    · split at h
      · rename_i u b e
        cases h
        show keys u.open_.tail = _
        rw [tl, steps_keys ih _ _ e]; rfl
      · rename_i o ho
        exact absurd h (ho t st)
    · split at h
      · rename_i u b e
        cases h
        show keys u.open_.tail = _
        rw [tl, steps_keys ih _ _ e]; rfl
      · rename_i o ho
        exact absurd h (ho t st)

/-- Steps keep the count if the imports that they start do. -/
theorem steps_count (R : Nat → Nat → Prop) (hr : ∀ a, R a a) (ht : ∀ a b c, R a b → R b c → R a c)
    (hl : ∀ f s t st, load f s = .ok t st → R s.count t.count) (l : List Step) (s : St) {t : St} {st : Bool} (h : steps load me l s = .ok t st) : R s.count t.count := by
  induction l generalizing s with
  | nil => cases h; exact hr _
  | cons x l ih =>
    cases x with
    | note o => rw [steps] at h; have := ih _ h; exact this
    | need f o =>
      rw [steps] at h
      split at h
      · exact ih _ h
      · cases h
    | mention f => rw [steps] at h; have := ih _ h; exact this
    | fetch f =>
      simp only [steps] at h
      split at h
      · have := ih _ h; exact this
      · split at h
        · rename_i u ok e
          have e' := hl _ _ _ _ e
          refine ht _ _ _ e' ?_
          have := ih _ h
          cases ok <;> exact this
        · rename_i o ho
          exact absurd h (ho t st)

/-- The count never falls. -/
theorem import_count_le (files : Nat → File) (n f : Nat) (s t : St) (st : Bool) (h : importFile files n f s = .ok t st) : s.count ≤ t.count := by
  induction n generalizing f s t st with
  | zero => cases h
  | succ n ih =>
    have hs : ∀ l u b, steps (importFile files n) f l (enter s) = .ok u b → s.count + 1 ≤ u.count := fun l u b e =>
      steps_count (· ≤ ·) (fun _ => le_refl _) (fun _ _ _ => le_trans) ih l _ e
    unfold importFile at h
    split at h
    · cases h; exact le_refl _
    · cases h; exact Nat.le_succ _
    · split at h
      · rename_i u b e
        cases h
        have := hs _ _ _ e
        show s.count ≤ u.count
        omega
      · rename_i o ho
        exact absurd h (ho t st)
    · split at h
      · rename_i u b e
        cases h
        have := hs _ _ _ e
        show s.count ≤ u.count - 1
        omega
      · rename_i o ho
        exact absurd h (ho t st)

/-- Whole imports keep the count. -/
theorem import_count_eq (files : Nat → File) (hf : ∀ f, files f = .broken ∨ ∃ b l, files f = .whole b l) (n f : Nat) (s t : St) (st : Bool)
    (h : importFile files n f s = .ok t st) : s.count = t.count := by
  induction n generalizing f s t st with
  | zero => cases h
  | succ n ih =>
    have hs : ∀ l u b, steps (importFile files n) f l (enter s) = .ok u b → s.count + 1 = u.count := fun l u b e =>
      steps_count (· = ·) (fun _ => rfl) (fun _ _ _ => Eq.trans) ih l _ e
    rcases hf f with e | ⟨b, l, e⟩
    · rw [importFile, e] at h; cases h; rfl
    · rw [importFile, e] at h
      simp only at h
      split at h
      · rename_i u b' e'
        cases h
        have := hs _ _ _ e'
        show s.count = u.count - 1
        omega
      · rename_i o ho
        exact absurd h (ho t st)

/-- A record that is not there stays away if the steps do not note it. -/
theorem steps_absent (hl : ∀ f s t st, load f s = .ok t st → t.data = []) (k : Nat × Nat) (l : List Step) (hk : k.1 = me → Step.note k.2 ∉ l) (s : St) (hs : k ∉ s.data)
    {t : St} {st : Bool} (h : steps load me l s = .ok t st) : k ∉ t.data := by
  induction l generalizing s with
  | nil => cases h; exact hs
  | cons x l ih =>
    have ih := fun s hs => ih (fun e m => hk e (List.mem_cons_of_mem _ m)) (s := s) hs
    cases x with
    | note o =>
      refine ih _ ?_ h
      show k ∉ (me, o) :: s.data
      rw [List.mem_cons, not_or]
      refine ⟨fun e => ?_, hs⟩
      subst e
      exact hk rfl (List.mem_cons_self ..)
    | need f o =>
      rw [steps] at h
      split at h
      · exact ih _ hs h
      · cases h
    | mention f => rw [steps] at h; exact ih { s with open_ := onTop (mention f) s.open_ } hs h
    | fetch f =>
      simp only [steps] at h
      split at h
      · exact ih { s with open_ := onTop (mention f) s.open_ } hs h
      · split at h
        · rename_i u ok e
          have e' := hl _ _ _ _ e
          refine ih _ ?_ h
          cases ok
          · show k ∉ u.data
            rw [e']; simp
          · show k ∉ u.data
            rw [e']; simp
        · rename_i o ho
          exact absurd h (ho t st)

/-- The files of the placeholders of the innermost document. -/
def top (s : St) : List Nat := (keys s.open_).headD []

theorem top_mention (f : Nat) (s : St) (g : Nat) (h : g ∉ top s) (hg : g ≠ f) : g ∉ top { s with open_ := onTop (mention f) s.open_ } := by
  cases e : s.open_ with
  | nil => rw [show top { s with open_ := onTop (mention f) [] } = [] from rfl]; simp
  | cons ps r =>
    show g ∉ (mention f ps).map Prod.fst
    have h : g ∉ ps.map Prod.fst := by
      have : top s = ps.map Prod.fst := by unfold top; rw [e]; rfl
      rwa [this] at h
    unfold mention
    split
    · exact h
    · rw [List.map_append, List.mem_append, not_or]
      exact ⟨h, by simpa using hg⟩

/-- A file that the steps do not refer to has no placeholder. -/
theorem steps_top (hl : ∀ f s t st, load f s = .ok t st → keys t.open_ = keys s.open_) (g : Nat) (l : List Step) (hg : ∀ x ∈ l, x ≠ .mention g ∧ x ≠ .fetch g) (s : St) (hs : g ∉ top s)
    {t : St} {st : Bool} (h : steps load me l s = .ok t st) : g ∉ top t := by
  induction l generalizing s with
  | nil => cases h; exact hs
  | cons x l ih =>
    have hx := hg x (List.mem_cons_self ..)
    have ih := fun s hs => ih (fun y m => hg y (List.mem_cons_of_mem _ m)) (s := s) hs
    cases x with
    | note o => rw [steps] at h; exact ih { s with data := (me, o) :: s.data } hs h
    | need f o =>
      rw [steps] at h
      split at h
      · exact ih _ hs h
      · cases h
    | mention f => exact ih _ (top_mention f s g hs (fun e => hx.1 (by rw [e]))) h
    | fetch f =>
      have hm := top_mention f s g hs (fun e => hx.2 (by rw [e]))
      simp only [steps] at h
      split at h
      · exact ih _ hm h
      · split at h
        · rename_i u ok e
          have e' := hl _ _ _ _ e
          refine ih _ ?_ h
          cases ok
          · show g ∉ (keys u.open_).headD []
            rw [e']; exact hm
          · show g ∉ (keys (u.open_.map (register f))).headD []
            rw [keys_register, e']; exact hm
        · rename_i o ho
          exact absurd h (ho t st)

/-- A file without placeholder has no target after it is referred to. -/
theorem no_target (g : Nat) (s : St) (h : g ∉ top s) : hasTarget g ((onTop (mention g) s.open_).headD []) = false := by
  cases e : s.open_ with
  | nil => rfl
  | cons ps r =>
    have h : g ∉ ps.map Prod.fst := by
      have : top s = ps.map Prod.fst := by unfold top; rw [e]; rfl
      rwa [this] at h
    have hn : ps.any (fun p => p.1 == g) = false := by
      rw [List.any_eq_false]
      intro p hp hc
      exact h (List.mem_map.mpr ⟨p, hp, by simpa using hc⟩)
    show hasTarget g (mention g ps) = false
    unfold mention
    rw [hn, if_neg (by simp)]
    unfold hasTarget
    rw [List.any_append, Bool.or_eq_false_iff]
    refine ⟨?_, by simp⟩
    rw [List.any_eq_false]
    intro p hp hc
    rw [Bool.and_eq_true] at hc
    rw [List.any_eq_false] at hn
    exact hn p hp hc.1

/-- Steps whose reads are guarded are completed. -/
theorem steps_guarded (l pre : List Step) (s : St) (hg : Guarded me (pre ++ l)) (hd : ∀ a o b, pre = a ++ .note o :: b → (∀ g, Step.fetch g ∉ b) → (me, o) ∈ s.data)
    (hl : ∀ g, Step.fetch g ∈ l → ∀ s, ∃ u b, load g s = .ok u b) : ∃ u, steps load me l s = .ok u true := by
  induction l generalizing pre s with
  | nil => exact ⟨s, rfl⟩
  | cons x l ih =>
    have hl' := fun g (m : Step.fetch g ∈ l) => hl g (List.mem_cons_of_mem _ m)
    have hg' : Guarded me ((pre ++ [x]) ++ l) := by rwa [List.append_assoc]
    have snoc : ∀ {a : List Step} {y : Step} {b : List Step}, pre ++ [x] = a ++ y :: b → (b = [] ∧ a = pre ∧ y = x) ∨ ∃ b', b = b' ++ [x] ∧ pre = a ++ y :: b' := by
      intro a y b e
      rcases List.eq_nil_or_concat b with rfl | ⟨b', z, rfl⟩
      · have := List.append_inj' e rfl
        simp only [List.cons.injEq, and_true] at this
        exact .inl ⟨rfl, this.1.symm, this.2.symm⟩
      · rw [List.concat_eq_append, ← List.cons_append, ← List.append_assoc] at e
        have := List.append_inj' e rfl
        simp only [List.cons.injEq, and_true] at this
        exact .inr ⟨b', by rw [List.concat_eq_append, this.2], this.1⟩
    -- The records noted before are still there if nothing was fetched.
    have keep : ∀ t : St, (∀ k ∈ s.data, k ∈ t.data) → (∀ o, x = .note o → (me, o) ∈ t.data) →
        ∀ a o b, pre ++ [x] = a ++ .note o :: b → (∀ g, Step.fetch g ∉ b) → (me, o) ∈ t.data := by
      intro t hk hn a o b e hb
      rcases snoc e with ⟨_, _, e⟩ | ⟨b', rfl, e1⟩
      · exact hn o e.symm
      · exact hk _ (hd a o b' e1 fun g m => hb g (List.mem_append_left _ m))
    cases x with
    | note o =>
      rw [steps]
      refine ih (pre ++ [.note o]) _ hg' (keep _ (fun k m => List.mem_cons_of_mem _ m) ?_) hl'
      intro o' e; cases e; exact List.mem_cons_self ..
    | need f o =>
      obtain ⟨rfl, a, b, e, hb⟩ := hg pre f o l rfl
      rw [steps, if_pos (hd a o b e hb)]
      exact ih (pre ++ [.need f o]) s hg' (keep s (fun k m => m) (fun o e => by cases e)) hl'
    | mention f =>
      rw [steps]
      exact ih (pre ++ [.mention f]) _ hg' (keep _ (fun k m => m) (fun o e => by cases e)) hl'
    | fetch f =>
      have none : ∀ t : St, ∀ a o b, pre ++ [Step.fetch f] = a ++ .note o :: b → (∀ g, Step.fetch g ∉ b) → (me, o) ∈ t.data := by
        intro t a o b e hb
        rcases snoc e with ⟨_, _, e⟩ | ⟨b', rfl, e⟩
        · cases e
        · exact absurd (List.mem_append_right _ (List.mem_cons_self ..)) (hb f)
      simp only [steps]
      split
      · exact ih (pre ++ [.fetch f]) _ hg' (none _) hl'
      · obtain ⟨u, b, e⟩ := hl f (List.mem_cons_self ..) { s with open_ := onTop (mention f) s.open_ }
        rw [e]
        exact ih (pre ++ [.fetch f]) _ hg' (none _) hl'

end Verif.FLinkData
