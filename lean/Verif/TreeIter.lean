import Verif.TreeMap

/-! Helper lemmas: iterator moves and tree copies of the `fm::tree` model. -/

namespace Verif.FTree

variable {K V : Type}

/-- The position of the `i`-th entry of a subtree. -/
def locate : Tree K V → Nat → List (Frame K V) → Option (Pos K V)
  | .nil, _, _ => none
  | .node l k v w r, i, fs =>
    if i < l.count then locate l i (.left k v w r :: fs)
    else if i = l.count then some (.at l k v w r fs)
    else locate r (i - l.count - 1) (.right l k v w :: fs)

/-- The position of the `i`-th entry, `end()` past the last. -/
def posAt (t : Tree K V) (i : Nat) : Pos K V := (locate t i []).getD .endPos

theorem locate_some (t : Tree K V) : ∀ i fs, i < t.count → ∃ p, locate t i fs = some p ∧ p.entry = t.toList[i]? := by
  induction t with
  | nil => intro i fs h; simp [Tree.count] at h
  | node l k v w r ihl ihr =>
    intro i fs h
    simp only [Tree.count] at h
    simp only [locate, Tree.toList]
    have hl := toList_length l
    split
    · rename_i h1
      obtain ⟨p, e1, e2⟩ := ihl i (.left k v w r :: fs) h1
      exact ⟨p, e1, by rw [e2, List.getElem?_append_left (by omega)]⟩
    · split
      · rename_i h1 h2
        exact ⟨_, rfl, by rw [List.getElem?_append_right (by omega)]; simp [h2, hl, Pos.entry]⟩
      · rename_i h1 h2
        obtain ⟨p, e1, e2⟩ := ihr (i - l.count - 1) (.right l k v w :: fs) (by omega)
        refine ⟨p, e1, ?_⟩
        rw [e2, List.getElem?_append_right (by omega), hl]
        obtain ⟨n, hn⟩ : ∃ n, i - l.count = n + 1 := ⟨i - l.count - 1, by omega⟩
        rw [hn]; simp

theorem locate_ge (t : Tree K V) : ∀ i fs, t.count ≤ i → locate t i fs = none := by
  induction t with
  | nil => intro i fs h; rfl
  | node l k v w r ihl ihr =>
    intro i fs h
    simp only [Tree.count] at h
    simp only [locate]
    rw [if_neg (by omega), if_neg (by omega)]
    exact ihr _ _ (by omega)

theorem locate_plug (fs : List (Frame K V)) : ∀ (t : Tree K V) (j : Nat) (base : List (Frame K V)), j < t.count →
    locate (plug t fs) ((ctxL fs).length + j) base = locate t j (fs ++ base) := by
  induction fs with
  | nil => intro t j base h; simp [plug, ctxL]
  | cons f fs ih =>
    intro t j base h
    cases f with
    | left k v w r =>
      simp only [plug, Frame.fill, ctxL]
      rw [ih _ _ _ (by simp [Tree.count]; omega)]
      simp [locate, h]
    | right l k v w =>
      simp only [plug, Frame.fill, ctxL, List.length_append, List.length_cons, List.length_nil]
      rw [show (ctxL fs).length + (l.toList.length + (0 + 1)) + j = (ctxL fs).length + (l.count + 1 + j) by
        rw [toList_length]; omega]
      rw [ih _ _ _ (by simp [Tree.count]; omega)]
      simp only [locate]
      rw [if_neg (by omega), if_neg (by omega)]
      congr 1; omega

theorem posAt_plug (l : Tree K V) (k : K) (v : V) (w : Int) (r : Tree K V) (fs : List (Frame K V)) :
    posAt (plug (.node l k v w r) fs) ((ctxL fs).length + l.count) = .at l k v w r fs := by
  unfold posAt
  rw [locate_plug fs _ _ _ (by simp [Tree.count]; omega)]
  simp [locate]

theorem locate_inv (t : Tree K V) : ∀ i fs l k v w r gs, locate t i fs = some (.at l k v w r gs) →
    plug (.node l k v w r) gs = plug t fs ∧ (ctxL gs).length + l.count = (ctxL fs).length + i := by
  induction t with
  | nil => intro i fs l k v w r gs h; simp [locate] at h
  | node l0 k0 v0 w0 r0 ihl ihr =>
    intro i fs l k v w r gs h
    simp only [locate] at h
    split at h
    · obtain ⟨h1, h2⟩ := ihl _ _ _ _ _ _ _ _ h
      exact ⟨by simpa [plug, Frame.fill] using h1, by simpa [ctxL] using h2⟩
    · split at h
      · simp only [Option.some.injEq, Pos.at.injEq] at h
        obtain ⟨rfl, rfl, rfl, rfl, rfl, rfl⟩ := h
        exact ⟨rfl, by omega⟩
      · obtain ⟨h1, h2⟩ := ihr _ _ _ _ _ _ _ _ h
        refine ⟨by simpa [plug, Frame.fill] using h1, ?_⟩
        simp only [ctxL, List.length_append, List.length_cons, List.length_nil, toList_length] at h2
        omega

theorem count_plug (t : Tree K V) (fs : List (Frame K V)) :
    (plug t fs).count = (ctxL fs).length + t.count + (ctxR fs).length := by
  rw [← toList_length, toList_plug]; simp [toList_length]; omega

theorem goLeft_spec (t : Tree K V) : ∀ fs, t ≠ .nil →
    goLeft t fs = some (posAt (plug t fs) (ctxL fs).length) := by
  induction t with
  | nil => intro fs h; exact absurd rfl h
  | node l k v w r ih _ =>
    intro fs _
    rcases l with _ | ⟨ll, lk, lv, lw, lr⟩
    · have := posAt_plug .nil k v w r fs
      simp only [Tree.count, Nat.add_zero] at this
      simp [goLeft, this]
    · simp only [goLeft]
      rw [ih (.left k v w r :: fs) (by simp)]
      rfl

theorem goRight_spec (t : Tree K V) : ∀ fs, t ≠ .nil →
    goRight t fs = some (posAt (plug t fs) ((ctxL fs).length + t.count - 1)) := by
  induction t with
  | nil => intro fs h; exact absurd rfl h
  | node l k v w r _ ih =>
    intro fs _
    rcases r with _ | ⟨rl, rk, rv, rw, rr⟩
    · have := posAt_plug l k v w .nil fs
      simp only [goRight, Tree.count, Nat.add_zero]
      rw [← this]; congr 2
    · simp only [goRight]
      rw [ih (.right l k v w :: fs) (by simp)]
      simp only [plug, Frame.fill, ctxL, List.length_append, List.length_cons, List.length_nil, toList_length, Tree.count]
      congr 2; omega

theorem posAt_ge (t : Tree K V) (i : Nat) (h : t.count ≤ i) : posAt t i = .endPos := by
  simp [posAt, locate_ge t i [] h]

theorem upFromRight_spec (fs : List (Frame K V)) : ∀ t : Tree K V,
    upFromRight t fs = posAt (plug t fs) ((ctxL fs).length + t.count) := by
  induction fs with
  | nil => intro t; simp [upFromRight, plug, ctxL, posAt_ge]
  | cons f fs ih =>
    intro t
    cases f with
    | left k v w r =>
      have := posAt_plug t k v w r fs
      simp only [upFromRight, plug, Frame.fill, ctxL]
      rw [this]
    | right l k v w =>
      simp only [upFromRight]
      rw [ih]
      simp only [plug, Frame.fill, ctxL, List.length_append, List.length_cons, List.length_nil, toList_length, Tree.count]
      congr 1; omega

theorem upFromLeft_spec (fs : List (Frame K V)) : ∀ t : Tree K V,
    upFromLeft t fs = if (ctxL fs).length = 0 then .endPos else posAt (plug t fs) ((ctxL fs).length - 1) := by
  induction fs with
  | nil => intro t; simp [upFromLeft, ctxL]
  | cons f fs ih =>
    intro t
    cases f with
    | left k v w r =>
      simp only [upFromLeft]
      rw [ih]
      rfl
    | right l k v w =>
      have := posAt_plug l k v w t fs
      simp only [upFromLeft, ctxL, List.length_append, List.length_cons, List.length_nil, toList_length, plug, Frame.fill]
      rw [if_neg (by omega), ← this]
      congr 1

theorem next_posAt (t : Tree K V) (i : Nat) (h : i < t.count) : next t (posAt t i) = some (posAt t (i + 1)) := by
  obtain ⟨p, e1, e2⟩ := locate_some t i [] h
  have hp : posAt t i = p := by simp [posAt, e1]
  rw [hp]
  rcases p with _ | ⟨l, k, v, w, r, fs⟩
  · have : i < t.toList.length := by rw [toList_length]; exact h
    simp [Pos.entry, List.getElem?_eq_getElem this] at e2
  obtain ⟨h1, h2⟩ := locate_inv t _ _ _ _ _ _ _ _ e1
  simp only [plug, ctxL, List.length_nil, Nat.zero_add] at h1 h2
  rcases r with _ | ⟨rl, rk, rv, rw, rr⟩
  · simp only [next]
    rw [upFromRight_spec, h1]
    simp only [Tree.count]
    congr 2; omega
  · simp only [next]
    rw [goLeft_spec _ _ (by simp)]
    simp only [plug, Frame.fill, ctxL, List.length_append, List.length_cons, List.length_nil, toList_length, h1]
    congr 2; omega

theorem prev_posAt (t : Tree K V) (i : Nat) (h : i < t.count) :
    prev (posAt t i) = some (if i = 0 then .endPos else posAt t (i - 1)) := by
  obtain ⟨p, e1, e2⟩ := locate_some t i [] h
  have hp : posAt t i = p := by simp [posAt, e1]
  rw [hp]
  rcases p with _ | ⟨l, k, v, w, r, fs⟩
  · have : i < t.toList.length := by rw [toList_length]; exact h
    simp [Pos.entry, List.getElem?_eq_getElem this] at e2
  obtain ⟨h1, h2⟩ := locate_inv t _ _ _ _ _ _ _ _ e1
  simp only [plug, ctxL, List.length_nil, Nat.zero_add] at h1 h2
  rcases l with _ | ⟨ll, lk, lv, lw, lr⟩
  · simp only [prev, Tree.count, Nat.add_zero] at h2 ⊢
    rw [upFromLeft_spec, h1, h2]
  · simp only [prev]
    rw [goRight_spec _ _ (by simp)]
    simp only [Tree.count] at h2 ⊢
    simp only [plug, Frame.fill, h1, ctxL]
    rw [if_neg (by omega)]
    congr 2; omega

theorem begin_posAt (t : Tree K V) : begin t = some (posAt t 0) := by
  rcases t with _ | ⟨l, k, v, w, r⟩
  · rfl
  · simp only [begin, next]
    rw [goLeft_spec _ _ (by simp)]; rfl

theorem last_posAt (t : Tree K V) : last t = some (posAt t (t.count - 1)) := by
  rcases t with _ | ⟨l, k, v, w, r⟩
  · rfl
  · simp only [last]
    rw [goRight_spec _ _ (by simp)]
    simp [plug, ctxL]

theorem posAt_entry (t : Tree K V) (i : Nat) : (posAt t i).entry = t.toList[i]? := by
  by_cases h : i < t.count
  · obtain ⟨p, e1, e2⟩ := locate_some t i [] h
    simp [posAt, e1, e2]
  · rw [posAt_ge t i (by omega), List.getElem?_eq_none (by rw [toList_length]; omega)]; rfl

theorem posAt_end (t : Tree K V) (i : Nat) : posAt t i = .endPos ↔ t.count ≤ i := by
  constructor
  · intro h
    by_contra hc
    have := posAt_entry t i
    have h2 : i < t.toList.length := by rw [toList_length]; omega
    rw [h, List.getElem?_eq_getElem h2] at this
    simp [Pos.entry] at this
  · exact posAt_ge t i

/-! ### Copy -/

/-- The ancestors of the clone node: left subtrees already copied, right subtrees still missing. -/
def cloneCtx : List (Frame K V) → List (Frame K V)
  | [] => []
  | .left k v w _ :: fs => .left k v w .nil :: cloneCtx fs
  | .right l k v w :: fs => .right l k v w :: cloneCtx fs

/-- Entries of the source not yet created in the clone, outside the current subtree. -/
def ctxTodo : List (Frame K V) → Nat
  | [] => 0
  | .left _ _ _ r :: fs => r.count + ctxTodo fs
  | .right _ _ _ _ :: fs => ctxTodo fs

theorem copyLeft_spec (t : Tree K V) : ∀ (fs : List (Frame K V)) (n : Int), t ≠ .nil →
    ∃ k v w r gs d, copyLeft t fs (cloneCtx fs) n =
        some (.node .nil k v w r, gs, leafOf k v w, cloneCtx gs, n + (d : Nat)) ∧
      plug (.node .nil k v w r) gs = plug t fs ∧
      d + r.count + 1 + ctxTodo gs = t.count + ctxTodo fs ∧
      r.count + 1 + (ctxR gs).length = t.count + (ctxR fs).length := by
  induction t with
  | nil => intro fs n h; exact absurd rfl h
  | node l k v w r ih _ =>
    intro fs n _
    rcases l with _ | ⟨ll, lk, lv, lw, lr⟩
    · exact ⟨k, v, w, r, fs, 0, by simp [copyLeft], rfl, by simp [Tree.count], by simp [Tree.count]⟩
    · obtain ⟨k', v', w', r', gs, d, h1, h2, h3, h4⟩ := ih (.left k v w r :: fs) (n + 1) (by simp)
      refine ⟨k', v', w', r', gs, d + 1, ?_, by simpa [plug, Frame.fill] using h2, ?_, ?_⟩
      · simp only [copyLeft]
        rw [show (Frame.left k v w Tree.nil :: cloneCtx fs) = cloneCtx (.left k v w r :: fs) from rfl, h1]
        simp; omega
      · simp only [ctxTodo, Tree.count] at h3 ⊢; omega
      · simp only [ctxR, List.length_append, List.length_cons, toList_length, Tree.count] at h4 ⊢; omega

theorem copyUp_spec (fs : List (Frame K V)) : ∀ t : Tree K V,
    (copyUp t fs t (cloneCtx fs) = some (.inl (plug t fs)) ∧ ctxTodo fs = 0) ∨
    ∃ l k v w r gs, copyUp t fs t (cloneCtx fs) =
        some (.inr (.node l k v w r, gs, .node l k v w .nil, cloneCtx gs)) ∧
      plug (.node l k v w r) gs = plug t fs ∧ ctxTodo gs + r.count = ctxTodo fs ∧
      (ctxR gs).length + r.count + 1 = (ctxR fs).length := by
  induction fs with
  | nil => intro t; left; exact ⟨rfl, rfl⟩
  | cons f fs ih =>
    intro t
    cases f with
    | left k v w r =>
      right
      exact ⟨t, k, v, w, r, fs, rfl, rfl, by simp [ctxTodo]; omega, by simp [ctxR, toList_length]; omega⟩
    | right l k v w =>
      simp only [copyUp, cloneCtx, Frame.fill]
      rcases ih (.node l k v w t) with ⟨h1, h2⟩ | ⟨l', k', v', w', r', gs, h1, h2, h3, h4⟩
      · left; exact ⟨by simpa [plug, Frame.fill] using h1, by simpa [ctxTodo] using h2⟩
      · right
        exact ⟨l', k', v', w', r', gs, h1, by simpa [plug, Frame.fill] using h2, by simpa [ctxTodo] using h3,
          by simpa [ctxR] using h4⟩

/-- The copy loop from a node whose left part is done. -/
theorem copyLoop_spec : ∀ (fuel : Nat) (l : Tree K V) (k : K) (v : V) (w : Int) (r : Tree K V) (fs : List (Frame K V)) (n : Int),
    r.count + (ctxR fs).length < fuel →
    copyLoop fuel (.node l k v w r) fs (.node l k v w .nil) (cloneCtx fs) n =
      some (plug (.node l k v w r) fs, n + (r.count + ctxTodo fs : Nat)) := by
  intro fuel
  induction fuel with
  | zero => intro l k v w r fs n h; omega
  | succ fuel ih =>
    intro l k v w r fs n h
    rcases r with _ | ⟨rl, rk, rv, rw, rr⟩
    · simp only [copyLoop]
      rcases copyUp_spec fs (.node l k v w .nil) with ⟨h1, h2⟩ | ⟨l', k', v', w', r', gs, h1, h2, h3, h4⟩
      · rw [h1]; simp [h2, Tree.count]
      · rw [h1]
        simp only []
        rw [ih l' k' v' w' r' gs n (by omega), h2]
        simp only [Tree.count]; congr 2; omega
    · simp only [copyLoop]
      obtain ⟨k', v', w', r', gs, d, h1, h2, h3, h4⟩ :=
        copyLeft_spec (.node rl rk rv rw rr) (.right l k v w :: fs) (n + 1) (by simp)
      rw [show (Frame.right l k v w :: cloneCtx fs) = cloneCtx (.right l k v w :: fs) from rfl, h1]
      simp only [Option.bind_some, leafOf]
      rw [ih .nil k' v' w' r' gs _ (by simp only [ctxR] at h4; omega), h2]
      simp only [plug, Frame.fill, ctxTodo] at h3 ⊢
      congr 2; omega

theorem assign_spec (m src : Map K V) (h : m.sized = m.t.count) :
    m.assign src = some ⟨src.t, src.t.count⟩ := by
  unfold Map.assign
  rw [clear_spec m h]
  simp only [Option.bind_some]
  cases hs : src.t with
  | nil => simp [Tree.count]
  | node l k v w r =>
    simp only []
    obtain ⟨k', v', w', r', gs, d, h1, h2, h3, h4⟩ := copyLeft_spec (.node l k v w r) [] ((0 : Int) + 1) (by simp)
    simp only [cloneCtx] at h1
    rw [h1]
    simp only [Option.bind_some, leafOf]
    simp only [ctxR, List.length_nil, ctxTodo] at h3 h4
    rw [copyLoop_spec _ .nil k' v' w' r' gs _ (by omega), h2]
    simp only [Option.map_some, plug]
    congr 2; omega

end Verif.FTree
