import Verif.Vec
import Mathlib.Data.List.Induction

/-! Helper lemmas for `fm::vector`. -/

namespace Verif.FVec

variable {T : Type}

/-- The vector holds the cells `l`; for class types they are live objects and the spare cells are empty. -/
def Rep (triv : Bool) (v : Vec T) (l : List (Option T)) : Prop :=
  ∃ tail, v.buf = l ++ tail ∧ v.sized = l.length ∧
    (triv = false → (∀ c ∈ l, c.isSome = true) ∧ (∀ c ∈ tail, c = none))

theorem rep_empty (triv : Bool) : Rep triv (Vec.empty : Vec T) [] := ⟨[], rfl, rfl, by simp⟩

theorem Rep.sized_le {triv : Bool} {v : Vec T} {l} (h : Rep triv v l) : v.sized ≤ v.buf.length := by
  obtain ⟨t, h1, h2, -⟩ := h; rw [h1, h2]; simp

theorem get_mid (A B : List (Option T)) (o : Option T) (i : Nat) (hi : i = A.length) : (A ++ o :: B)[i]? = some o := by
  subst hi; simp

theorem set_mid (A B : List (Option T)) (o x : Option T) (i : Nat) (hi : i = A.length) : (A ++ o :: B).set i x = A ++ x :: B := by
  subst hi; simp

theorem put_mid (triv : Bool) (A B : List (Option T)) (o x : Option T) (s k i : Nat) (hi : i = A.length) :
    put triv ⟨A ++ o :: B, s, k⟩ i x = some ⟨A ++ x :: B, s, if triv || o.isNone then k else k + 1⟩ := by
  simp [put, get_mid _ _ _ _ hi, set_mid _ _ _ _ _ hi]

theorem put_dead (triv : Bool) (A B : List (Option T)) (o x : Option T) (s k i : Nat) (hi : i = A.length)
    (ho : triv = false → o = none) :
    put triv ⟨A ++ o :: B, s, k⟩ i x = some ⟨A ++ x :: B, s, k⟩ := by
  rw [put_mid triv A B o x s k i hi]
  cases triv
  · simp [ho rfl]
  · simp

theorem moveCell_up (A R : List (Option T)) (x : T) (c s k i j : Nat) (hi : i = A.length) (hj : j = i + c + 1) :
    moveCell ⟨A ++ some x :: (List.replicate c none ++ none :: R), s, k⟩ j i =
      some ⟨A ++ (none :: (List.replicate c none ++ some x :: R)), s, k⟩ := by
  subst hi
  unfold moveCell
  simp only [readCell, get_mid A _ (some x) A.length rfl, Option.bind_some]
  have e : A ++ some x :: (List.replicate c none ++ none :: R) = (A ++ some x :: List.replicate c none) ++ none :: R := by simp
  rw [e, put_dead false _ _ _ _ _ _ _ (by simp; omega) (by simp), Option.bind_some]
  have e2 : (A ++ some x :: List.replicate c none) ++ some x :: R = A ++ some x :: (List.replicate c none ++ some x :: R) := by simp
  rw [e2]
  simp [destroy]

theorem moveCell_down (A R : List (Option T)) (x : T) (c s k i j : Nat) (hi : i = A.length) (hj : j = i + c + 1) :
    moveCell ⟨A ++ none :: (List.replicate c none ++ some x :: R), s, k⟩ i j =
      some ⟨A ++ some x :: (List.replicate c none ++ none :: R), s, k⟩ := by
  subst hi
  unfold moveCell
  have e : A ++ none :: (List.replicate c none ++ some x :: R) = (A ++ none :: List.replicate c none) ++ some x :: R := by simp
  have hg : (A ++ none :: (List.replicate c none ++ some x :: R))[j]? = some (some x) := by
    rw [e, get_mid _ _ _ _ (by simp; omega)]
  simp only [readCell, hg, Option.bind_some]
  rw [put_dead false _ _ _ _ _ _ _ rfl (by simp), Option.bind_some]
  have e2 : A ++ some x :: (List.replicate c none ++ some x :: R) = (A ++ some x :: List.replicate c none) ++ some x :: R := by simp
  rw [e2]
  simp only [destroy, get_mid _ _ _ j (show j = (A ++ some x :: List.replicate c none).length by simp; omega),
    set_mid _ _ _ _ j (show j = (A ++ some x :: List.replicate c none).length by simp; omega)]
  simp

theorem upLoop_eq (c s k : Nat) (A : List (Option T)) : ∀ (M : List T) (R : List (Option T)) (i : Nat), i = A.length →
    upLoop ⟨A ++ (M.map some ++ (List.replicate (c + 1) none ++ R)), s, k⟩ i (c + 1) M.length =
      some ⟨A ++ (List.replicate (c + 1) none ++ (M.map some ++ R)), s, k⟩ := by
  intro M
  induction M using List.reverseRecOn with
  | nil => intro R i _; simp [upLoop]
  | append_singleton M x ih =>
    intro R i hi
    rw [List.length_append, List.length_singleton, upLoop]
    have e : A ++ ((M ++ [x]).map some ++ (List.replicate (c + 1) none ++ R)) =
        (A ++ M.map some) ++ some x :: (List.replicate c none ++ none :: R) := by
      rw [List.replicate_succ']; simp
    rw [e, moveCell_up (A ++ M.map some) R x c s k _ _ (by simp [hi]) (by omega), Option.bind_some]
    have e2 : (A ++ M.map some) ++ (none :: (List.replicate c none ++ some x :: R)) =
        A ++ (M.map some ++ (List.replicate (c + 1) none ++ (some x :: R))) := by
      rw [List.replicate_succ]; simp
    rw [e2, ih _ i hi]
    simp

theorem downLoop_eq (c s k : Nat) : ∀ (M : List T) (A R : List (Option T)) (i j : Nat), i = A.length → j = i + (c + 1) →
    downLoop ⟨A ++ (List.replicate (c + 1) none ++ (M.map some ++ R)), s, k⟩ i j M.length =
      some ⟨A ++ (M.map some ++ (List.replicate (c + 1) none ++ R)), s, k⟩ := by
  intro M
  induction M with
  | nil => intro A R i j _ _; simp [downLoop]
  | cons x M ih =>
    intro A R i j hi hj
    rw [List.length_cons, downLoop]
    have e : A ++ (List.replicate (c + 1) none ++ ((x :: M).map some ++ R)) =
        A ++ none :: (List.replicate c none ++ some x :: (M.map some ++ R)) := by
      rw [List.replicate_succ]; simp
    rw [e, moveCell_down A _ x c s k _ _ hi (by omega), Option.bind_some]
    have e2 : A ++ some x :: (List.replicate c none ++ none :: (M.map some ++ R)) =
        (A ++ [some x]) ++ (List.replicate (c + 1) none ++ (M.map some ++ R)) := by
      rw [List.replicate_succ']; simp
    rw [e2, ih _ _ _ _ (by simp [hi]) (by omega)]
    simp

theorem all_some (l : List (Option T)) (h : ∀ c ∈ l, c.isSome = true) : ∃ M : List T, l = M.map some := by
  induction l with
  | nil => exact ⟨[], rfl⟩
  | cons c l ih =>
    obtain ⟨M, rfl⟩ := ih (fun x hx => h x (by simp [hx]))
    obtain ⟨x, rfl⟩ := Option.isSome_iff_exists.1 (h c (by simp))
    exact ⟨x :: M, rfl⟩

theorem all_none (l : List (Option T)) (h : ∀ c ∈ l, c = none) : l = List.replicate l.length none :=
  List.eq_replicate_iff.2 ⟨rfl, h⟩

/-- Making room: the cells after the position move up by `c`. -/
theorem shiftUp_eq (triv : Bool) (A M D R : List (Option T)) (s k i : Nat) (hi : i = A.length) (hs : s = i + M.length)
    (hD : D ≠ []) (hinv : triv = false → (∀ c ∈ M, c.isSome = true) ∧ ∀ c ∈ D, c = none) :
    ∃ G, G.length = D.length ∧ (triv = false → ∀ c ∈ G, c = none) ∧
      (∀ a ∈ M.head?, G.head? = some a ∨ triv = false) ∧
      shiftUp triv ⟨A ++ (M ++ (D ++ R)), s, k⟩ i D.length = some ⟨A ++ (G ++ (M ++ R)), s, k⟩ := by
  unfold shiftUp
  simp only
  by_cases hM : M = []
  · subst hM
    rw [if_neg (by simp at hs; omega)]
    exact ⟨D, rfl, fun h => (hinv h).2, by simp, by simp⟩
  have hMl : 0 < M.length := List.length_pos_iff.2 hM
  have hDl : 0 < D.length := List.length_pos_iff.2 hD
  rw [if_pos (by omega)]
  cases triv with
  | true =>
    refine ⟨(M ++ D).take D.length, by simp, by simp, ?_, ?_⟩
    · intro a ha
      left
      rcases M with _ | ⟨m, M⟩
      · simp at ha
      · rcases D with _ | ⟨d, D⟩
        · exact absurd rfl hD
        · simpa using ha
    · subst hi hs
      rw [if_pos rfl, memmove, if_pos (by simp; omega)]
      congr 2
      have h1 : (A ++ (M ++ (D ++ R))).take (A.length + D.length) = A ++ (M ++ D).take D.length := by
        rw [List.take_length_add_append, ← List.append_assoc, List.take_append_of_le_length (by simp)]
      have h2 : ((A ++ (M ++ (D ++ R))).drop A.length).take (A.length + M.length - A.length) = M := by
        simp
      have h3 : (A ++ (M ++ (D ++ R))).drop (A.length + D.length + (A.length + M.length - A.length)) = R := by
        rw [← List.append_assoc, ← List.append_assoc, List.drop_append_of_le_length (by simp; omega)]
        rw [List.drop_eq_nil_of_le (by simp; omega)]; rfl
      rw [h1, h2, h3]; simp
  | false =>
    obtain ⟨hm, hd⟩ := hinv rfl
    obtain ⟨M', rfl⟩ := all_some M hm
    obtain ⟨c, hc⟩ : ∃ c, D.length = c + 1 := ⟨D.length - 1, by omega⟩
    refine ⟨List.replicate (c + 1) none, by simp [hc], fun _ x hx => List.eq_of_mem_replicate hx, by simp, ?_⟩
    rw [if_neg (by simp), all_none D hd, List.length_replicate, hc, show s - i = M'.length by simp at hs; omega]
    exact upLoop_eq c s k A M' R i hi

/-- Closing a gap `G` of cells. -/
theorem shiftDown_eq (triv : Bool) (A M G R : List (Option T)) (s k i j : Nat) (hi : i = A.length) (hj : j = i + G.length)
    (hs : s = j + M.length) (hG : G ≠ []) (hinv : triv = false → (∀ c ∈ M, c.isSome = true) ∧ ∀ c ∈ G, c = none) :
    ∃ D, D.length = G.length ∧ (triv = false → ∀ c ∈ D, c = none) ∧
      shiftDown triv ⟨A ++ (G ++ (M ++ R)), s, k⟩ i j = some ⟨A ++ (M ++ (D ++ R)), s, k⟩ := by
  unfold shiftDown
  simp only
  by_cases hM : M = []
  · subst hM
    rw [if_neg (by simp at hs; omega)]
    exact ⟨G, rfl, fun h => (hinv h).2, by simp⟩
  have hMl : 0 < M.length := List.length_pos_iff.2 hM
  have hGl : 0 < G.length := List.length_pos_iff.2 hG
  rw [if_pos (by omega)]
  cases triv with
  | true =>
    refine ⟨(G ++ M).drop M.length, by simp, by simp, ?_⟩
    subst hi hj hs
    rw [if_pos rfl, memmove, if_pos (by simp; omega)]
    congr 2
    have h2 : ((A ++ (G ++ (M ++ R))).drop (A.length + G.length)).take (A.length + G.length + M.length - (A.length + G.length)) = M := by
      rw [← List.append_assoc, List.drop_append_of_le_length (by simp), List.drop_eq_nil_of_le (by simp)]; simp
    have h3 : (A ++ (G ++ (M ++ R))).drop (A.length + (A.length + G.length + M.length - (A.length + G.length))) =
        (G ++ M).drop M.length ++ R := by
      rw [show A.length + (A.length + G.length + M.length - (A.length + G.length)) = A.length + M.length by omega,
        List.drop_length_add_append, ← List.append_assoc, List.drop_append_of_le_length (by simp)]
    rw [h2, h3]; simp
  | false =>
    obtain ⟨hm, hd⟩ := hinv rfl
    obtain ⟨M', rfl⟩ := all_some M hm
    obtain ⟨c, hc⟩ : ∃ c, G.length = c + 1 := ⟨G.length - 1, by omega⟩
    refine ⟨List.replicate (c + 1) none, by simp [hc], fun _ x hx => List.eq_of_mem_replicate hx, ?_⟩
    rw [if_neg (by simp), show s - j = M'.length by simp at hs; omega]
    have := downLoop_eq c s k M' A R i j hi (by omega)
    rw [all_none G hd, hc]
    exact this

theorem popBack_rep (triv : Bool) (v : Vec T) (l : List (Option T)) (h : Rep triv v l) :
    ∃ v', popBack triv v = some v' ∧ Rep triv v' l.dropLast ∧ v'.buf.length = v.buf.length ∧ v'.lost = v.lost := by
  obtain ⟨buf, s, k⟩ := v
  obtain ⟨t, h1, h2, h3⟩ := h
  simp only at h1 h2
  unfold popBack
  rcases List.eq_nil_or_concat l with rfl | ⟨l', x, rfl⟩
  · refine ⟨⟨buf, s, k⟩, by simp [h2], ⟨t, h1, h2, h3⟩, rfl, rfl⟩
  · simp only [List.concat_eq_append] at *
    have hs : s - 1 = l'.length := by rw [h2]; simp
    have hb : buf = l' ++ x :: t := by rw [h1]; simp
    rw [if_pos (by simp only [h2]; simp)]
    cases triv with
    | true =>
      exact ⟨⟨buf, s - 1, k⟩, by simp [destroy], ⟨x :: t, by simp [hb], by simp [hs], by simp⟩, rfl, rfl⟩
    | false =>
      obtain ⟨hl, ht⟩ := h3 rfl
      obtain ⟨y, rfl⟩ := Option.isSome_iff_exists.1 (hl x (by simp))
      refine ⟨⟨l' ++ none :: t, s - 1, k⟩, ?_, ⟨none :: t, by simp, by simp [hs], ?_⟩, by simp [hb], rfl⟩
      · simp only [destroy, hs, hb, get_mid l' t (some y) _ rfl, set_mid l' t (some y) none _ rfl]
        simp [h2]
      · intro _
        exact ⟨fun c hc => hl c (by simp at hc; simp [hc]), fun c hc => by
          rcases List.mem_cons.1 hc with rfl | hc
          · rfl
          · exact ht c hc⟩

theorem popDownTo_rep (count : Nat) : ∀ (fuel : Nat) (v : Vec T) (l : List (Option T)), Rep false v l → v.sized ≤ fuel + count →
    ∃ v', popDownTo v count fuel = some v' ∧ Rep false v' (l.take count) ∧ v'.buf.length = v.buf.length ∧ v'.lost = v.lost := by
  intro fuel
  induction fuel with
  | zero =>
    intro v l h hf
    refine ⟨v, rfl, ?_, rfl, rfl⟩
    rw [List.take_of_length_le (by obtain ⟨t, h1, h2, h3⟩ := h; omega)]; exact h
  | succ fuel ih =>
    intro v l h hf
    unfold popDownTo
    by_cases hc : v.sized > count
    · rw [if_pos hc]
      obtain ⟨v', e, h', hb, hk⟩ := popBack_rep false v l h
      have hs : v'.sized = v.sized - 1 := by
        obtain ⟨t, h1, h2, h3⟩ := h
        obtain ⟨t', h1', h2', h3'⟩ := h'
        rw [h2', h2]; simp
      obtain ⟨v'', e', h'', hb', hk'⟩ := ih v' _ h' (by omega)
      refine ⟨v'', by rw [e, Option.bind_some, e'], ?_, by omega, by omega⟩
      have : l.dropLast.take count = l.take count := by
        rw [List.dropLast_eq_take, List.take_take]
        obtain ⟨t, h1, h2, h3⟩ := h
        congr 1; omega
      rw [this] at h''; exact h''
    · rw [if_neg hc]
      refine ⟨v, rfl, ?_, rfl, rfl⟩
      rw [List.take_of_length_le (by obtain ⟨t, h1, h2, h3⟩ := h; omega)]; exact h

/-- `reserve` truncates to the new capacity, never grows the contents, and leaves exactly that capacity. -/
theorem reserve_rep (triv : Bool) (v : Vec T) (l : List (Option T)) (count : Nat) (h : Rep triv v l) :
    ∃ v', reserve triv v count = some v' ∧ Rep triv v' (l.take count) ∧ v'.buf.length = count ∧
      v'.lost = if triv ∨ v.buf.length = count then v.lost else v.lost + min count l.length := by
  unfold reserve
  by_cases hne : v.buf.length ≠ count
  · rw [if_pos hne]
    -- the state after the truncation step
    have step : ∃ v1, (if triv then some { v with sized := if v.sized > count then count else v.sized } else
        popDownTo v count v.sized) = some v1 ∧ Rep triv v1 (l.take count) ∧ v1.lost = v.lost := by
      cases triv with
      | true =>
        refine ⟨_, rfl, ?_, rfl⟩
        obtain ⟨t, h1, h2, h3⟩ := h
        refine ⟨l.drop count ++ t, ?_, ?_, by simp⟩
        · simp only [h1]; rw [← List.append_assoc, List.take_append_drop]
        · simp only [h2, List.length_take]; split <;> omega
      | false =>
        obtain ⟨v1, e, h', -, hk⟩ := popDownTo_rep count v.sized v l h (by omega)
        exact ⟨v1, by simpa using e, h', hk⟩
    obtain ⟨v1, e, hr, hk⟩ := step
    rw [e, Option.bind_some]
    obtain ⟨t, h1, h2, h3⟩ := hr
    have hlen : v1.sized ≤ count := by rw [h2]; simp; omega
    have htake : v1.buf.take v1.sized = l.take count := by rw [h1, h2]; simp
    have hc : v1.sized ≤ v1.buf.length ∧ v1.sized ≤ count ∧ (triv ∨ ∀ c ∈ v1.buf.take v1.sized, c.isSome) := by
      refine ⟨by rw [h1, h2]; simp, hlen, ?_⟩
      cases triv with
      | true => left; rfl
      | false => right; rw [htake]; exact (h3 rfl).1
    rw [if_pos hc]
    refine ⟨_, rfl, ⟨List.replicate (count - v1.sized) none, by simp only [htake], h2, ?_⟩, ?_, ?_⟩
    · intro ht; exact ⟨(h3 ht).1, fun c hc => List.eq_of_mem_replicate hc⟩
    · have := congrArg List.length htake; simp at this; simp; omega
    · simp only [hk, h2, List.length_take]
      cases triv
      · simp [hne]
      · simp
  · rw [if_neg hne]
    have hc : v.buf.length = count := by omega
    refine ⟨v, rfl, ?_, hc, by simp [hc]⟩
    rw [List.take_of_length_le]; exact h
    obtain ⟨t, h1, h2, h3⟩ := h
    rw [← hc, h1]; simp

/-- `reserve` with room for everything keeps the contents. -/
theorem reserve_rep' (triv : Bool) (v : Vec T) (l : List (Option T)) (count : Nat) (h : Rep triv v l) (hc : l.length ≤ count) :
    ∃ v', reserve triv v count = some v' ∧ Rep triv v' l ∧ v'.buf.length = count := by
  obtain ⟨v', e, h', hb, -⟩ := reserve_rep triv v l count h
  rw [List.take_of_length_le hc] at h'
  exact ⟨v', e, h', hb⟩

theorem copyLoop_eq (triv : Bool) (s k : Nat) : ∀ (xs : List T) (A G R : List (Option T)) (i : Nat), i = A.length → G.length = xs.length →
    (triv = false → ∀ c ∈ G, c = none) →
    copyLoop triv ⟨A ++ (G ++ R), s, k⟩ i xs = some ⟨A ++ (xs.map some ++ R), s, k⟩ := by
  intro xs
  induction xs with
  | nil => intro A G R i hi hG _; simp at hG; subst hG; simp [copyLoop]
  | cons x xs ih =>
    intro A G R i hi hG hd
    rcases G with _ | ⟨g, G⟩
    · simp at hG
    · rw [copyLoop, List.cons_append, put_dead triv A _ g _ s k i hi (fun h => hd h g (by simp)), Option.bind_some]
      rw [show A ++ some x :: (G ++ R) = (A ++ [some x]) ++ (G ++ R) by simp,
        ih _ _ _ _ (by simp [hi]) (by simpa using hG) (fun h c hc => hd h c (by simp [hc]))]
      simp

theorem fillLoop_eq (triv fresh : Bool) (s k : Nat) (x : T) : ∀ (n : Nat) (A G R : List (Option T)) (i : Nat), i = A.length → G.length = n →
    (triv = false → ∀ c ∈ G, c = none) →
    fillLoop triv fresh ⟨A ++ (G ++ R), s, k⟩ i (.val x) n = some ⟨A ++ (List.replicate n (some x) ++ R), s, k⟩ := by
  intro n
  induction n with
  | zero => intro A G R i hi hG _; simp at hG; subst hG; simp [fillLoop]
  | succ n ih =>
    intro A G R i hi hG hd
    rcases G with _ | ⟨g, G⟩
    · simp at hG
    · rw [fillLoop, Arg.get, Option.bind_some, List.cons_append, put_dead triv A _ g _ s k i hi (fun h => hd h g (by simp)), Option.bind_some]
      rw [show A ++ some x :: (G ++ R) = (A ++ [some x]) ++ (G ++ R) by simp,
        ih _ _ _ _ (by simp [hi]) (by simpa using hG) (fun h c hc => hd h c (by simp [hc]))]
      simp [List.replicate_succ]

/-- Split a representation with at least `c` spare cells at a position. -/
theorem rep_split (triv : Bool) (v : Vec T) (l : List (Option T)) (h : Rep triv v l) (it c : Nat)
    (hc : l.length + c ≤ v.buf.length) :
    ∃ A M D R, v = ⟨A ++ (M ++ (D ++ R)), l.length, v.lost⟩ ∧ A = l.take it ∧ M = l.drop it ∧ D.length = c ∧
      (triv = false → (∀ x ∈ l, x.isSome = true) ∧ (∀ x ∈ D, x = none) ∧ ∀ x ∈ R, x = none) := by
  obtain ⟨buf, s, k⟩ := v
  obtain ⟨t, h1, h2, h3⟩ := h
  simp only at h1 h2 hc
  refine ⟨l.take it, l.drop it, t.take c, t.drop c, ?_, rfl, rfl, ?_, ?_⟩
  · simp only [h2]; rw [← List.append_assoc, List.take_append_drop, List.take_append_drop, h1]
  · rw [h1] at hc; simp at hc; simp [hc]
  · intro ht
    exact ⟨(h3 ht).1, fun x hx => (h3 ht).2 x (List.mem_of_mem_take hx), fun x hx => (h3 ht).2 x (List.mem_of_mem_drop hx)⟩

theorem insertOne_rep (triv : Bool) (v : Vec T) (l : List (Option T)) (h : Rep triv v l) (it : Nat) (hit : it ≤ l.length) (x : T) :
    ∃ v', insertOne triv v it (.val x) = some v' ∧ Rep triv v' (l.take it ++ some x :: l.drop it) ∧
      (v.sized < v.buf.length → v'.lost = v.lost) := by
  have hs : v.sized = l.length := h.choose_spec.2.1
  unfold insertOne
  rw [if_pos (by omega)]
  have hroom : ∃ v1, (if v.sized = v.buf.length then reserve triv v (v.sized + (if v.sized > 31 then 32 else v.sized + 1)) else some v) =
      some v1 ∧ Rep triv v1 l ∧ l.length + 1 ≤ v1.buf.length ∧ (v.sized < v.buf.length → v1.lost = v.lost) := by
    split
    · obtain ⟨v1, e, h1, hb⟩ := reserve_rep' triv v l (v.sized + (if v.sized > 31 then 32 else v.sized + 1)) h (by omega)
      refine ⟨v1, e, h1, ?_, by omega⟩
      rw [hb]; split <;> omega
    · refine ⟨v, rfl, h, ?_, fun _ => rfl⟩
      have := h.sized_le; omega
  obtain ⟨v1, e, h1, hb, hlost⟩ := hroom
  rw [e, Option.bind_some]
  obtain ⟨A, M, D, R, hv, rfl, rfl, hD, hinv⟩ := rep_split triv v1 l h1 it 1 hb
  rw [hv]
  obtain ⟨G, hG, hGn, -, e2⟩ := shiftUp_eq triv (l.take it) (l.drop it) D R l.length v1.lost it (by simp [hit]) (by simp; omega)
    (by intro h; simp [h] at hD) (fun ht => ⟨fun c hc => (hinv ht).1 c (List.mem_of_mem_drop hc), (hinv ht).2.1⟩)
  rw [hD] at e2 hG
  rw [e2, Option.bind_some, Arg.get, Option.bind_some]
  obtain ⟨g, rfl⟩ := List.length_eq_one_iff.1 hG
  rw [List.cons_append, put_dead triv _ _ g _ _ _ _ (by simp [hit]) (fun ht => hGn ht g (by simp))]
  refine ⟨_, rfl, ⟨R, by simp, by simp; omega, ?_⟩, hlost⟩
  intro ht
  refine ⟨?_, (hinv ht).2.2⟩
  intro c hc
  simp only [List.mem_append, List.mem_cons] at hc
  rcases hc with hc | rfl | hc
  · exact (hinv ht).1 c (List.mem_of_mem_take hc)
  · rfl
  · exact (hinv ht).1 c (List.mem_of_mem_drop hc)

theorem insertMany_rep (triv : Bool) (v : Vec T) (l : List (Option T)) (h : Rep triv v l) (it count : Nat) (hit : it ≤ l.length) (x : T) :
    ∃ v', insertMany triv v it count (.val x) = some v' ∧ Rep triv v' (l.take it ++ (List.replicate count (some x) ++ l.drop it)) := by
  have hs : v.sized = l.length := h.choose_spec.2.1
  unfold insertMany
  by_cases hc0 : count > 0
  swap
  · rw [if_neg hc0]
    have : count = 0 := by omega
    subst this
    exact ⟨v, rfl, by simpa using h⟩
  rw [if_pos hc0, if_pos (by omega)]
  have hroom : ∃ v1, (if v.sized + count > v.buf.length then reserve triv v (v.sized + count) else some v) =
      some v1 ∧ Rep triv v1 l ∧ l.length + count ≤ v1.buf.length := by
    split
    · obtain ⟨v1, e, h1, hb⟩ := reserve_rep' triv v l (v.sized + count) h (by omega)
      exact ⟨v1, e, h1, by omega⟩
    · exact ⟨v, rfl, h, by omega⟩
  obtain ⟨v1, e, h1, hb⟩ := hroom
  rw [e, Option.bind_some]
  obtain ⟨A, M, D, R, hv, rfl, rfl, hD, hinv⟩ := rep_split triv v1 l h1 it count hb
  rw [hv]
  obtain ⟨G, hG, hGn, -, e2⟩ := shiftUp_eq triv (l.take it) (l.drop it) D R l.length v1.lost it (by simp [hit]) (by simp; omega)
    (by intro h; simp [h] at hD; omega) (fun ht => ⟨fun c hc => (hinv ht).1 c (List.mem_of_mem_drop hc), (hinv ht).2.1⟩)
  rw [hD] at e2 hG
  rw [e2, Option.bind_some]
  simp only
  rw [fillLoop_eq triv _ _ _ x count _ G _ it (by simp [hit]) hG hGn]
  refine ⟨_, rfl, ⟨R, by simp, by simp; omega, ?_⟩⟩
  intro ht
  refine ⟨?_, (hinv ht).2.2⟩
  intro c hc
  simp only [List.mem_append, List.mem_replicate] at hc
  rcases hc with hc | ⟨_, rfl⟩ | hc
  · exact (hinv ht).1 c (List.mem_of_mem_take hc)
  · rfl
  · exact (hinv ht).1 c (List.mem_of_mem_drop hc)

theorem insertRange_rep (triv : Bool) (v : Vec T) (l : List (Option T)) (h : Rep triv v l) (it : Nat) (hit : it ≤ l.length) (xs : List T) :
    ∃ v', insertRange triv v it xs = some v' ∧ Rep triv v' (l.take it ++ (xs.map some ++ l.drop it)) := by
  have hs : v.sized = l.length := h.choose_spec.2.1
  unfold insertRange
  by_cases hc0 : xs.length > 0
  swap
  · rw [if_neg hc0]
    have : xs = [] := List.length_eq_zero_iff.1 (by omega)
    subst this
    exact ⟨v, rfl, by simpa using h⟩
  rw [if_pos hc0, if_pos (by omega)]
  have hroom : ∃ v1, (if v.sized + xs.length > v.buf.length then
        reserve triv v (if v.sized + xs.length - v.buf.length > 32 then v.sized + xs.length else v.buf.length + 32)
       else some v) = some v1 ∧ Rep triv v1 l ∧ l.length + xs.length ≤ v1.buf.length := by
    have := h.sized_le
    split
    · obtain ⟨v1, e, h1, hb⟩ := reserve_rep' triv v l
        (if v.sized + xs.length - v.buf.length > 32 then v.sized + xs.length else v.buf.length + 32) h (by split <;> omega)
      refine ⟨v1, e, h1, ?_⟩
      rw [hb]; split <;> omega
    · exact ⟨v, rfl, h, by omega⟩
  obtain ⟨v1, e, h1, hb⟩ := hroom
  rw [e, Option.bind_some]
  obtain ⟨A, M, D, R, hv, rfl, rfl, hD, hinv⟩ := rep_split triv v1 l h1 it xs.length hb
  rw [hv]
  obtain ⟨G, hG, hGn, -, e2⟩ := shiftUp_eq triv (l.take it) (l.drop it) D R l.length v1.lost it (by simp [hit]) (by simp; omega)
    (by intro h; simp [h] at hD; simp [← hD] at hc0) (fun ht => ⟨fun c hc => (hinv ht).1 c (List.mem_of_mem_drop hc), (hinv ht).2.1⟩)
  rw [hD] at e2 hG
  rw [e2, Option.bind_some]
  simp only
  rw [copyLoop_eq triv _ _ xs _ G _ it (by simp [hit]) hG hGn]
  refine ⟨_, rfl, ⟨R, by simp, by simp; omega, ?_⟩⟩
  intro ht
  refine ⟨?_, (hinv ht).2.2⟩
  intro c hc
  simp only [List.mem_append, List.mem_map] at hc
  rcases hc with hc | ⟨y, _, rfl⟩ | hc
  · exact (hinv ht).1 c (List.mem_of_mem_take hc)
  · rfl
  · exact (hinv ht).1 c (List.mem_of_mem_drop hc)

theorem destroyRange_eq (triv : Bool) (s k : Nat) : ∀ (G A R : List (Option T)) (i : Nat), i = A.length →
    (triv = false → ∀ c ∈ G, c.isSome = true) →
    ∃ G', G'.length = G.length ∧ (triv = false → ∀ c ∈ G', c = none) ∧
      destroyRange triv ⟨A ++ (G ++ R), s, k⟩ i G.length = some ⟨A ++ (G' ++ R), s, k⟩ := by
  intro G
  induction G with
  | nil => intro A R i _ _; exact ⟨[], rfl, by simp, rfl⟩
  | cons g G ih =>
    intro A R i hi hg
    cases triv with
    | true =>
      obtain ⟨G', h1, h2, h3⟩ := ih (A ++ [g]) R (i + 1) (by simp [hi]) (by simp)
      refine ⟨g :: G', by simp [h1], by simp, ?_⟩
      simp only [List.length_cons, destroyRange, destroy, if_true, Option.bind_some]
      rw [show A ++ (g :: G ++ R) = (A ++ [g]) ++ (G ++ R) by simp, h3]; simp
    | false =>
      obtain ⟨y, rfl⟩ := Option.isSome_iff_exists.1 (hg rfl g (by simp))
      obtain ⟨G', h1, h2, h3⟩ := ih (A ++ [none]) R (i + 1) (by simp [hi]) (fun _ c hc => hg rfl c (by simp [hc]))
      refine ⟨none :: G', by simp [h1], fun _ c hc => ?_, ?_⟩
      · rcases List.mem_cons.1 hc with rfl | hc
        · rfl
        · exact h2 rfl c hc
      · rw [List.length_cons, destroyRange]
        have : destroy false ⟨A ++ (some y :: G ++ R), s, k⟩ i = some ⟨A ++ none :: (G ++ R), s, k⟩ := by
          simp [destroy, hi]
        rw [this, Option.bind_some, show A ++ none :: (G ++ R) = (A ++ [none]) ++ (G ++ R) by simp, h3]; simp

theorem eraseRange_rep (triv : Bool) (v : Vec T) (l : List (Option T)) (h : Rep triv v l) (first last : Nat) (h1 : first < last)
    (h2 : last ≤ l.length) :
    ∃ v', eraseRange triv v first last = some v' ∧ Rep triv v' (l.take first ++ l.drop last) ∧ v'.lost = v.lost := by
  obtain ⟨buf, s, k⟩ := v
  obtain ⟨t, hb, hs, hinv⟩ := h
  simp only at hb hs
  unfold eraseRange
  simp only
  rw [if_pos (by omega), if_pos (by omega), if_pos (by omega)]
  have hsplit : buf = l.take first ++ ((l.drop first).take (last - first) ++ (l.drop last ++ t)) := by
    rw [hb]
    have : l.drop last = (l.drop first).drop (last - first) := by rw [List.drop_drop]; congr 1; omega
    rw [this, ← List.append_assoc, ← List.append_assoc, List.append_assoc (l.take first), List.take_append_drop, List.take_append_drop]
  have hgl : ((l.drop first).take (last - first)).length = last - first := by simp; omega
  obtain ⟨G', hG, hGn, e⟩ := destroyRange_eq triv s k ((l.drop first).take (last - first)) (l.take first) (l.drop last ++ t) first
    (by simp; omega) (fun ht c hc => (hinv ht).1 c (List.mem_of_mem_drop (List.mem_of_mem_take hc)))
  rw [hgl] at e hG
  rw [hsplit, e, Option.bind_some]
  obtain ⟨D, hD, hDn, e2⟩ := shiftDown_eq triv (l.take first) (l.drop last) G' t s k first last (by simp; omega) (by omega)
    (by simp; omega) (by intro h; simp [h] at hG; omega)
    (fun ht => ⟨fun c hc => (hinv ht).1 c (List.mem_of_mem_drop hc), hGn ht⟩)
  rw [e2]
  refine ⟨_, rfl, ⟨D ++ t, by simp, by simp; omega, ?_⟩, rfl⟩
  intro ht
  constructor
  · intro c hc
    rcases List.mem_append.1 hc with hc | hc
    · exact (hinv ht).1 c (List.mem_of_mem_take hc)
    · exact (hinv ht).1 c (List.mem_of_mem_drop hc)
  · intro c hc
    rcases List.mem_append.1 hc with hc | hc
    · exact hDn ht c hc
    · exact (hinv ht).2 c hc

theorem eraseAt_eq_range (triv : Bool) (v : Vec T) (it : Nat) : eraseAt triv v it = eraseRange triv v it (it + 1) := by
  unfold eraseAt eraseRange
  by_cases h : it < v.sized
  · rw [if_pos h, if_pos h, if_pos (by omega), if_pos (by omega)]
    rw [show it + 1 - it = 1 by omega]
    simp only [destroyRange]
    cases destroy triv v it <;> rfl
  · rw [if_neg h, if_neg h]

theorem eraseAt_rep (triv : Bool) (v : Vec T) (l : List (Option T)) (h : Rep triv v l) (it : Nat) (h1 : it < l.length) :
    ∃ v', eraseAt triv v it = some v' ∧ Rep triv v' (l.eraseIdx it) ∧ v'.lost = v.lost := by
  rw [eraseAt_eq_range, List.eraseIdx_eq_take_drop_succ]
  exact eraseRange_rep triv v l h it (it + 1) (by omega) (by omega)

theorem readCell_rep (triv : Bool) (v : Vec T) (l : List (Option T)) (h : Rep triv v l) (i : Nat) (hi : i < l.length) :
    readCell triv v.buf i = some l[i] := by
  obtain ⟨t, hb, hs, hinv⟩ := h
  unfold readCell
  have : v.buf[i]? = some l[i] := by rw [hb, List.getElem?_append_left hi]; simp
  rw [this]
  cases hc : l[i] with
  | some x => rfl
  | none =>
    cases triv with
    | true => rfl
    | false =>
      have := (hinv rfl).1 l[i] (List.getElem_mem _)
      rw [hc] at this; simp at this

theorem findLoop_eq [DecidableEq T] (triv : Bool) (v : Vec T) (l : List (Option T)) (h : Rep triv v l) (x : T) (i : Nat) (hi : i ≤ l.length) :
    findLoop triv v x i = some (i + (l.drop i).idxOf (some x)) := by
  have hs : v.sized = l.length := h.choose_spec.2.1
  fun_induction findLoop triv v x i with
  | case1 i hlt ih =>
    have hil : i < l.length := by omega
    rw [readCell_rep triv v l h i hil, Option.bind_some, List.drop_eq_getElem_cons hil]
    split
    · rename_i he; rw [he]; simp
    · rename_i he
      rw [ih (by omega), List.idxOf_cons_ne _ he]; congr 1; omega
  | case2 i hlt => rw [List.drop_eq_nil_of_le (by omega)]; simp

theorem eraseValue_rep [DecidableEq T] (triv : Bool) (v : Vec T) (l : List (Option T)) (h : Rep triv v l) (x : T) :
    ∃ v', eraseValue triv v x = some (v', decide (some x ∈ l)) ∧ Rep triv v' (l.erase (some x)) := by
  have hs : v.sized = l.length := h.choose_spec.2.1
  unfold eraseValue
  rw [findLoop_eq triv v l h x 0 (by omega), Option.bind_some]
  simp only [List.drop_zero, Nat.zero_add]
  by_cases hm : some x ∈ l
  · have hlt := List.idxOf_lt_length_of_mem hm
    rw [if_pos (by omega)]
    obtain ⟨v', e, hr, -⟩ := eraseAt_rep triv v l h _ hlt
    refine ⟨v', by rw [e]; simp [hm], ?_⟩
    rw [List.erase_eq_eraseIdx_of_idxOf rfl]; exact hr
  · have := List.idxOf_eq_length hm
    rw [if_neg (by omega)]
    exact ⟨v, by simp [hm], by rw [List.erase_of_not_mem hm]; exact h⟩

theorem replaceLoop_rep [DecidableEq T] (triv : Bool) (old new : T) : ∀ (M A : List (Option T)) (v : Vec T) (i : Nat), i = A.length →
    Rep triv v (A ++ M) →
    ∃ v', replaceLoop triv v old new i M.length = some v' ∧ Rep triv v' (A ++ M.map fun c => if c = some old then some new else c) := by
  intro M
  induction M with
  | nil => intro A v i _ h; exact ⟨v, rfl, by simpa using h⟩
  | cons m M ih =>
    intro A v i hi h
    have hr := readCell_rep triv v _ h i (by simp [hi])
    rw [List.length_cons, replaceLoop, hr, Option.bind_some]
    have hm : (A ++ m :: M)[i]'(by simp [hi]) = m := by
      have := get_mid A M m i hi
      rw [List.getElem?_eq_getElem (by simp [hi])] at this
      exact Option.some.inj this
    rw [hm]
    have hstep : Rep triv (if m = some old then { v with buf := v.buf.set i (some new) } else v)
        ((A ++ [if m = some old then some new else m]) ++ M) := by
      obtain ⟨t, hb, hs, hinv⟩ := h
      by_cases he : m = some old
      · rw [if_pos he, if_pos he]
        refine ⟨t, ?_, by simp [hs], fun ht => ⟨fun c hc => ?_, (hinv ht).2⟩⟩
        · simp only [hb]
          rw [show A ++ m :: M ++ t = A ++ m :: (M ++ t) by simp, set_mid _ _ _ _ _ hi]; simp
        · simp only [List.append_assoc, List.mem_append, List.mem_cons, List.not_mem_nil, or_false] at hc
          rcases hc with hc | rfl | hc
          · exact (hinv ht).1 c (by simp [hc])
          · rfl
          · exact (hinv ht).1 c (by simp [hc])
      · rw [if_neg he, if_neg he]
        exact ⟨t, by simp [hb], by simp [hs], fun ht => ⟨fun c hc => (hinv ht).1 c (by simpa using hc), (hinv ht).2⟩⟩
    obtain ⟨v', e, hv'⟩ := ih (A ++ [if m = some old then some new else m]) _ (i + 1) (by simp [hi]) hstep
    exact ⟨v', e, by simpa using hv'⟩

theorem replace_rep [DecidableEq T] (triv : Bool) (v : Vec T) (l : List (Option T)) (h : Rep triv v l) (old new : T) :
    ∃ v', replace triv v old new = some v' ∧ Rep triv v' (l.map fun c => if c = some old then some new else c) := by
  have hs : v.sized = l.length := h.choose_spec.2.1
  unfold replace
  rw [hs]
  simpa using replaceLoop_rep triv old new l [] v 0 rfl (by simpa using h)

theorem fill_tail (triv fresh : Bool) (v : Vec T) (l : List (Option T)) (h : Rep triv v l) (x : T) (n : Nat) (hn : l.length + n = v.buf.length) :
    ∃ v', fillLoop triv fresh v l.length (.val x) n = some v' ∧ v'.buf = l ++ List.replicate n (some x) ∧ v'.lost = v.lost := by
  obtain ⟨buf, s, k⟩ := v
  obtain ⟨t, hb, hs, hinv⟩ := h
  simp only at hb hs hn
  have ht : t.length = n := by rw [hb] at hn; simp at hn; exact hn.symm
  have := fillLoop_eq triv fresh s k x n l t [] l.length rfl ht (fun h => (hinv h).2)
  rw [hb]
  rw [List.append_nil] at this
  exact ⟨_, this, by simp, rfl⟩

theorem resizeWith_rep (triv : Bool) (v : Vec T) (l : List (Option T)) (h : Rep triv v l) (count : Nat) (x : T) :
    ∃ v', resizeWith triv v count (.val x) = some v' ∧ Rep triv v' (l.take count ++ List.replicate (count - l.length) (some x)) := by
  obtain ⟨v1, e, h1, hb, -⟩ := reserve_rep triv v l count h
  unfold resizeWith
  rw [e, Option.bind_some]
  have hs1 : v1.sized = (l.take count).length := h1.choose_spec.2.1
  have hc : count - v1.sized = count - l.length := by rw [hs1]; simp; omega
  obtain ⟨v2, e2, hb2, hk⟩ := fill_tail triv (v.buf.length ≠ count) v1 _ h1 x (count - l.length) (by rw [hb]; simp; omega)
  rw [hc, hs1, e2]
  refine ⟨_, rfl, ⟨[], by simp [hb2], by simp, ?_⟩⟩
  intro ht
  refine ⟨fun c hc => ?_, by simp⟩
  rcases List.mem_append.1 hc with hc | hc
  · obtain ⟨t, -, -, hinv⟩ := h1; exact (hinv ht).1 c hc
  · rw [List.eq_of_mem_replicate hc]; rfl

/-- `resize(count)`: for class types the new elements are default constructed; otherwise they are indeterminate (`none` cells after
growth; a buffer cell is never read as a defined value by the theorem). -/
theorem resize_rep (triv : Bool) (dflt : T) (v : Vec T) (l : List (Option T)) (h : Rep triv v l) (count : Nat) :
    ∃ v' new, resize triv dflt v count = some v' ∧ Rep triv v' (l.take count ++ new) ∧ new.length = count - l.length ∧
      (triv = false → ∀ c ∈ new, c = some dflt) := by
  cases triv with
  | false =>
    obtain ⟨v', e, h'⟩ := resizeWith_rep false v l h count dflt
    refine ⟨v', List.replicate (count - l.length) (some dflt), ?_, h', by simp, fun _ c hc => List.eq_of_mem_replicate hc⟩
    rw [← e]
    unfold resize resizeWith
    cases hr : reserve false v count with
    | none => rfl
    | some v1 =>
      simp only [Option.bind_some]
      have : ∀ n (w : Vec T) i b b', fillLoop false b w i (.val dflt) n = fillLoop false b' w i (.val dflt) n := by
        intro n
        induction n with
        | zero => intros; rfl
        | succ n ih => intro w i b b'; simp only [fillLoop, Arg.get]; congr 1; funext x; congr 1; funext w'; exact ih _ _ _ _
      rw [if_neg (by simp), this _ _ _ false]
  | true =>
    obtain ⟨v1, e, h1, hb, -⟩ := reserve_rep true v l count h
    obtain ⟨t, hb1, hs1, -⟩ := h1
    refine ⟨⟨v1.buf, v1.buf.length, v1.lost⟩, t, by simp [resize, e], ⟨[], by simp [hb1], by simp [hb1], by simp⟩, ?_, by simp⟩
    have := congrArg List.length hb1
    simp [hb] at this
    omega

theorem pushAll_rep (triv : Bool) : ∀ (xs : List T) (v : Vec T) (l : List (Option T)), Rep triv v l →
    ∃ v', pushAll triv v xs = some v' ∧ Rep triv v' (l ++ xs.map some) := by
  intro xs
  induction xs with
  | nil => intro v l h; exact ⟨v, rfl, by simpa using h⟩
  | cons x xs ih =>
    intro v l h
    have hs : v.sized = l.length := h.choose_spec.2.1
    obtain ⟨v1, e, h1, -⟩ := insertOne_rep triv v l h v.sized (by omega) x
    rw [hs] at h1
    obtain ⟨v2, e2, h2⟩ := ih v1 _ h1
    exact ⟨v2, by rw [pushAll, pushBack, e, Option.bind_some, e2], by simpa using h2⟩

theorem assign_rep (triv : Bool) (dflt : T) (v : Vec T) (l : List (Option T)) (h : Rep triv v l) (xs : List T) :
    ∃ v', assign triv dflt v xs = some v' ∧ Rep triv v' (xs.map some) := by
  unfold assign
  cases triv with
  | true =>
    obtain ⟨v1, e, h1, hb, -⟩ := reserve_rep true v l xs.length h
    obtain ⟨buf, s, k⟩ := v1
    have := copyLoop_eq true buf.length k xs [] buf [] 0 rfl hb (by simp)
    refine ⟨⟨xs.map some, buf.length, k⟩, ?_, ?_⟩
    · simp only [resize, e, Option.bind_some, if_true]
      simpa using this
    · exact ⟨[], by simp, by simpa using hb, by simp⟩
  | false =>
    obtain ⟨v1, e, h1, hb, -⟩ := reserve_rep false v l xs.length h
    obtain ⟨v2, e2, h2, hb2, -⟩ := reserve_rep false v1 _ 0 h1
    simp only [List.take_zero] at h2
    obtain ⟨v3, e3, h3⟩ := pushAll_rep false xs v2 [] h2
    refine ⟨v3, ?_, by simpa using h3⟩
    rw [if_neg (by simp), e, Option.bind_some, clear, e2, Option.bind_some, e3]

end Verif.FVec
