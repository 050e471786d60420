import Verif.TreeLemmas

/-! Helper lemmas: the operations of the `fm::tree` model on its ordered contents. -/

namespace Verif.FTree

variable {K V : Type}

theorem toList_length (t : Tree K V) : t.toList.length = t.count := by
  induction t with
  | nil => rfl
  | node l k v w r ihl ihr => simp [Tree.toList, Tree.count, ihl, ihr]; omega

theorem clearLoop_spec : ∀ (n : Nat) (t : Tree K V) (fs : List (Frame K V)) (s : Int), t ≠ .nil →
    2 * t.count + 2 * ctxCount fs ≤ n + fs.length →
    clearLoop n t fs s = some (s - (t.count + ctxCount fs : Nat)) := by
  intro n
  induction n with
  | zero =>
    intro t fs s ht hn
    exfalso
    have hlen : ∀ fs : List (Frame K V), fs.length ≤ ctxCount fs := by
      intro fs
      induction fs with
      | nil => simp [ctxCount]
      | cons f fs ih => cases f <;> simp [ctxCount] <;> omega
    have := hlen fs
    cases t with
    | nil => exact ht rfl
    | node => simp [Tree.count] at hn; omega
  | succ n ih =>
    intro t fs s ht hn
    rcases t with _ | ⟨l, k, v, w, r⟩
    · exact absurd rfl ht
    rcases l with _ | ⟨ll, lk, lv, lw, lr⟩
    · rcases r with _ | ⟨rl, rk, rv, rw, rr⟩
      · cases fs with
        | nil => simp [clearLoop, Tree.count, ctxCount]
        | cons f fs =>
          cases f with
          | left k' v' w' r' =>
            simp only [clearLoop, Frame.unlink]
            rw [ih _ _ _ (by simp)]
            · simp only [Tree.count, ctxCount]; congr 1; push_cast; ring_nf
            · simp only [Tree.count, ctxCount, List.length_cons] at hn ⊢; omega
          | right l' k' v' w' =>
            simp only [clearLoop, Frame.unlink]
            rw [ih _ _ _ (by simp)]
            · simp only [Tree.count, ctxCount]; congr 1; push_cast; ring_nf
            · simp only [Tree.count, ctxCount, List.length_cons] at hn ⊢; omega
      · simp only [clearLoop]
        rw [ih _ _ _ (by simp)]
        · simp only [Tree.count, ctxCount]; congr 1; push_cast; ring_nf
        · simp only [Tree.count, ctxCount, List.length_cons] at hn ⊢; omega
    · simp only [clearLoop]
      rw [ih _ _ _ (by simp)]
      · simp only [Tree.count, ctxCount]; congr 1; push_cast; ring_nf
      · simp only [Tree.count, ctxCount, List.length_cons] at hn ⊢; omega

theorem clear_spec (m : Map K V) (h : m.sized = m.t.count) : m.clear = some ⟨.nil, 0⟩ := by
  rcases m with ⟨t, s⟩
  simp only at h
  rcases t with _ | ⟨l, k, v, w, r⟩
  · simp [Map.clear, h, Tree.count]
  · simp only [Map.clear]
    rw [clearLoop_spec _ _ _ _ (by simp) (by simp [ctxCount])]
    simp [h, ctxCount]

variable [LinearOrder K]

/-- Keys in strictly increasing order. -/
def Sorted (l : List (K × V)) : Prop := (l.map Prod.fst).Pairwise (· < ·)

theorem descend_plug (key : K) (t : Tree K V) : ∀ fs : List (Frame K V),
    plug (descend key t fs).1 (descend key t fs).2 = plug t fs := by
  induction t with
  | nil => intro fs; rfl
  | node l k v w r ihl ihr =>
    intro fs
    simp only [descend]
    split
    · rw [ihl]; simp [plug, Frame.fill]
    · split
      · rfl
      · rw [ihr]; simp [plug, Frame.fill]

theorem descend_bal (key : K) (t : Tree K V) : ∀ fs : List (Frame K V), t.Bal → CtxBal fs t.height →
    (descend key t fs).1.Bal ∧ CtxBal (descend key t fs).2 (descend key t fs).1.height := by
  induction t with
  | nil => intro fs h1 h2; exact ⟨h1, h2⟩
  | node l k v w r ihl ihr =>
    intro fs h1 h2
    have h1' := h1
    simp only [Tree.Bal] at h1
    simp only [descend]
    split
    · apply ihl _ h1.1
      simp only [CtxBal]; exact ⟨h1.2.1, h1.2.2.1, h1.2.2.2.1, h1.2.2.2.2, h2⟩
    · split
      · exact ⟨h1', h2⟩
      · apply ihr _ h1.2.1
        simp only [CtxBal]; exact ⟨h1.1, h1.2.2.1, h1.2.2.2.1, h1.2.2.2.2, h2⟩

theorem descend_key (key : K) (t : Tree K V) : ∀ fs : List (Frame K V),
    ∀ l k v w r, (descend key t fs).1 = .node l k v w r → key = k := by
  induction t with
  | nil => intro fs l k v w r h; simp [descend] at h
  | node l k v w r ihl ihr =>
    intro fs l' k' v' w' r' h
    simp only [descend] at h
    split at h
    · exact ihl _ _ _ _ _ _ h
    · split at h
      · simp at h; grind
      · exact ihr _ _ _ _ _ _ h

theorem descend_side (key : K) (t : Tree K V) : ∀ fs : List (Frame K V),
    Sorted t.toList → (∀ e ∈ ctxL fs, e.1 < key) → (∀ e ∈ ctxR fs, key < e.1) →
    (∀ e ∈ ctxL (descend key t fs).2, e.1 < key) ∧ (∀ e ∈ ctxR (descend key t fs).2, key < e.1) := by
  induction t with
  | nil => intro fs _ h1 h2; exact ⟨h1, h2⟩
  | node l k v w r ihl ihr =>
    intro fs hs h1 h2
    simp only [Sorted, Tree.toList, List.map_append, List.map_cons, List.pairwise_append,
      List.pairwise_cons] at hs
    simp only [descend]
    split
    · rename_i hk
      apply ihl _ hs.1
      · simpa [ctxL] using h1
      · intro e he
        simp only [ctxR, List.cons_append, List.mem_cons, List.mem_append] at he
        rcases he with rfl | he | he
        · exact hk
        · exact lt_trans hk (hs.2.1.1 _ (List.mem_map_of_mem he))
        · exact h2 e he
    · split
      · exact ⟨h1, h2⟩
      · rename_i hk hk2
        have hk3 : k < key := lt_of_le_of_ne (not_lt.mp hk) (Ne.symm hk2)
        apply ihr _ hs.2.1.2
        · intro e he
          simp only [ctxL, List.mem_append, List.mem_singleton] at he
          rcases he with he | he | rfl
          · exact h1 e he
          · exact lt_trans (hs.2.2 _ (List.mem_map_of_mem he) k (by simp)) hk3
          · exact hk3
        · simpa [ctxR] using h2

/-- What `insert`/`find`/`erase` know after walking down to a key. -/
theorem descend_all (key : K) (t : Tree K V) (hb : t.Bal) (hs : Sorted t.toList) :
    ∃ t' fs, descend key t [] = (t', fs) ∧ t'.Bal ∧ CtxBal fs t'.height ∧
      t.toList = ctxL fs ++ t'.toList ++ ctxR fs ∧
      (∀ e ∈ ctxL fs, e.1 < key) ∧ (∀ e ∈ ctxR fs, key < e.1) ∧ (∀ l k v w r, t' = .node l k v w r → key = k) := by
  refine ⟨_, _, rfl, ?_⟩
  obtain ⟨h1, h2⟩ := descend_bal key t [] hb (by simp [CtxBal])
  obtain ⟨h3, h4⟩ := descend_side key t [] hs (by simp [ctxL]) (by simp [ctxR])
  refine ⟨h1, h2, ?_, h3, h4, ?_⟩
  · rw [← toList_plug, descend_plug]; rfl
  · exact descend_key key t []

/-- The invariant of a reachable map. -/
structure Inv (m : Map K V) : Prop where
  bal : m.t.Bal
  sorted : Sorted m.t.toList
  sized : m.sized = m.t.toList.length

theorem inv_empty : Inv (Map.empty : Map K V) := by
  constructor <;> simp [Map.empty, Tree.Bal, Sorted, Tree.toList]

theorem sorted_mid {L R : List (K × V)} {e : K × V} :
    Sorted (L ++ e :: R) ↔ Sorted L ∧ Sorted R ∧ (∀ x ∈ L, x.1 < e.1) ∧ (∀ x ∈ R, e.1 < x.1) ∧
      (∀ x ∈ L, ∀ y ∈ R, x.1 < y.1) := by
  simp only [Sorted, List.pairwise_map, List.pairwise_append, List.pairwise_cons, List.mem_cons]
  constructor
  · rintro ⟨h1, ⟨h2, h3⟩, h4⟩
    exact ⟨h1, h3, fun x hx => h4 x hx e (Or.inl rfl), h2, fun x hx y hy => h4 x hx y (Or.inr hy)⟩
  · rintro ⟨h1, h2, h3, h4, h5⟩
    refine ⟨h1, ⟨h4, h2⟩, ?_⟩
    rintro x hx y (rfl | hy)
    · exact h3 x hx
    · exact h5 x hx y hy

theorem sorted_append {L R : List (K × V)} :
    Sorted (L ++ R) ↔ Sorted L ∧ Sorted R ∧ (∀ x ∈ L, ∀ y ∈ R, x.1 < y.1) := by
  simp only [Sorted, List.pairwise_map, List.pairwise_append]

theorem find_mem (key : K) (m : Map K V) (hi : Inv m) (e : K × V) :
    find key m.t = some e ↔ e ∈ m.t.toList ∧ e.1 = key := by
  obtain ⟨t', fs, hd, hb, hc, hl, h1, h2, h3⟩ := descend_all key m.t hi.bal hi.sorted
  simp only [find, hd]
  rcases t' with _ | ⟨l, k, v, w, r⟩
  · simp only [reduceCtorEq, false_iff, hl, Tree.toList, List.append_nil]
    rintro ⟨he, rfl⟩
    rcases List.mem_append.mp he with he | he
    · exact lt_irrefl _ (h1 e he)
    · exact lt_irrefl _ (h2 e he)
  · have hk := h3 _ _ _ _ _ rfl
    subst hk
    have hs := hi.sorted
    have hl' : m.t.toList = (ctxL fs ++ l.toList) ++ (key, v) :: (r.toList ++ ctxR fs) := by
      rw [hl]; simp [Tree.toList]
    rw [hl', sorted_mid] at hs
    simp only [Option.some.injEq]
    rw [hl']
    constructor
    · rintro rfl; simp
    · rintro ⟨he, rfl⟩
      rcases List.mem_append.mp he with he | he
      · exact absurd (hs.2.2.1 e he) (lt_irrefl _)
      · rcases List.mem_cons.mp he with he | he
        · exact he.symm
        · exact absurd (hs.2.2.2.1 e he) (lt_irrefl _)

theorem find_none (key : K) (m : Map K V) (hi : Inv m) :
    find key m.t = none ↔ ∀ e ∈ m.t.toList, e.1 ≠ key := by
  constructor
  · intro h e he hk
    have := (find_mem key m hi e).mpr ⟨he, hk⟩
    simp [h] at this
  · intro h
    by_contra hne
    obtain ⟨e, he⟩ := Option.ne_none_iff_exists'.mp hne
    have := (find_mem key m hi e).mp he
    exact h e this.1 this.2

omit [LinearOrder K] in
theorem bal_setData (l : Tree K V) (k : K) (v v' : V) (w : Int) (r : Tree K V) (h : (Tree.node l k v w r).Bal) :
    (Tree.node l k v' w r).Bal := by simpa [Tree.Bal] using h

/-- Storing data in the node found for a key. -/
theorem overwrite_spec (m : Map K V) (key : K) (data : V) (hi : Inv m) (l : Tree K V) (k : K) (v : V) (w : Int)
    (r : Tree K V) (fs : List (Frame K V)) (hd : descend key m.t [] = (.node l k v w r, fs)) :
    Inv ⟨plug (.node l k data w r) fs, m.sized⟩ ∧
    ∀ e, e ∈ (plug (.node l k data w r) fs).toList ↔ e = (key, data) ∨ (e.1 ≠ key ∧ e ∈ m.t.toList) := by
  obtain ⟨t', fs', hd', hb, hc, hl, h1, h2, h3⟩ := descend_all key m.t hi.bal hi.sorted
  rw [hd] at hd'
  obtain ⟨rfl, rfl⟩ := Prod.mk.inj hd'
  have hk := h3 _ _ _ _ _ rfl
  subst hk
  have hs := hi.sorted
  have hl' : m.t.toList = (ctxL fs ++ l.toList) ++ (key, v) :: (r.toList ++ ctxR fs) := by
    rw [hl]; simp [Tree.toList]
  have hn : (plug (.node l key data w r) fs).toList = (ctxL fs ++ l.toList) ++ (key, data) :: (r.toList ++ ctxR fs) := by
    rw [toList_plug]; simp [Tree.toList]
  rw [hl', sorted_mid] at hs
  refine ⟨⟨?_, ?_, ?_⟩, ?_⟩
  · exact bal_plug _ _ (bal_setData l key v data w r hb) (by simpa [Tree.height] using hc)
  · rw [hn, sorted_mid]; exact hs
  · simp only; rw [hi.sized, hn, hl']; simp
  · intro e
    rw [hn, hl']
    simp only [List.mem_append (s := ctxL fs ++ l.toList), List.mem_cons (b := (key, data)), List.mem_cons (b := (key, v))]
    constructor
    · rintro (h | h | h)
      · exact Or.inr ⟨ne_of_lt (hs.2.2.1 e h), Or.inl h⟩
      · exact Or.inl h
      · exact Or.inr ⟨(ne_of_lt (hs.2.2.2.1 e h)).symm, Or.inr (Or.inr h)⟩
    · rintro (h | ⟨hne, h | h | h⟩)
      · exact Or.inr (Or.inl h)
      · exact Or.inl h
      · subst h; exact absurd rfl hne
      · exact Or.inr (Or.inr h)

theorem insert_spec (m : Map K V) (key : K) (data : V) (hi : Inv m) :
    ∃ m', m.insert key data = some m' ∧ Inv m' ∧
      ∀ e, e ∈ m'.t.toList ↔ e = (key, data) ∨ (e.1 ≠ key ∧ e ∈ m.t.toList) := by
  obtain ⟨t', fs, hd, hb, hc, hl, h1, h2, h3⟩ := descend_all key m.t hi.bal hi.sorted
  rcases t' with _ | ⟨l, k, v, w, r⟩
  · have hs := hi.sorted
    have key2 : ∀ t'' : Tree K V, t''.Bal → t''.toList = ctxL fs ++ (key, data) :: ctxR fs →
        Inv (⟨t'', m.sized + 1⟩ : Map K V) ∧
        ∀ e, e ∈ t''.toList ↔ e = (key, data) ∨ (e.1 ≠ key ∧ e ∈ m.t.toList) := by
      intro t'' hb' ht''
      rw [hl] at hs
      simp only [Tree.toList, List.append_nil, sorted_append] at hs
      refine ⟨⟨hb', ?_, ?_⟩, ?_⟩
      · simp only; rw [ht'', sorted_mid]; exact ⟨hs.1, hs.2.1, h1, h2, hs.2.2⟩
      · simp only; rw [hi.sized, ht'', hl]; simp [Tree.toList]; omega
      · intro e
        rw [ht'', hl]
        simp only [Tree.toList, List.append_nil, List.mem_append, List.mem_cons]
        constructor
        · rintro (h | h | h)
          · exact Or.inr ⟨ne_of_lt (h1 e h), Or.inl h⟩
          · exact Or.inl h
          · exact Or.inr ⟨(ne_of_lt (h2 e h)).symm, Or.inr h⟩
        · rintro (h | ⟨-, h | h⟩)
          · exact Or.inr (Or.inl h)
          · exact Or.inl h
          · exact Or.inr (Or.inr h)
    cases fs with
    | nil =>
      refine ⟨⟨.node .nil key data 0 .nil, m.sized + 1⟩, by simp [Map.insert, hd], ?_⟩
      apply key2
      · simp [Tree.Bal, Tree.height]
      · simp [Tree.toList, ctxL, ctxR]
    | cons f fs =>
      have hx : ∃ t'', climbInsert (f.fillGrow (.node .nil key data 0 .nil)) fs = some t'' ∧ t''.Bal ∧
          t''.toList = ctxL (f :: fs) ++ (key, data) :: ctxR (f :: fs) := by
        have hleaf : (Tree.node .nil key data 0 .nil : Tree K V).Bal := by simp [Tree.Bal, Tree.height]
        cases f with
        | left k' v' w' r' =>
          simp only [CtxBal, Tree.height] at hc
          obtain ⟨t', e, hb', ht⟩ := climbInsert_spec fs (.node (.node .nil key data 0 .nil) k' v' (w' - 1) r')
            (max 0 r'.height + 1)
            (by simp only [NearBal]; refine ⟨hleaf, hc.1, ?_⟩; simp only [Tree.height]; grind)
            (by simp only [Grown]; left; exact ⟨0, by simp [Tree.height], by omega, by omega, rfl, Or.inl rfl⟩)
            hc.2.2.2.2
          exact ⟨t', e, hb', by simp [ht, ctxL, ctxR, Tree.toList]⟩
        | right l' k' v' w' =>
          simp only [CtxBal, Tree.height] at hc
          obtain ⟨t', e, hb', ht⟩ := climbInsert_spec fs (.node l' k' v' (w' + 1) (.node .nil key data 0 .nil))
            (max l'.height 0 + 1)
            (by simp only [NearBal]; refine ⟨hc.1, hleaf, ?_⟩; simp only [Tree.height]; grind)
            (by simp only [Grown]; right; exact ⟨0, by simp [Tree.height], by omega, by omega, rfl, Or.inl rfl⟩)
            hc.2.2.2.2
          exact ⟨t', e, hb', by simp [ht, ctxL, ctxR, Tree.toList]⟩
      obtain ⟨t'', e, hb', ht⟩ := hx
      exact ⟨⟨t'', m.sized + 1⟩, by simp [Map.insert, hd, e], key2 t'' hb' ht⟩
  · exact ⟨_, by simp [Map.insert, hd], overwrite_spec m key data hi _ _ _ _ _ _ hd⟩

theorem erase_spec (m : Map K V) (key : K) (hi : Inv m) :
    ∃ m', m.erase key = some m' ∧ Inv m' ∧ ∀ e, e ∈ m'.t.toList ↔ (e.1 ≠ key ∧ e ∈ m.t.toList) := by
  obtain ⟨t', fs, hd, hb, hc, hl, h1, h2, h3⟩ := descend_all key m.t hi.bal hi.sorted
  rcases t' with _ | ⟨l, k, v, w, r⟩
  · refine ⟨m, by simp [Map.erase, hd], hi, ?_⟩
    have hn := (find_none key m hi).mp (by simp [find, hd])
    intro e
    exact ⟨fun h => ⟨hn e h, h⟩, fun h => h.2⟩
  · obtain ⟨t'', e, hb', ht⟩ := eraseAt_spec l k v w r fs hb hc
    have hk := h3 _ _ _ _ _ rfl
    subst hk
    have hs := hi.sorted
    have hl' : m.t.toList = (ctxL fs ++ l.toList) ++ (key, v) :: (r.toList ++ ctxR fs) := by
      rw [hl]; simp [Tree.toList]
    have ht' : t''.toList = (ctxL fs ++ l.toList) ++ (r.toList ++ ctxR fs) := by rw [ht]; simp
    rw [hl', sorted_mid] at hs
    refine ⟨⟨t'', m.sized - 1⟩, by simp [Map.erase, hd, e], ⟨hb', ?_, ?_⟩, ?_⟩
    · simp only; rw [ht', sorted_append]; exact ⟨hs.1, hs.2.1, hs.2.2.2.2⟩
    · simp only; rw [hi.sized, hl', ht']; simp; omega
    · intro e
      simp only
      rw [ht', hl', List.mem_append, List.mem_append (s := ctxL fs ++ l.toList), List.mem_cons]
      constructor
      · rintro (h | h)
        · exact ⟨ne_of_lt (hs.2.2.1 e h), Or.inl h⟩
        · exact ⟨(ne_of_lt (hs.2.2.2.1 e h)).symm, Or.inr (Or.inr h)⟩
      · rintro ⟨hne, h | h | h⟩
        · exact Or.inl h
        · subst h; exact absurd rfl hne
        · exact Or.inr h

theorem indexAssign_spec (m : Map K V) (key : K) (d v : V) (hi : Inv m) :
    ∃ m', m.indexAssign key d v = some m' ∧ Inv m' ∧
      ∀ e, e ∈ m'.t.toList ↔ e = (key, v) ∨ (e.1 ≠ key ∧ e ∈ m.t.toList) := by
  have hstep : ∃ m1, m.ensure key d = some m1 ∧ Inv m1 ∧
      (∃ x, find key m1.t = some x) ∧ (∀ e, e.1 ≠ key → (e ∈ m1.t.toList ↔ e ∈ m.t.toList)) := by
    unfold Map.ensure
    cases hf : find key m.t with
    | some x => exact ⟨m, rfl, hi, ⟨x, hf⟩, fun e _ => Iff.rfl⟩
    | none =>
      obtain ⟨m1, e1, hi1, hm1⟩ := insert_spec m key d hi
      refine ⟨m1, e1, hi1, ⟨(key, d), ?_⟩, ?_⟩
      · rw [find_mem key m1 hi1]; exact ⟨(hm1 _).mpr (Or.inl rfl), rfl⟩
      · intro e he; rw [hm1]
        constructor
        · rintro (rfl | h)
          · exact absurd rfl he
          · exact h.2
        · intro h; exact Or.inr ⟨he, h⟩
  obtain ⟨m1, e1, hi1, ⟨x, hx⟩, hother⟩ := hstep
  unfold Map.indexAssign
  rw [e1]
  simp only [Option.bind_some]
  cases hd : descend key m1.t [] with
  | mk t' fs =>
    rcases t' with _ | ⟨l, k, v0, w, r⟩
    · simp [find, hd] at hx
    · obtain ⟨h1, h2⟩ := overwrite_spec m1 key v hi1 _ _ _ _ _ _ hd
      refine ⟨_, rfl, h1, ?_⟩
      intro e
      simp only
      rw [h2]
      constructor
      · rintro (h | ⟨ha, hb⟩)
        · exact Or.inl h
        · exact Or.inr ⟨ha, (hother e ha).mp hb⟩
      · rintro (h | ⟨ha, hb⟩)
        · exact Or.inl h
        · exact Or.inr ⟨ha, (hother e ha).mpr hb⟩

end Verif.FTree
