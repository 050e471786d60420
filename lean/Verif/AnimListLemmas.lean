import Verif.AnimListSpec

/-! # Lemmas about animatable list parameters -/

namespace Verif.FAnimList

variable {α : Type}

/-- The key of a helper: its array element and identity. -/
def tag (h : Helper) : Int × Nat := (h.elem, h.id)

/-- A helper with another array element. -/
def shift (c : Int) (h : Helper) : Helper := { h with elem := h.elem + c }

theorem i32_small {n : Nat} (h : n < 2 ^ 31) : i32 n = n := by
  unfold i32
  have e : n % 2 ^ 32 = n := Nat.mod_eq_of_lt (by omega)
  rw [e, if_pos h]

theorem wsub_small {a b : Nat} (h : b ≤ a) (ha : a < 2 ^ 31) : wsub a b = a - b := by
  unfold wsub
  have e : a + 2 ^ 64 - b = (a - b) + 2 ^ 64 := by omega
  rw [e, Nat.add_mod_right, Nat.mod_eq_of_lt (by omega)]

theorem search_eq (hs : List Helper) (key : Int) (n : Nat)
    (h1 : ∀ (i : Nat) (h : Helper), hs[i]? = some h → i < n → h.elem < key)
    (h2 : ∀ (i : Nat) (h : Helper), hs[i]? = some h → n ≤ i → key ≤ h.elem)
    (h3 : ∀ (i : Nat) (h : Helper), hs[i]? = some h → h.elem = key → i = n) (start stop : Nat) (a : start ≤ n) (b : n ≤ stop) (c : stop ≤ hs.length) :
    search hs key start stop = some n := by
  induction start, stop using search.induct (hs := hs) (key := key) with
  | case1 start stop lt e =>
    rw [List.getElem?_eq_none_iff] at e
    omega
  | case2 start stop lt h e l ih =>
    rw [search, if_pos lt, e]
    simp only [l, if_true]
    refine ih ?_ b c
    rcases Nat.lt_or_ge ((stop + start) / 2) n with q | q
    · omega
    · have := h2 _ h e q
      omega
  | case3 start stop lt h e l g ih =>
    rw [search, if_pos lt, e]
    simp only [l, g, if_true, if_false]
    refine ih a ?_ (by omega)
    rcases Nat.lt_or_ge ((stop + start) / 2) n with q | q
    · have := h1 _ h e q
      omega
    · omega
  | case4 start stop lt h e l g =>
    rw [search, if_pos lt, e]
    simp only [l, g, if_false]
    rw [h3 _ h e (by omega)]
  | case5 start stop ge =>
    rw [search, if_neg ge]
    congr 1
    omega

theorem listed_append (k : Nat) (a b : List (Cell α)) : listed k (a ++ b) = listed k a ++ listed (k + a.length) b := by
  induction a generalizing k with
  | nil => rfl
  | cons c a ih =>
    obtain ⟨x, o⟩ := c
    cases o <;> simp [listed, ih, Nat.add_assoc, Nat.add_comm 1]

theorem listed_range (k : Nat) (a : List (Cell α)) : ∀ p ∈ listed k a, (k : Int) ≤ p.1 ∧ p.1 < k + a.length := by
  induction a generalizing k with
  | nil => simp [listed]
  | cons c a ih =>
    obtain ⟨x, o⟩ := c
    cases o with
    | none =>
      intro p hp
      have := ih (k + 1) p hp
      simp only [List.length_cons]
      omega
    | some id =>
      intro p hp
      simp only [listed, List.mem_cons] at hp
      simp only [List.length_cons]
      rcases hp with rfl | hp
      · simp only
        omega
      · have := ih (k + 1) p hp
        omega

theorem listed_sorted (k : Nat) (a : List (Cell α)) : (listed k a).Pairwise (fun p q => p.1 < q.1) := by
  induction a generalizing k with
  | nil => simp [listed]
  | cons c a ih =>
    obtain ⟨x, o⟩ := c
    cases o with
    | none => exact ih _
    | some id =>
      refine List.pairwise_cons.2 ⟨fun p hp => ?_, ih _⟩
      have := listed_range (k + 1) a p hp
      simp only
      omega

theorem listed_shift (k c : Nat) (a : List (Cell α)) : listed (k + c) a = (listed k a).map fun p => (p.1 + (c : Int), p.2) := by
  induction a generalizing k with
  | nil => rfl
  | cons d a ih =>
    obtain ⟨x, o⟩ := d
    have e := ih (k + 1)
    rw [show k + 1 + c = k + c + 1 by omega] at e
    cases o <;> simp [listed, e]

theorem listed_bare (k : Nat) (b : List (Cell α)) (h : ∀ c ∈ b, c.2 = none) : listed k b = [] := by
  induction b generalizing k with
  | nil => rfl
  | cons c b ih =>
    obtain ⟨x, o⟩ := c
    have : o = none := h (x, o) (by simp)
    subst this
    exact ih _ fun c hc => h c (by simp [hc])

theorem listed_ids (k : Nat) (a : List (Cell α)) : (listed k a).map Prod.snd = a.filterMap Prod.snd := by
  induction a generalizing k with
  | nil => rfl
  | cons c a ih =>
    obtain ⟨x, o⟩ := c
    cases o <;> simp [listed, ih]

theorem listed_some {k : Nat} {a : List (Cell α)} (h : ∃ p, p ∈ listed k a) : ∃ c ∈ a, c.2.isSome := by
  by_contra hn
  obtain ⟨p, hp⟩ := h
  rw [listed_bare k a] at hp
  · simp at hp
  · intro c hc
    by_contra e
    exact hn ⟨c, hc, Option.isSome_iff_ne_none.2 e⟩

/-- The helpers fall into those before a place and those from it on. -/
theorem split_at {hs : List Helper} {a b : List (Cell α)} (e : hs.map tag = listed 0 (a ++ b)) :
    ∃ l1 l2, hs = l1 ++ l2 ∧ l1.map tag = listed 0 a ∧ l2.map tag = listed a.length b ∧ (∀ h ∈ l1, 0 ≤ h.elem ∧ h.elem < a.length) ∧
      (∀ h ∈ l2, (a.length : Int) ≤ h.elem ∧ h.elem < a.length + b.length) := by
  rw [listed_append, Nat.zero_add, List.map_eq_append_iff] at e
  obtain ⟨l1, l2, e, e1, e2⟩ := e
  refine ⟨l1, l2, e, e1, e2, fun h hh => ?_, fun h hh => ?_⟩
  · have := listed_range 0 a (tag h) (e1 ▸ List.mem_map_of_mem hh)
    simpa [tag] using this
  · have := listed_range a.length b (tag h) (e2 ▸ List.mem_map_of_mem hh)
    simpa [tag] using this

theorem sorted_of_tags {hs : List Helper} {k : Nat} {a : List (Cell α)} (e : hs.map tag = listed k a) : hs.Pairwise (fun h g => h.elem < g.elem) := by
  have := listed_sorted k a
  rw [← e, List.pairwise_map] at this
  exact this

theorem binarySearch_split {l1 l2 : List Helper} {i : Nat} (hi : i < 2 ^ 31) (srt : (l1 ++ l2).Pairwise (fun h g => h.elem < g.elem))
    (lo : ∀ h ∈ l1, h.elem < i) (hi' : ∀ h ∈ l2, (i : Int) ≤ h.elem) : binarySearch (l1 ++ l2) i = some l1.length := by
  unfold binarySearch
  rw [i32_small hi]
  refine search_eq _ _ _ (fun j h e l => ?_) (fun j h e l => ?_) (fun j h e k => ?_) 0 _ (Nat.zero_le _) (by simp) (Nat.le_refl _)
  · rw [List.getElem?_append_left l] at e
    exact lo h (List.mem_of_getElem? e)
  · rw [List.getElem?_append_right l] at e
    exact hi' h (List.mem_of_getElem? e)
  · rcases Nat.lt_or_ge j l1.length with q | q
    · rw [List.getElem?_append_left q] at e
      have := lo h (List.mem_of_getElem? e)
      omega
    · rw [List.getElem?_append_right q] at e
      rcases Nat.eq_zero_or_pos (j - l1.length) with z | z
      · omega
      · exfalso
        have hlt : j - l1.length < l2.length := (List.getElem?_eq_some_iff.1 e).1
        have p := (List.pairwise_append.1 srt).2.1
        have := List.pairwise_iff_getElem.1 p 0 (j - l1.length) (by omega) hlt z
        have e' := (List.getElem?_eq_some_iff.1 e).2
        rw [e'] at this
        have := hi' _ (List.getElem_mem (l := l2) (n := 0) (by omega))
        omega

theorem onInsertion_split {l1 l2 : List Helper} {i c : Nat} (hi : i < 2 ^ 31) (hc : c < 2 ^ 31) (srt : (l1 ++ l2).Pairwise (fun h g => h.elem < g.elem))
    (lo : ∀ h ∈ l1, h.elem < i) (hi' : ∀ h ∈ l2, (i : Int) ≤ h.elem) : onInsertion (l1 ++ l2) i c = some (l1 ++ l2.map (shift c)) := by
  unfold onInsertion
  rw [binarySearch_split hi srt lo hi']
  simp only [Option.map_some, List.take_left', List.drop_left', i32_small hi, i32_small hc]
  congr 2
  refine List.map_congr_left fun h hh => ?_
  rw [if_pos (hi' h hh)]
  rfl

theorem releaseLoop_split {o e : Int} (lm l2 : List Helper) (hm : ∀ h ∈ lm, o ≤ h.elem ∧ h.elem < e) (h2 : ∀ h ∈ l2, e ≤ h.elem) (oe : o ≤ e) :
    releaseLoop o e (lm ++ l2) = some l2 := by
  induction lm with
  | nil =>
    cases l2 with
    | nil => rfl
    | cons h l2 =>
      have := h2 h (by simp)
      simp only [List.nil_append, releaseLoop]
      rw [if_pos (show h.elem ≥ o by omega), if_pos (show h.elem ≥ e by omega)]
  | cons h lm ih =>
    have := hm h (by simp)
    simp only [List.cons_append, releaseLoop]
    rw [if_pos (show h.elem ≥ o by omega), if_neg (show ¬ h.elem ≥ e by omega)]
    exact ih fun g hg => hm g (by simp [hg])

theorem onRemoval_split {l1 lm l2 : List Helper} {i c : Nat} (hi : i + c < 2 ^ 31) (srt : (l1 ++ (lm ++ l2)).Pairwise (fun h g => h.elem < g.elem))
    (lo : ∀ h ∈ l1, h.elem < i) (hm : ∀ h ∈ lm, (i : Int) ≤ h.elem ∧ h.elem < i + c) (hi' : ∀ h ∈ l2, ((i + c : Nat) : Int) ≤ h.elem) :
    onRemoval (l1 ++ (lm ++ l2)) i c = some (l1 ++ l2.map (shift (-c))) := by
  unfold onRemoval
  rw [binarySearch_split (by omega) srt lo]
  · simp only [Option.bind_some, List.take_left', List.drop_left', i32_small (show i < 2 ^ 31 by omega), i32_small hi]
    rw [releaseLoop_split lm l2 (fun h hh => by have := hm h hh; push_cast; exact this) hi' (by push_cast; omega)]
    simp only [Option.bind_some]
    rw [binarySearch_split hi]
    · simp only [Option.map_some, List.take_left', List.drop_left', i32_small (show c < 2 ^ 31 by omega)]
      congr 2
      refine List.map_congr_left fun h hh => ?_
      rw [if_pos (hi' h hh)]
      simp [shift, Int.sub_eq_add_neg]
    · rw [List.pairwise_append] at srt ⊢
      refine ⟨srt.1, (List.pairwise_append.1 srt.2.1).2.1, fun a ha b hb => srt.2.2 a ha b (by simp [hb])⟩
    · intro h hh
      have := lo h hh
      push_cast
      omega
    · exact hi'
  · intro h hh
    rcases List.mem_append.1 hh with q | q
    · exact (hm h q).1
    · have := hi' h q
      push_cast at this
      omega

theorem fixLoop_tag (b n : Nat) (hs : List Helper) : (fixLoop b n hs).map tag = hs.map tag := by
  induction hs with
  | nil => rfl
  | cons h hs ih =>
    simp only [fixLoop]
    split
    · simp [ih, tag]
    · rfl

theorem fixLoop_ptr (b n : Nat) (hs : List Helper) (r : ∀ h ∈ hs, 0 ≤ h.elem ∧ h.elem < n) : ∀ h ∈ fixLoop b n hs, h.ptr = (b, h.elem.toNat) := by
  induction hs with
  | nil => simp [fixLoop]
  | cons h hs ih =>
    simp only [fixLoop]
    rw [if_pos (r h (by simp))]
    intro g hg
    rcases List.mem_cons.1 hg with rfl | q
    · rfl
    · exact ih (fun g hg => r g (by simp [hg])) g q

theorem fix_same (s : State α) : (fixPointers s).values = s.values ∧ (fixPointers s).block = s.block ∧ (fixPointers s).next = s.next ∧
    (fixPointers s).helpers.map tag = s.helpers.map tag := by
  unfold fixPointers
  split
  · exact ⟨rfl, rfl, rfl, rfl⟩
  · split
    · split
      · exact ⟨rfl, rfl, rfl, rfl⟩
      · exact ⟨rfl, rfl, rfl, fixLoop_tag _ _ _⟩
    · exact ⟨rfl, rfl, rfl, rfl⟩

theorem fix_pointed (s : State α) (r : ∀ h ∈ s.helpers, 0 ≤ h.elem ∧ h.elem < s.values.length)
    (q : ∀ h t, s.helpers = h :: t → h.ptr = (s.block, h.elem.toNat) → Pointed s) : Pointed (fixPointers s) := by
  unfold fixPointers
  split
  · intro h hh
    simp_all
  · rename_i h t e
    rw [if_pos (r h (by simp [e]))]
    split
    · exact q h t e (by assumption)
    · exact fixLoop_ptr _ _ _ r

/-- The pointers after a change. -/
theorem splice_pointed {s v : State α} {l1 l2 : List Helper} {c : Int} (hp : Pointed s) (sub : ∀ h ∈ l1 ++ l2, h ∈ s.helpers) (pos : ∀ h ∈ l2, 0 ≤ h.elem)
    (r : ∀ h ∈ l1 ++ l2.map (shift c), 0 ≤ h.elem ∧ h.elem < v.values.length) (ok : v.block ≠ s.block ∨ c = 0 ∨ l1 = [] ∨ l2 = []) :
    Pointed (fixPointers { v with helpers := l1 ++ l2.map (shift c) }) := by
  refine fix_pointed _ r fun h t e k => ?_
  simp only at e k
  have old : ∀ g ∈ l1 ++ l2, g.ptr = (s.block, g.elem.toNat) := fun g hg => hp g (sub g hg)
  have same : c = 0 → l2.map (shift c) = l2 := by
    rintro rfl
    exact (List.map_congr_left fun h _ => by simp [shift]).trans (List.map_id _)
  cases l1 with
  | cons g l1 =>
    simp only [List.cons_append, List.cons.injEq] at e
    obtain ⟨rfl, e⟩ := e
    have o := old g (by simp)
    rw [o] at k
    have bk : s.block = v.block := (Prod.mk.inj k).1
    have hc : l2.map (shift c) = l2 := by
      rcases ok with ok | ok | ok | ok
      · exact absurd bk.symm ok
      · exact same ok
      · cases ok
      · simp [ok]
    intro p hp'
    simp only [hc] at hp' ⊢
    rw [← bk]
    exact old p hp'
  | nil =>
    cases l2 with
    | nil => cases e
    | cons g l2 =>
      simp only [List.nil_append, List.map_cons, List.cons.injEq] at e
      obtain ⟨rfl, e⟩ := e
      have o := old g (by simp)
      have k' : g.ptr = (v.block, (g.elem + c).toNat) := k
      rw [o] at k'
      have bk : s.block = v.block := (Prod.mk.inj k').1
      have ek : g.elem.toNat = (g.elem + c).toNat := (Prod.mk.inj k').2
      have r1 := (r (shift c g) (by simp)).1
      have r2 := pos g (by simp)
      have r1' : 0 ≤ g.elem + c := r1
      have z : c = 0 := by omega
      intro p hp'
      simp only [same z] at hp' ⊢
      rw [← bk]
      exact old p hp'

/-- Insertions. -/
theorem insert_rep {s v : State α} {a a1 a2 b : List (Cell α)} {count : Nat} (rep : Rep s a) (ea : a = a1 ++ a2) (hb : ∀ c ∈ b, c.2 = none)
    (hl : b.length = count) (size : a.length + count < 2 ^ 31) (hv : v.values = (a1 ++ (b ++ a2)).map Prod.fst) (hn : v.next = s.next) :
    ∃ s', finish v (onInsertion s.helpers a1.length count) = some s' ∧ Rep s' (a1 ++ (b ++ a2)) ∧ s'.next = s.next ∧
      (Pointed s → (v.block ≠ s.block ∨ count = 0 ∨ ¬ ((∃ c ∈ a1, c.2.isSome) ∧ ∃ c ∈ a2, c.2.isSome)) → Pointed s') := by
  subst ea
  have hh := rep.helpers
  obtain ⟨l1, l2, e, e1, e2, r1, r2⟩ := split_at (a := a1) (b := a2) hh
  have srt := sorted_of_tags (k := 0) (a := a1 ++ a2) hh
  rw [e] at srt
  simp only [List.length_append] at size
  have i := onInsertion_split (l1 := l1) (l2 := l2) (i := a1.length) (c := count) (by omega) (by omega) srt (fun h q => (r1 h q).2) (fun h q => (r2 h q).1)
  have vl : v.values.length = a1.length + (count + a2.length) := by simp [hv, hl]
  refine ⟨_, by rw [e, i]; rfl, ?_, ?_, ?_⟩
  · obtain ⟨f1, f2, f3, f4⟩ := fix_same { v with helpers := l1 ++ l2.map (shift count) }
    refine ⟨f1.trans hv, f4.trans ?_, by simp; omega⟩
    rw [List.map_append, e1, listed_append, listed_append, listed_bare _ b hb, List.nil_append, Nat.zero_add, hl, listed_shift, ← e2]
    simp [tag, shift]
  · exact (fix_same _).2.2.1.trans hn
  · intro hp ok
    refine splice_pointed hp (fun h q => e ▸ q) (fun h q => by have := r2 h q; omega) (fun h q => ?_) ?_
    · rw [vl]
      rcases List.mem_append.1 q with q | q
      · have := r1 h q
        push_cast
        omega
      · obtain ⟨g, hg, rfl⟩ := List.mem_map.1 q
        have := r2 g hg
        simp only [shift]
        push_cast
        omega
    · rcases ok with ok | ok | ok
      · exact .inl ok
      · exact .inr (.inl (by simp [ok]))
      · rcases l1 with _ | ⟨g, l1⟩
        · exact .inr (.inr (.inl rfl))
        · rcases l2 with _ | ⟨g', l2⟩
          · exact .inr (.inr (.inr rfl))
          · exact absurd ⟨listed_some (k := 0) ⟨tag g, e1 ▸ by simp⟩, listed_some (k := a1.length) ⟨tag g', e2 ▸ by simp⟩⟩ ok

/-- Removals. -/
theorem erase_rep {s v : State α} {a a1 m a2 : List (Cell α)} {i count : Nat} (rep : Rep s a) (ea : a = a1 ++ (m ++ a2)) (hi : a1.length = i)
    (hl : m.length = count) (hv : v.values = (a1 ++ a2).map Prod.fst) (hn : v.next = s.next) :
    ∃ s', finish v (onRemoval s.helpers i count) = some s' ∧ Rep s' (a1 ++ a2) ∧ s'.next = s.next ∧
      (Pointed s → (v.block ≠ s.block ∨ count = 0 ∨ ¬ ((∃ c ∈ a1, c.2.isSome) ∧ ∃ c ∈ a2, c.2.isSome)) → Pointed s') := by
  subst ea hi
  have hh := rep.helpers
  have size := rep.size
  simp only [List.length_append] at size
  obtain ⟨l1, l3, e, e1, e3, r1, r3⟩ := split_at (a := a1) (b := m ++ a2) hh
  rw [listed_append, List.map_eq_append_iff] at e3
  obtain ⟨lm, l2, rfl, em, e2⟩ := e3
  have rm : ∀ h ∈ lm, (a1.length : Int) ≤ h.elem ∧ h.elem < a1.length + m.length := fun h q => by
    have := listed_range _ m (tag h) (em ▸ List.mem_map_of_mem q)
    simpa [tag] using this
  have r2 : ∀ h ∈ l2, ((a1.length + m.length : Nat) : Int) ≤ h.elem ∧ h.elem < (a1.length + m.length : Nat) + a2.length := fun h q => by
    have := listed_range _ a2 (tag h) (e2 ▸ List.mem_map_of_mem q)
    simpa [tag] using this
  have srt := sorted_of_tags (k := 0) (a := a1 ++ (m ++ a2)) hh
  rw [e] at srt
  have i := onRemoval_split (l1 := l1) (lm := lm) (l2 := l2) (i := a1.length) (c := m.length) (by omega) srt (fun h q => (r1 h q).2) rm
    (fun h q => (r2 h q).1)
  have vl : v.values.length = a1.length + a2.length := by simp [hv]
  subst hl
  refine ⟨_, by rw [e, i]; rfl, ?_, ?_, ?_⟩
  · obtain ⟨f1, f2, f3, f4⟩ := fix_same { v with helpers := l1 ++ l2.map (shift (-m.length)) }
    refine ⟨f1.trans hv, f4.trans ?_, by simp; omega⟩
    rw [List.map_append, e1, listed_append, Nat.zero_add]
    congr 1
    have := listed_shift a1.length m.length a2
    rw [← e2] at this
    have k := congrArg (List.map fun p : Int × Nat => (p.1 - (m.length : Int), p.2)) this
    rw [List.map_map, List.map_map] at k
    refine Eq.trans ?_ (k.trans ?_)
    · rw [List.map_map]
      refine List.map_congr_left fun h _ => ?_
      simp [tag, shift, Int.sub_eq_add_neg]
    · refine (List.map_congr_left fun p _ => ?_).trans (List.map_id _)
      simp
  · exact (fix_same _).2.2.1.trans hn
  · intro hp ok
    refine splice_pointed hp (fun h q => e ▸ ?_) (fun h q => by have := r2 h q; omega) (fun h q => ?_) ?_
    · rcases List.mem_append.1 q with q | q <;> simp [q]
    · rw [vl]
      rcases List.mem_append.1 q with q | q
      · have := r1 h q
        push_cast
        omega
      · obtain ⟨g, hg, rfl⟩ := List.mem_map.1 q
        have := r2 g hg
        simp only [shift]
        push_cast at this ⊢
        omega
    · rcases ok with ok | ok | ok
      · exact .inl ok
      · exact .inr (.inl (by simp [ok]))
      · rcases l1 with _ | ⟨g, l1⟩
        · exact .inr (.inr (.inl rfl))
        · rcases l2 with _ | ⟨g', l2⟩
          · exact .inr (.inr (.inr rfl))
          · exact absurd ⟨listed_some (k := 0) ⟨tag g, e1 ▸ by simp⟩, listed_some (k := a1.length + m.length) ⟨tag g', e2 ▸ by simp⟩⟩ ok

theorem vecInsert_eq (s : State α) (i : Nat) (x : α) : (vecInsert s i x).values = s.values.take i ++ x :: s.values.drop i ∧
    (vecInsert s i x).next = s.next ∧ (s.values.length = s.cap → (vecInsert s i x).block ≠ s.block) := by
  unfold vecInsert reserve
  refine ⟨?_, ?_, fun h => ?_⟩
  · split_ifs <;> rfl
  · split_ifs <;> rfl
  · simp only [h, if_true]
    split_ifs with h1 h2 h2 <;> simp only [ne_eq] at * <;> omega

theorem vecInsertCopies_eq (s : State α) (i n : Nat) (x : α) :
    (vecInsertCopies s i n x).values = s.values.take i ++ (List.replicate n x ++ s.values.drop i) ∧ (vecInsertCopies s i n x).next = s.next ∧
    (s.values.length + n > s.cap → (vecInsertCopies s i n x).block ≠ s.block) := by
  unfold vecInsertCopies reserve
  refine ⟨?_, ?_, fun h => ?_⟩
  · split_ifs <;> rfl
  · split_ifs <;> rfl
  · simp only [h, if_true]
    rw [if_pos (by omega)]
    simp

theorem vecInsertArray_eq (s : State α) (i : Nat) (xs : List α) :
    (vecInsertArray s i xs).values = s.values.take i ++ (xs ++ s.values.drop i) ∧ (vecInsertArray s i xs).next = s.next ∧
    (s.values.length + xs.length > s.cap → xs ≠ [] → (vecInsertArray s i xs).block ≠ s.block) := by
  unfold vecInsertArray reserve
  refine ⟨?_, ?_, fun h k => ?_⟩
  · split_ifs <;> rfl
  · split_ifs <;> rfl
  · rw [if_pos ⟨h, k⟩, if_pos (by split_ifs <;> omega)]
    simp

theorem vecResize_eq (s : State α) (n : Nat) (x : α) :
    (vecResize s n x).values = s.values.take n ++ List.replicate (n - s.values.length) x ∧ (vecResize s n x).next = s.next := by
  unfold vecResize reserve
  constructor <;> split_ifs <;> rfl

theorem listed_release (k id : Nat) (a : List (Cell α)) :
    listed k (a.map fun c => if c.2 = some id then (c.1, none) else c) = (listed k a).filter (·.2 ≠ id) := by
  induction a generalizing k with
  | nil => rfl
  | cons c a ih =>
    obtain ⟨x, o⟩ := c
    cases o with
    | none => simpa [listed] using ih (k + 1)
    | some j =>
      by_cases e : j = id
      · simpa [listed, e] using ih (k + 1)
      · simpa [listed, e] using ih (k + 1)

theorem listed_set (k i : Nat) (a : List (Cell α)) (c d : Cell α) (h : a[i]? = some c) (e : d.2 = c.2) : listed k (a.set i d) = listed k a := by
  induction a generalizing k i with
  | nil => simp at h
  | cons b a ih =>
    cases i with
    | zero =>
      simp only [List.getElem?_cons_zero, Option.some.injEq] at h
      subst h
      obtain ⟨x, o⟩ := b
      obtain ⟨y, o'⟩ := d
      simp only at e
      subst e
      cases o' <;> rfl
    | succ i =>
      obtain ⟨x, o⟩ := b
      have := ih (k + 1) i (by simpa using h)
      cases o <;> simp [listed, this]

/-- `GetAnimated` in range. -/
theorem get_rep {s : State α} {a : List (Cell α)} {i : Nat} (rep : Rep s a) (hi : i < a.length) :
    ∃ r s', getAnimated s i = some (r, s') ∧ Rep s' (ideal s.next a (.get i)) ∧ ((ideal s.next a (.get i))[i]?.map Prod.snd = some (some r)) ∧
      s.next ≤ s'.next ∧ (∀ id, some id ∈ (ideal s.next a (.get i)).map Prod.snd → some id ∈ a.map Prod.snd ∨ (id = s.next ∧ s'.next = s.next + 1)) ∧
      (Pointed s → Pointed s') := by
  obtain ⟨x, o, hx⟩ : ∃ x o, a[i] = (x, o) := ⟨a[i].1, a[i].2, rfl⟩
  have hg : a[i]? = some (x, o) := by rw [List.getElem?_eq_getElem hi, hx]
  have ea : a = a.take i ++ (x, o) :: a.drop (i + 1) := by
    rw [← hx, ← List.drop_eq_getElem_cons hi, List.take_append_drop]
  have tl : (a.take i).length = i := by simp; omega
  have hh := rep.helpers
  have size := rep.size
  have hvl : s.values.length = a.length := by rw [rep.values]; simp
  have hh' : s.helpers.map tag = listed 0 (a.take i ++ (x, o) :: a.drop (i + 1)) := by rw [← ea]; exact hh
  obtain ⟨l1, l2, e, e1, e2, r1, r2⟩ := split_at hh'
  have srt := sorted_of_tags (k := 0) (a := a) hh
  rw [e] at srt
  rw [tl] at e2 r1 r2
  have bs := binarySearch_split (l1 := l1) (l2 := l2) (i := i) (by omega) srt (fun h q => (r1 h q).2) (fun h q => (r2 h q).1)
  have i3 : i32 i = i := i32_small (by omega)
  have mid : (l1 ++ l2)[l1.length]? = l2[0]? := by rw [List.getElem?_append_right (Nat.le_refl _), Nat.sub_self]
  cases o with
  | some id =>
    simp only [listed] at e2
    cases l2 with
    | nil => simp at e2
    | cons g l2 =>
      simp only [List.map_cons, List.cons.injEq, tag, Prod.mk.injEq] at e2
      have ei : ideal s.next a (.get i) = a := by simp [ideal, hg]
      refine ⟨g.id, s, ?_, by rw [ei]; exact rep, ?_, Nat.le_refl _, fun j hj => .inl (by rwa [ei] at hj), _root_.id⟩
      · unfold getAnimated
        rw [e, bs, Option.bind_some, mid]
        simp [Option.filter, i3, e2.1.1]
      · rw [ei, hg]
        simp [e2.1.2]
  | none =>
    have e2' : l2.map tag = listed (i + 1) (a.drop (i + 1)) := e2
    have r2' : ∀ h ∈ l2, ((i + 1 : Nat) : Int) ≤ h.elem := fun h q => by
      have := listed_range _ _ (tag h) (e2' ▸ List.mem_map_of_mem q)
      exact this.1
    have no : (l2[0]?).filter (fun h => h.elem = i32 i) = none := by
      cases l2 with
      | nil => rfl
      | cons g l2 =>
        have := r2' g (by simp)
        simp only [List.getElem?_cons_zero, Option.filter, i3]
        rw [if_neg]
        simp only [decide_eq_true_eq]
        push_cast at this
        omega
    have ei : ideal s.next a (.get i) = a.take i ++ (x, some s.next) :: a.drop (i + 1) := by
      simp only [ideal, hg]
      rw [List.set_eq_take_append_cons_drop, if_pos hi]
    refine ⟨s.next, { s with helpers := l1 ++ ⟨s.next, i32 i, (s.block, i)⟩ :: l2, next := s.next + 1 }, ?_, ?_, ?_, by simp, ?_, ?_⟩
    · unfold getAnimated
      rw [e, bs, Option.bind_some, mid, no]
      simp only [List.take_left', List.drop_left']
      rw [if_pos (by omega)]
    · rw [ei]
      refine ⟨?_, ?_, ?_⟩
      · show s.values = _
        rw [rep.values]
        conv_lhs => rw [ea]
        simp
      · show List.map tag _ = _
        rw [List.map_append, List.map_cons, e1, e2', listed_append, Nat.zero_add, tl]
        simp [listed, tag, i3]
      · simp only [List.length_append, List.length_cons, List.length_take, List.length_drop]
        omega
    · rw [ei, List.getElem?_append_right (by omega), tl]
      simp
    · intro j hj
      rw [ei] at hj
      rw [ea]
      simp only [List.map_append, List.map_cons, List.mem_append, List.mem_cons, Option.some.injEq] at hj ⊢
      rcases hj with q | q | q
      · exact .inl (.inl (by simpa using q))
      · exact .inr ⟨q, trivial⟩
      · refine .inl (.inr (.inr (by simpa using q)))
    · intro hp h hm
      simp only [List.mem_append, List.mem_cons] at hm
      rcases hm with q | rfl | q
      · exact hp h (e ▸ by simp [q])
      · simp [i3]
      · exact hp h (e ▸ by simp [q])

theorem map_fst_bare (xs : List α) : (xs.map bare).map Prod.fst = xs := by
  simp [bare, Function.comp_def]

/-- What one call does. -/
structure StepOk (s : State α) (a : List (Cell α)) (op : Op α) (s' : State α) : Prop where
  rep : Rep s' (ideal s.next a op)
  next : s.next ≤ s'.next
  ids : ∀ id, some id ∈ (ideal s.next a op).map Prod.snd → some id ∈ a.map Prod.snd ∨ (id = s.next ∧ s'.next = s.next + 1)
  pointed : Pointed s → Tame s a op → Pointed s'

theorem resize_ok {s : State α} {a : List (Cell α)} {n : Nat} (x : α) (rep : Rep s a) (legal : n < 2 ^ 31) :
    ∃ s', step s (.resize n x) = some s' ∧ StepOk s a (.resize n x) s' := by
  have hvl : s.values.length = a.length := by rw [rep.values]; simp
  obtain ⟨v1, v2⟩ := vecResize_eq s n x
  have hv : (vecResize s n x).values = (ideal s.next a (.resize n x)).map Prod.fst := by
    rw [v1, ideal, hvl, rep.values, List.map_append, List.map_take, List.map_replicate]
    rfl
  have ids : ∀ id, some id ∈ (ideal s.next a (.resize n x)).map Prod.snd → some id ∈ a.map Prod.snd := by
    intro j hj
    rw [ideal, List.map_append, List.map_take, List.map_replicate, List.mem_append] at hj
    rcases hj with q | q
    · exact List.mem_of_mem_take q
    · have := List.eq_of_mem_replicate q
      cases this
  rcases Nat.lt_trichotomy a.length n with h | h | h
  · have ei : ideal s.next a (.resize n x) = a ++ (List.replicate (n - a.length) (bare x) ++ []) := by
      simp only [ideal, List.append_nil]
      rw [List.take_of_length_le (by omega)]
    obtain ⟨s', e, h1, h2, h3⟩ := insert_rep (v := vecResize s n x) (a1 := a) (a2 := []) (b := List.replicate (n - a.length) (bare x)) (count := n - a.length)
      rep (by simp) (by intro c hc; rw [List.eq_of_mem_replicate hc]; rfl) (by simp) (by omega) (by rw [hv, ei]) v2
    refine ⟨s', ?_, by rw [ei]; exact h1, by omega, fun j hj => .inl (ids j hj), fun hp _ => h3 hp (.inr (.inr (by simp)))⟩
    rw [← e]
    simp only [step]
    rw [if_pos (by omega), hvl]
  · subst h
    have ei : ideal s.next a (.resize a.length x) = a := by simp [ideal]
    refine ⟨fixPointers { vecResize s a.length x with helpers := s.helpers }, by simp [step, hvl, finish], ?_, ?_, fun j hj => .inl (ids j hj), fun hp _ => ?_⟩
    · obtain ⟨f1, f2, f3, f4⟩ := fix_same { vecResize s a.length x with helpers := s.helpers }
      rw [ei] at hv ⊢
      exact ⟨f1.trans hv, f4.trans rep.helpers, rep.size⟩
    · rw [(fix_same _).2.2.1]
      show s.next ≤ (vecResize s a.length x).next
      omega
    · have hh := rep.helpers
      have := splice_pointed (v := vecResize s a.length x) (l1 := s.helpers) (l2 := []) (c := 0) hp (by simp) (by simp)
        (fun h q => by
          have r := listed_range 0 a (tag h) (by rw [← rep.helpers]; exact List.mem_map_of_mem (f := tag) (by simpa using q))
          have vl : (vecResize s a.length x).values.length = a.length := by rw [hv, ei]; simp
          rw [vl]
          simpa [tag] using r) (by simp)
      simpa using this
  · have ei : ideal s.next a (.resize n x) = a.take n ++ [] := by
      simp only [ideal]
      rw [show n - a.length = 0 by omega]
      rfl
    obtain ⟨s', e, h1, h2, h3⟩ := erase_rep (v := vecResize s n x) (a1 := a.take n) (m := a.drop n) (a2 := []) (i := n) (count := a.length - n)
      rep (by simp) (by simp; omega) (by simp) (by rw [hv, ei]) v2
    refine ⟨s', ?_, by rw [ei]; exact h1, by omega, fun j hj => .inl (ids j hj), fun hp _ => h3 hp (.inr (.inr (by simp)))⟩
    rw [← e]
    simp only [step]
    rw [if_neg (by omega), if_pos (by omega), hvl]

theorem step_ok {s : State α} {a : List (Cell α)} {op : Op α} (rep : Rep s a) (legal : Legal s.values.length op) (ns : NoShrink s.values.length op) :
    ∃ s', step s op = some s' ∧ StepOk s a op s' := by
  have hvl : s.values.length = a.length := by rw [rep.values]; simp
  have size := rep.size
  have split (i : Nat) : a = a.take i ++ a.drop i := (List.take_append_drop i a).symm
  have tl {i : Nat} (h : i ≤ a.length) : (a.take i).length = i := by simp; omega
  have tk (i : Nat) : s.values.take i = (a.take i).map Prod.fst := by rw [rep.values, List.map_take]
  have dr (i : Nat) : s.values.drop i = (a.drop i).map Prod.fst := by rw [rep.values, List.map_drop]
  rw [hvl] at legal ns
  cases op with
  | get i =>
    obtain ⟨r, s', e, h1, h2, h3, h4, h5⟩ := get_rep rep (i := i) legal
    exact ⟨s', by simp [step, e], h1, h3, h4, fun h _ => h5 h⟩
  | release id =>
    refine ⟨_, rfl, ⟨?_, ?_, by simpa [ideal] using size⟩, Nat.le_refl _, ?_, ?_⟩
    · show s.values = _
      rw [rep.values, ideal, List.map_map]
      refine List.map_congr_left fun c _ => ?_
      simp only [Function.comp_apply]
      split_ifs <;> rfl
    · have hh := rep.helpers
      show (s.helpers.filter (·.id ≠ id)).map tag = _
      rw [ideal, listed_release]
      have : s.helpers.map tag = listed 0 a := hh
      rw [← this, List.filter_map]
      rfl
    · intro j hj
      left
      simp only [ideal, List.map_map, List.mem_map, Function.comp_apply] at hj ⊢
      obtain ⟨c, hc, e⟩ := hj
      refine ⟨c, hc, ?_⟩
      split_ifs at e
      exact e
    · intro hp _ h hm
      exact hp h (List.mem_of_mem_filter hm)
  | set i x =>
    have hi : i < a.length := legal
    have hg : a[i]? = some a[i] := List.getElem?_eq_getElem hi
    have ei : ideal s.next a (.set i x) = a.set i (x, a[i].2) := by simp [ideal, hg]
    refine ⟨{ s with values := s.values.set i x }, by simp only [step]; rw [if_pos (by omega)], ⟨?_, ?_, by rw [ei]; simpa using size⟩, Nat.le_refl _, ?_, fun hp _ => hp⟩
    · rw [ei, List.map_set, ← rep.values]
    · rw [ei, listed_set 0 i a a[i] (x, a[i].2) hg rfl]
      exact rep.helpers
    · intro j hj
      left
      rw [ei, List.map_set] at hj
      rcases List.mem_or_eq_of_mem_set hj with q | q
      · exact q
      · exact List.mem_map.2 ⟨a[i], List.getElem_mem _, q.symm⟩
  | insert i x =>
    obtain ⟨l1, l2⟩ := legal
    obtain ⟨v1, v2, v3⟩ := vecInsert_eq s i x
    obtain ⟨s', e, h1, h2, h3⟩ := insert_rep (v := vecInsert s i x) (b := [bare x]) (count := 1) rep (split i) (by simp [bare]) rfl (by omega)
      (by rw [v1, tk, dr]; simp [bare]) v2
    rw [tl l1] at e
    refine ⟨s', e, h1, by omega, ?_, fun hp t => h3 hp ?_⟩
    · intro j hj
      left
      have hj' : some j ∈ (a.map Prod.snd).take i ∨ some j ∈ (a.map Prod.snd).drop i := by simpa [ideal, bare] using hj
      exact hj'.elim List.mem_of_mem_take List.mem_of_mem_drop
    · rcases t with t | t
      · exact .inr (.inr t)
      · exact .inl (v3 t)
  | insertCopies i n x =>
    obtain ⟨l1, l2⟩ := legal
    obtain ⟨v1, v2, v3⟩ := vecInsertCopies_eq s i n x
    obtain ⟨s', e, h1, h2, h3⟩ := insert_rep (v := vecInsertCopies s i n x) (b := List.replicate n (bare x)) (count := n) rep (split i)
      (by intro c hc; rw [List.eq_of_mem_replicate hc]; rfl) (by simp) (by omega) (by rw [v1, tk, dr]; simp [bare]) v2
    rw [tl l1] at e
    refine ⟨s', e, h1, by omega, ?_, fun hp t => h3 hp ?_⟩
    · intro j hj
      left
      have hj' : some j ∈ (a.map Prod.snd).take i ∨ some j ∈ (a.map Prod.snd).drop i := by simpa [ideal, bare] using hj
      exact hj'.elim List.mem_of_mem_take List.mem_of_mem_drop
    · rcases t with t | t | t
      · exact .inr (.inr t)
      · exact .inr (.inl t)
      · exact .inl (v3 t)
  | insertArray i xs =>
    obtain ⟨l1, l2⟩ := legal
    obtain ⟨v1, v2, v3⟩ := vecInsertArray_eq s i xs
    obtain ⟨s', e, h1, h2, h3⟩ := insert_rep (v := vecInsertArray s i xs) (b := xs.map bare) (count := xs.length) rep (split i)
      (by intro c hc; obtain ⟨y, _, rfl⟩ := List.mem_map.1 hc; rfl) (by simp) (by omega)
      (by rw [v1, tk, dr, List.map_append, List.map_append, map_fst_bare]) v2
    rw [tl l1] at e
    refine ⟨s', e, h1, by omega, ?_, fun hp t => h3 hp ?_⟩
    · intro j hj
      left
      have hj' : some j ∈ (a.map Prod.snd).take i ∨ some j ∈ (a.map Prod.snd).drop i := by simpa [ideal, bare] using hj
      exact hj'.elim List.mem_of_mem_take List.mem_of_mem_drop
    · rcases t with t | t | t
      · exact .inr (.inr t)
      · exact .inr (.inl (by simp [t]))
      · by_cases z : xs = []
        · exact .inr (.inl (by simp [z]))
        · exact .inl (v3 t z)
  | erase i =>
    have hi : i < a.length := legal
    obtain ⟨s', e, h1, h2, h3⟩ := erase_rep (v := vecErase s i (i + 1)) (a1 := a.take i) (m := [a[i]]) (a2 := a.drop (i + 1)) (count := 1) rep
      (by simp) (tl (by omega)) rfl (by simp only [vecErase]; rw [tk, dr]; simp) rfl
    refine ⟨s', e, h1, by omega, ?_, fun hp t => h3 hp (.inr (.inr t))⟩
    intro j hj
    left
    simp only [ideal, List.map_append, List.mem_append, List.map_take, List.map_drop] at hj
    exact hj.elim List.mem_of_mem_take List.mem_of_mem_drop
  | eraseRange first last =>
    obtain ⟨l1, l2⟩ := legal
    obtain ⟨s', e, h1, h2, h3⟩ := erase_rep (v := vecErase s first last) (a1 := a.take first) (m := (a.drop first).take (last - first)) (a2 := a.drop last)
      (i := first) (count := last - first) rep
      (by
        have : a.drop last = (a.drop first).drop (last - first) := by rw [List.drop_drop]; congr 1; omega
        rw [this, List.take_append_drop, List.take_append_drop])
      (tl (by omega)) (by simp; omega) (by simp only [vecErase]; rw [tk, dr]; simp) rfl
    refine ⟨s', e, h1, by omega, ?_, fun hp t => h3 hp ?_⟩
    · intro j hj
      left
      simp only [ideal, List.map_append, List.mem_append, List.map_take, List.map_drop] at hj
      exact hj.elim List.mem_of_mem_take List.mem_of_mem_drop
    · rcases t with t | t
      · exact .inr (.inr t)
      · exact .inr (.inl (by omega))
  | clear =>
    obtain ⟨s', e, h1, h2, h3⟩ := erase_rep (v := { reserve s 0 with values := [] }) (a1 := []) (m := a) (a2 := []) (i := 0) (count := s.values.length) rep
      (by simp) rfl hvl.symm rfl (by simp only [reserve]; split_ifs <;> rfl)
    exact ⟨s', e, h1, by omega, by simp [ideal], fun hp _ => h3 hp (.inr (.inr (by simp)))⟩
  | pushBack x =>
    have l2 : a.length + 1 < 2 ^ 31 := legal
    obtain ⟨v1, v2, v3⟩ := vecInsert_eq s s.values.length x
    obtain ⟨s', e, h1, h2, h3⟩ := insert_rep (v := vecInsert s s.values.length x) (a1 := a) (a2 := []) (b := [bare x]) (count := 1) rep (by simp)
      (by simp [bare]) rfl (by omega) (by rw [v1, List.take_length, List.drop_length, rep.values]; simp [bare]) v2
    rw [← hvl] at e
    refine ⟨s', e, h1, by omega, ?_, fun hp t => h3 hp (.inr (.inr (by simp)))⟩
    intro j hj
    left
    simpa [ideal, bare] using hj
  | pushFront x =>
    have l2 : a.length + 1 < 2 ^ 31 := legal
    obtain ⟨v1, v2, v3⟩ := vecInsert_eq s 0 x
    obtain ⟨s', e, h1, h2, h3⟩ := insert_rep (v := vecInsert s 0 x) (a1 := []) (a2 := a) (b := [bare x]) (count := 1) rep (by simp)
      (by simp [bare]) rfl (by omega) (by rw [v1]; simp [bare, rep.values]) v2
    refine ⟨s', e, h1, by omega, ?_, fun hp t => h3 hp (.inr (.inr (by simp)))⟩
    intro j hj
    left
    simpa [ideal, bare] using hj
  | popBack =>
    have l : 0 < a.length := legal
    have z : a.drop (a.length - 1) = [a[a.length - 1]] := by
      rw [List.drop_eq_getElem_cons (by omega), show a.length - 1 + 1 = a.length by omega, List.drop_length]
    obtain ⟨s', e, h1, h2, h3⟩ := erase_rep (v := vecErase s (s.values.length - 1) s.values.length) (a1 := a.take (a.length - 1))
      (m := [a[a.length - 1]]) (a2 := []) (i := a.length - 1) (count := 1) rep (by rw [List.append_nil, ← z]; exact split _) (tl (by omega)) rfl
      (by simp only [vecErase]; rw [tk, hvl, ← hvl, List.drop_length]; simp) rfl
    refine ⟨s', ?_, ?_, by omega, ?_, fun hp t => h3 hp (.inr (.inr (by simp)))⟩
    · rw [← e]
      simp only [step]
      rw [wsub_small (by omega) (by omega), hvl]
    · rw [ideal, List.dropLast_eq_take]
      simpa using h1
    · intro j hj
      left
      rw [ideal, List.dropLast_eq_take, List.map_take] at hj
      exact List.mem_of_mem_take hj
  | popFront =>
    have l : 0 < a.length := legal
    cases a with
    | nil => simp at l
    | cons c a =>
      obtain ⟨s', e, h1, h2, h3⟩ := erase_rep (v := vecErase s 0 1) (a1 := []) (m := [c]) (a2 := a) (i := 0) (count := 1) rep rfl rfl rfl
        (by simp [vecErase, rep.values]) rfl
      refine ⟨s', e, h1, by omega, ?_, fun hp t => h3 hp (.inr (.inr (by simp)))⟩
      intro j hj
      left
      simp only [ideal, List.tail_cons] at hj
      simp [hj]
  | resize n x =>
    exact resize_ok x rep legal
  | resizeWith n x =>
    have l : a.length ≤ n := ns
    obtain ⟨s', e, h⟩ := resize_ok x rep legal
    refine ⟨s', ?_, h.rep, h.next, h.ids, fun hp _ => h.pointed hp trivial⟩
    rw [← e]
    simp only [step]
    rw [if_neg (show ¬ n < s.values.length by omega), if_neg (show ¬ n < s.values.length by omega)]

/-- The helpers of the ideal list. -/
def ids (a : List (Cell α)) : List Nat := a.filterMap Prod.snd

theorem ids_append (a b : List (Cell α)) : ids (a ++ b) = ids a ++ ids b := List.filterMap_append

theorem ids_bare {b : List (Cell α)} (h : ∀ c ∈ b, c.2 = none) : ids b = [] := List.filterMap_eq_nil_iff.2 h

theorem mem_ids {a : List (Cell α)} {id : Nat} : id ∈ ids a ↔ some id ∈ a.map Prod.snd := by
  simp [ids]

theorem ids_splice {a b : List (Cell α)} (i : Nat) (h : ∀ c ∈ b, c.2 = none) : ids (a.take i ++ (b ++ a.drop i)) = ids a := by
  rw [ids_append, ids_append, ids_bare h, List.nil_append, ← ids_append, List.take_append_drop]

theorem ids_cut {a : List (Cell α)} {i j : Nat} (h : i ≤ j) : (ids (a.take i ++ a.drop j)).Sublist (ids a) := by
  refine List.Sublist.filterMap _ ?_
  conv_rhs => rw [← List.take_append_drop i a]
  refine List.Sublist.append (List.Sublist.refl _) ?_
  exact List.drop_sublist_drop_left a h

theorem ideal_nodup {next : Nat} {a : List (Cell α)} {op : Op α} (legal : Legal a.length op) (fresh : ∀ id ∈ ids a, id < next) (nd : (ids a).Nodup) :
    (ids (ideal next a op)).Nodup := by
  cases op with
  | get i =>
    have hi : i < a.length := legal
    obtain ⟨x, o, hx⟩ : ∃ x o, a[i] = (x, o) := ⟨a[i].1, a[i].2, rfl⟩
    have hg : a[i]? = some (x, o) := by rw [List.getElem?_eq_getElem hi, hx]
    cases o with
    | some id =>
      simp only [ideal, hg]
      exact nd
    | none =>
      have ea : a = a.take i ++ ([(x, none)] ++ a.drop (i + 1)) := by
        rw [← hx, List.singleton_append, ← List.drop_eq_getElem_cons hi, List.take_append_drop]
      simp only [ideal, hg]
      rw [List.set_eq_take_append_cons_drop, if_pos hi]
      have e0 : ids a = ids (a.take i) ++ ids (a.drop (i + 1)) := by
        conv_lhs => rw [ea]
        rw [ids_append, ids_append]
        rfl
      rw [e0] at nd fresh
      rw [ids_append]
      show (ids (a.take i) ++ next :: ids (a.drop (i + 1))).Nodup
      rw [List.perm_middle.nodup_iff, List.nodup_cons]
      exact ⟨fun h => Nat.lt_irrefl _ (fresh next h), nd⟩
  | release id =>
    have e : ids (ideal next a (.release id)) = (ids a).filter (· ≠ id) := by
      have := congrArg (List.map Prod.snd) (listed_release 0 id a)
      rw [listed_ids] at this
      refine this.trans ?_
      rw [ids, ← listed_ids 0, List.filter_map]
      rfl
    rw [e]
    exact nd.filter _
  | set i x =>
    have hi : i < a.length := legal
    have hg : a[i]? = some a[i] := List.getElem?_eq_getElem hi
    have := congrArg (List.map Prod.snd) (listed_set 0 i a a[i] (x, a[i].2) hg rfl)
    rw [listed_ids, listed_ids] at this
    simp only [ideal, hg]
    show (List.filterMap _ _).Nodup
    rw [this]
    exact nd
  | insert i x =>
    have := ids_splice (a := a) (b := [bare x]) i (by simp [bare])
    show (ids (a.take i ++ ([bare x] ++ a.drop i))).Nodup
    rwa [this]
  | insertCopies i n x =>
    have := ids_splice (a := a) (b := List.replicate n (bare x)) i (by intro c hc; rw [List.eq_of_mem_replicate hc]; rfl)
    show (ids (a.take i ++ (List.replicate n (bare x) ++ a.drop i))).Nodup
    rwa [this]
  | insertArray i xs =>
    have := ids_splice (a := a) (b := xs.map bare) i (by intro c hc; obtain ⟨y, _, rfl⟩ := List.mem_map.1 hc; rfl)
    show (ids (a.take i ++ (xs.map bare ++ a.drop i))).Nodup
    rwa [this]
  | erase i => exact nd.sublist (ids_cut (by omega))
  | eraseRange first last => exact nd.sublist (ids_cut legal.1)
  | clear => exact List.nodup_nil
  | pushBack x =>
    show (ids (a ++ [bare x])).Nodup
    rw [ids_append, ids_bare (b := [bare x]) (by simp [bare]), List.append_nil]
    exact nd
  | pushFront x => exact nd
  | popBack => exact nd.sublist (List.Sublist.filterMap _ (List.dropLast_sublist a))
  | popFront => exact nd.sublist (List.Sublist.filterMap _ (List.tail_sublist a))
  | resize n x =>
    show (ids (a.take n ++ List.replicate (n - a.length) (bare x))).Nodup
    rw [ids_append, ids_bare (b := List.replicate _ _) (by intro c hc; rw [List.eq_of_mem_replicate hc]; rfl), List.append_nil]
    exact nd.sublist (List.Sublist.filterMap _ (List.take_sublist n a))
  | resizeWith n x =>
    show (ids (a.take n ++ List.replicate (n - a.length) (bare x))).Nodup
    rw [ids_append, ids_bare (b := List.replicate _ _) (by intro c hc; rw [List.eq_of_mem_replicate hc]; rfl), List.append_nil]
    exact nd.sublist (List.Sublist.filterMap _ (List.take_sublist n a))

/-- The invariant of histories. -/
structure Good (s : State α) (a : List (Cell α)) : Prop where
  rep : Rep s a
  fresh : ∀ id, some id ∈ a.map Prod.snd → id < s.next
  nodup : (ids a).Nodup

theorem good_step {s s' : State α} {a : List (Cell α)} {op : Op α} (g : Good s a) (legal : Legal s.values.length op) (ns : NoShrink s.values.length op)
    (e : step s op = some s') : Good s' (ideal s.next a op) ∧ (Pointed s → Tame s a op → Pointed s') := by
  obtain ⟨s1, e1, ok⟩ := step_ok g.rep legal ns
  rw [e] at e1
  cases e1
  refine ⟨⟨ok.rep, fun id h => ?_, ideal_nodup (by rw [g.rep.values] at legal; simpa using legal) (fun id h => g.fresh id (mem_ids.1 h)) g.nodup⟩, ok.pointed⟩
  rcases ok.ids id h with q | ⟨q, r⟩
  · have := g.fresh id q
    have := ok.next
    omega
  · omega

theorem good_empty : Good (State.empty : State α) [] := ⟨⟨rfl, rfl, by simp⟩, by simp, by simp [ids]⟩

theorem reached_good {s : State α} {a : List (Cell α)} (h : Reached s a) : Good s a := by
  induction h with
  | start => exact good_empty
  | step _ l n e ih => exact (good_step ih l n e).1

theorem tame_good {s : State α} {a : List (Cell α)} (h : TameReached s a) : Good s a ∧ Pointed s := by
  induction h with
  | start => exact ⟨good_empty, by simp [Pointed, State.empty]⟩
  | step _ l n t e ih => exact ⟨(good_step ih.1 l n e).1, (good_step ih.1 l n e).2 ih.2 t⟩

instance (n : Nat) (op : Op α) : Decidable (Legal n op) := by cases op <;> unfold Legal <;> infer_instance

instance (n : Nat) (op : Op α) : Decidable (NoShrink n op) := by cases op <;> unfold NoShrink <;> infer_instance

/-- A history with the ideal list beside it. -/
def history (p : State α × List (Cell α)) : List (Op α) → Option (State α × List (Cell α))
  | [] => some p
  | op :: ops =>
    if Legal p.1.values.length op ∧ NoShrink p.1.values.length op then (step p.1 op).bind fun s => history (s, ideal p.1.next p.2 op) ops else none

theorem history_reached {p q : State α × List (Cell α)} {ops : List (Op α)} (h : Reached p.1 p.2) (e : history p ops = some q) : Reached q.1 q.2 := by
  induction ops generalizing p with
  | nil =>
    cases e
    exact h
  | cons op ops ih =>
    simp only [history] at e
    split_ifs at e with l
    obtain ⟨s, e1, e2⟩ := Option.bind_eq_some_iff.1 e
    exact ih (Reached.step h l.1 l.2 e1) e2

instance (a : List (Cell α)) (i j : Nat) : Decidable (Between a i j) := by unfold Between; infer_instance

instance [DecidableEq α] (s : State α) (a : List (Cell α)) (op : Op α) : Decidable (Tame s a op) := by cases op <;> unfold Tame <;> infer_instance

/-- A history without changes between helpers. -/
def tameHistory [DecidableEq α] (p : State α × List (Cell α)) : List (Op α) → Option (State α × List (Cell α))
  | [] => some p
  | op :: ops =>
    if Legal p.1.values.length op ∧ NoShrink p.1.values.length op ∧ Tame p.1 p.2 op then
      (step p.1 op).bind fun s => tameHistory (s, ideal p.1.next p.2 op) ops
    else none

theorem tameHistory_reached [DecidableEq α] {p q : State α × List (Cell α)} {ops : List (Op α)} (h : TameReached p.1 p.2)
    (e : tameHistory p ops = some q) : TameReached q.1 q.2 := by
  induction ops generalizing p with
  | nil =>
    cases e
    exact h
  | cons op ops ih =>
    simp only [tameHistory] at e
    split_ifs at e with l
    obtain ⟨s, e1, e2⟩ := Option.bind_eq_some_iff.1 e
    exact ih (TameReached.step h l.1 l.2.1 l.2.2 e1) e2

end Verif.FAnimList
