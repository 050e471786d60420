import Verif.Track
import Mathlib.Data.List.Basic
import Mathlib.Data.List.Nodup
import Mathlib.Data.List.Count
import Mathlib.Tactic.Common

/-!
# Tracked pointers and lists: histories and the invariant
-/

namespace Verif.FTrack

/-- The pointers tracker `t` holds; none when it is not alive. -/
def held (w : World) (t : Nat) : List Ptr := ((w.trks t).map Content.items).getD []

/-- Object `o` is alive. -/
def Alive (w : World) (o : Nat) : Prop := (w.objs o).isSome

/-- A pointer an API user may pass: NULL or a pointer to a live object. -/
def Valid (w : World) : Ptr → Prop
  | none => True
  | some o => Alive w o

/-- The operations. -/
inductive Op where
  | create (o : Nat) | release (o : Nat)
  | newPtr (t : Nat) (p : Ptr) | deletePtr (t : Nat) | assign (t : Nat) (p : Ptr) | assignFrom (t s : Nat)
  | newList (t : Nat) | deleteList (t : Nat) | clear (t : Nat)
  | pushBack (t : Nat) (p : Ptr) | insert (t k : Nat) (p : Ptr) | insertAll (t k : Nat) (qs : List Ptr)
  | eraseAt (t k : Nat) | eraseRange (t a b : Nat) | erase (t : Nat) (p : Ptr) | popBack (t : Nat) | popFront (t : Nat)
  | releaseFrom (t o : Nat)

/-- Run an operation. -/
def run (w : World) : Op → Option World
  | .create o => create w o
  | .release o => release w o
  | .newPtr t p => newPtr w t p
  | .deletePtr t => deletePtr w t
  | .assign t p => assign w t p
  | .assignFrom t s => assignFrom w t s
  | .newList t => newList w t
  | .deleteList t => deleteList w t
  | .clear t => clear w t
  | .pushBack t p => pushBack w t p
  | .insert t k p => insert w t k p
  | .insertAll t k qs => insertAll w t k qs
  | .eraseAt t k => eraseAt w t k
  | .eraseRange t a b => eraseRange w t a b
  | .erase t p => erase w t p
  | .popBack t => popBack w t
  | .popFront t => popFront w t
  | .releaseFrom t o => releaseFrom w t o

/-- What the caller of an operation has to see to: new objects and trackers go to free addresses, the other objects, trackers and list
positions named exist, pointers passed are valid, and a tracked list is not given an object it already holds. -/
def Legal (w : World) : Op → Prop
  | .create o => w.objs o = none
  | .release o => Alive w o
  | .newPtr t p => w.trks t = none ∧ Valid w p
  | .deletePtr t => ∃ q, w.trks t = some (.ptr q)
  | .assign t p => (∃ q, w.trks t = some (.ptr q)) ∧ Valid w p
  | .assignFrom t s => (∃ q, w.trks t = some (.ptr q)) ∧ ∃ q, w.trks s = some (.ptr q)
  | .newList t => w.trks t = none
  | .deleteList t => ∃ ps, w.trks t = some (.list ps)
  | .clear t => ∃ ps, w.trks t = some (.list ps)
  | .pushBack t p => (∃ ps, w.trks t = some (.list ps)) ∧ Valid w p ∧ (p = none ∨ p ∉ held w t)
  | .insert t k p => (∃ ps, w.trks t = some (.list ps) ∧ k ≤ ps.length) ∧ Valid w p ∧ (p = none ∨ p ∉ held w t)
  | .insertAll t k qs =>
    (∃ ps, w.trks t = some (.list ps) ∧ k ≤ ps.length) ∧ (∀ p ∈ qs, Valid w p ∧ (p = none ∨ p ∉ held w t)) ∧
      ∀ o, qs.count (some o) ≤ 1
  | .eraseAt t k => ∃ ps, w.trks t = some (.list ps) ∧ k < ps.length
  | .eraseRange t a b => ∃ ps, w.trks t = some (.list ps) ∧ a ≤ b ∧ b ≤ ps.length
  | .erase t _ => ∃ ps, w.trks t = some (.list ps)
  | .popBack t => ∃ ps, w.trks t = some (.list ps)
  | .popFront t => ∃ ps, w.trks t = some (.list ps)
  | .releaseFrom t _ => ∃ ps, w.trks t = some (.list ps)

/-- The worlds that can be reached by legal operations. -/
inductive Reach : World → Prop
  | empty : Reach empty
  | step {w w'} (op : Op) : Reach w → Legal w op → run w op = some w' → Reach w'

/-- `o` knows that `t` tracks it. -/
def knows (w : World) (o t : Nat) : Prop := ∃ ts, w.objs o = some ts ∧ t ∈ ts

/-- Pointers and lists of trackers agree, without duplicates. -/
structure Inv (w : World) : Prop where
  link : ∀ t o, some o ∈ held w t ↔ knows w o t
  nodup : ∀ o ts, w.objs o = some ts → ts.Nodup
  once : ∀ t o, (held w t).count (some o) ≤ 1

theorem held_put_same (w : World) (t : Nat) (c : Content) : held (put w t (some c)) t = c.items := by simp [held, put]

theorem held_put_none (w : World) (t : Nat) : held (put w t none) t = [] := by simp [held, put]

theorem held_put_ne (w : World) {t s : Nat} (c) (h : s ≠ t) : held (put w t c) s = held w s := by simp [held, put, h]

theorem track_spec {w : World} {t : Nat} {p : Ptr} (hn : ∀ o ts, w.objs o = some ts → ts.Nodup) (hp : Valid w p) :
    ∃ w', track w t p = some w' ∧ w'.trks = w.trks ∧ (∀ o, Alive w' o ↔ Alive w o) ∧ (∀ o ts, w'.objs o = some ts → ts.Nodup) ∧
      ∀ o s, knows w' o s ↔ knows w o s ∨ (s = t ∧ p = some o) := by
  cases p with
  | none => exact ⟨w, rfl, rfl, fun _ => Iff.rfl, hn, by simp⟩
  | some x =>
    obtain ⟨ts, hts⟩ := Option.isSome_iff_exists.1 hp
    unfold track
    simp only [hts, Option.bind_some]
    by_cases ht : t ∈ ts
    · rw [if_pos ht]
      refine ⟨w, rfl, rfl, fun _ => Iff.rfl, hn, fun o s => ?_⟩
      constructor
      · exact Or.inl
      · rintro (h | ⟨h1, h2⟩)
        · exact h
        · cases h2; subst h1; exact ⟨ts, hts, ht⟩
    · rw [if_neg ht]
      refine ⟨_, rfl, rfl, fun o => ?_, fun o us => ?_, fun o s => ?_⟩
      · by_cases ho : o = x
        · subst ho; simp [Alive, hts]
        · simp [Alive, ho]
      · by_cases ho : o = x
        · subst ho
          simp only [Function.update_self, Option.some.injEq]
          rintro rfl
          have := hn _ _ hts
          rw [List.nodup_append]
          refine ⟨this, by simp, ?_⟩
          intro a ha b hb
          simp at hb
          rintro rfl
          exact ht (hb ▸ ha)
        · simp only [ne_eq, ho, not_false_eq_true, Function.update_of_ne]
          exact hn o us
      · by_cases ho : o = x
        · subst ho
          simp [knows, hts]
        · have ho' : ¬ (x = o) := fun h => ho h.symm
          simp [knows, ho, ho']

theorem untrack_spec {w : World} {t : Nat} {p : Ptr} (hn : ∀ o ts, w.objs o = some ts → ts.Nodup) (hp : Valid w p) :
    ∃ w', untrack w t p = some w' ∧ w'.trks = w.trks ∧ (∀ o, Alive w' o ↔ Alive w o) ∧ (∀ o ts, w'.objs o = some ts → ts.Nodup) ∧
      ∀ o s, knows w' o s ↔ knows w o s ∧ ¬ (s = t ∧ p = some o) := by
  cases p with
  | none => exact ⟨w, rfl, rfl, fun _ => Iff.rfl, hn, by simp⟩
  | some x =>
    obtain ⟨ts, hts⟩ := Option.isSome_iff_exists.1 hp
    have hd := hn _ _ hts
    unfold untrack
    simp only [hts, Option.bind_some]
    refine ⟨_, rfl, rfl, fun o => ?_, fun o us => ?_, fun o s => ?_⟩
    · by_cases ho : o = x
      · subst ho; simp [Alive, hts]
      · simp [Alive, ho]
    · by_cases ho : o = x
      · subst ho
        simp only [Function.update_self, Option.some.injEq]
        rintro rfl
        exact hd.erase _
      · simp only [ne_eq, ho, not_false_eq_true, Function.update_of_ne]
        exact hn o us
    · by_cases ho : o = x
      · subst ho
        simp [knows, hts, hd.mem_erase_iff, and_comm]
      · have ho' : ¬ (x = o) := fun h => ho h.symm
        simp [knows, ho, ho']

theorem valid_congr {w w' : World} (h : ∀ o, Alive w' o ↔ Alive w o) (p : Ptr) : Valid w' p ↔ Valid w p := by
  cases p with
  | none => exact Iff.rfl
  | some o => exact h o

theorem trackAll_spec (t : Nat) (ps : List Ptr) : ∀ {w : World}, (∀ o ts, w.objs o = some ts → ts.Nodup) → (∀ p ∈ ps, Valid w p) →
    ∃ w', trackAll w t ps = some w' ∧ w'.trks = w.trks ∧ (∀ o, Alive w' o ↔ Alive w o) ∧ (∀ o ts, w'.objs o = some ts → ts.Nodup) ∧
      ∀ o s, knows w' o s ↔ knows w o s ∨ (s = t ∧ some o ∈ ps) := by
  induction ps with
  | nil => exact fun {w} hn _ => ⟨w, rfl, rfl, fun _ => Iff.rfl, hn, by simp⟩
  | cons p ps ih =>
    intro w hn hv
    obtain ⟨w1, h1, ht1, ha1, hn1, hk1⟩ := track_spec (t := t) hn (hv p (by simp))
    obtain ⟨w2, h2, ht2, ha2, hn2, hk2⟩ := ih hn1 (fun q hq => (valid_congr ha1 q).2 (hv q (by simp [hq])))
    refine ⟨w2, by simp [trackAll, h1, h2], ht2.trans ht1, fun o => (ha2 o).trans (ha1 o), hn2, fun o s => ?_⟩
    rw [hk2, hk1, List.mem_cons]
    constructor
    · rintro ((h | ⟨h, h'⟩) | ⟨h, h'⟩)
      · exact .inl h
      · exact .inr ⟨h, .inl h'.symm⟩
      · exact .inr ⟨h, .inr h'⟩
    · rintro (h | ⟨h, h' | h'⟩)
      · exact .inl (.inl h)
      · exact .inl (.inr ⟨h, h'.symm⟩)
      · exact .inr ⟨h, h'⟩

theorem untrackAll_spec (t : Nat) (ps : List Ptr) : ∀ {w : World}, (∀ o ts, w.objs o = some ts → ts.Nodup) → (∀ p ∈ ps, Valid w p) →
    ∃ w', untrackAll w t ps = some w' ∧ w'.trks = w.trks ∧ (∀ o, Alive w' o ↔ Alive w o) ∧ (∀ o ts, w'.objs o = some ts → ts.Nodup) ∧
      ∀ o s, knows w' o s ↔ knows w o s ∧ ¬ (s = t ∧ some o ∈ ps) := by
  induction ps with
  | nil => exact fun {w} hn _ => ⟨w, rfl, rfl, fun _ => Iff.rfl, hn, by simp⟩
  | cons p ps ih =>
    intro w hn hv
    obtain ⟨w1, h1, ht1, ha1, hn1, hk1⟩ := untrack_spec (t := t) hn (hv p (by simp))
    obtain ⟨w2, h2, ht2, ha2, hn2, hk2⟩ := ih hn1 (fun q hq => (valid_congr ha1 q).2 (hv q (by simp [hq])))
    refine ⟨w2, by simp [untrackAll, h1, h2], ht2.trans ht1, fun o => (ha2 o).trans (ha1 o), hn2, fun o s => ?_⟩
    rw [hk2, hk1, List.mem_cons]
    constructor
    · rintro ⟨⟨h, h1⟩, h2⟩
      refine ⟨h, ?_⟩
      rintro ⟨h3, h4 | h4⟩
      · exact h1 ⟨h3, h4.symm⟩
      · exact h2 ⟨h3, h4⟩
    · rintro ⟨h, h1⟩
      exact ⟨⟨h, fun h2 => h1 ⟨h2.1, .inl h2.2.symm⟩⟩, fun h2 => h1 ⟨h2.1, .inr h2.2⟩⟩

theorem held_valid {w : World} (h : Inv w) (t : Nat) (p : Ptr) (hp : p ∈ held w t) : Valid w p := by
  cases p with
  | none => trivial
  | some o =>
    obtain ⟨ts, h1, -⟩ := (h.link t o).1 hp
    simp [Valid, Alive, h1]

theorem held_congr {w w' : World} (h : w'.trks = w.trks) (t : Nat) : held w' t = held w t := by simp [held, h]

/-- All operations on trackers stop tracking some pointers they hold, start tracking others and store the new pointers. -/
theorem change_inv {w : World} (h : Inv w) (t : Nat) (gone new : List Ptr) (c : Option Content) (l : List Ptr) (hcl : (c.map Content.items).getD [] = l)
    (hg : ∀ p ∈ gone, p ∈ held w t) (hv : ∀ p ∈ new, Valid w p)
    (hi : ∀ o, some o ∈ l ↔
      (some o ∈ held w t ∧ some o ∉ gone) ∨ some o ∈ new)
    (hc : ∀ o, l.count (some o) ≤ 1) :
    ∃ w1 w2, untrackAll w t gone = some w1 ∧ trackAll w1 t new = some w2 ∧ Inv (put w2 t c) ∧
      (∀ o, Alive (put w2 t c) o ↔ Alive w o) ∧ (∀ s, s ≠ t → (put w2 t c).trks s = w.trks s) := by
  obtain ⟨w1, h1, ht1, ha1, hn1, hk1⟩ := untrackAll_spec t gone h.nodup (fun p hp => held_valid h t p (hg p hp))
  obtain ⟨w2, h2, ht2, ha2, hn2, hk2⟩ := trackAll_spec t new hn1 (fun p hp => (valid_congr ha1 p).2 (hv p hp))
  have hht : held (put w2 t c) t = l := by
    rw [← hcl]
    cases c with
    | none => exact held_put_none _ _
    | some c => exact held_put_same _ _ _
  have hhs : ∀ s, s ≠ t → held (put w2 t c) s = held w s := fun s hs => by
    rw [held_put_ne _ _ hs, held_congr (ht2.trans ht1)]
  refine ⟨w1, w2, h1, h2, ⟨fun s o => ?_, hn2, fun s o => ?_⟩, fun o => (ha2 o).trans (ha1 o), fun s hs => ?_⟩
  · have hk : knows (put w2 t c) o s ↔ knows w2 o s := Iff.rfl
    rw [hk, hk2, hk1]
    by_cases hs : s = t
    · subst hs
      rw [hht, hi, h.link]
      simp
    · rw [hhs s hs, h.link]
      simp [hs]
  · by_cases hs : s = t
    · subst hs; rw [hht]; exact hc o
    · rw [hhs s hs]; exact h.once s o
  · simp [put, hs, ht2, ht1]

theorem track_put (w : World) (t s : Nat) (c p) : track (put w t c) s p = (track w s p).map fun w => put w t c := by
  cases p with
  | none => rfl
  | some o =>
    simp only [track, put]
    cases w.objs o with
    | none => rfl
    | some ts => by_cases h : s ∈ ts <;> simp [h]

theorem trackAll_one (w : World) (t : Nat) (p : Ptr) : trackAll w t [p] = track w t p := by
  simp only [trackAll]; cases track w t p <;> rfl

theorem untrackAll_one (w : World) (t : Nat) (p : Ptr) : untrackAll w t [p] = untrack w t p := by
  simp only [untrackAll]; cases untrack w t p <;> rfl

theorem held_of {w : World} {t : Nat} {c : Content} (h : w.trks t = some c) : held w t = c.items := by simp [held, h]

theorem held_free {w : World} {t : Nat} (h : w.trks t = none) : held w t = [] := by simp [held, h]

theorem getPtr_of {w : World} {t : Nat} {p} (h : w.trks t = some (.ptr p)) : getPtr w t = some p := by simp [getPtr, h]

theorem getList_of {w : World} {t : Nat} {p} (h : w.trks t = some (.list p)) : getList w t = some p := by simp [getList, h]

/-- A tracker's pointers once object `o` is gone: a pointer to it is NULL, a list holds the other pointers in the same order. -/
def without (o : Nat) : Content → Content
  | .ptr p => .ptr (if p = some o then none else p)
  | .list ps => .list (ps.filter (· ≠ some o))

theorem onReleased_spec {w : World} (o t : Nat) (c : Content) (hc : w.trks t = some c) (h1 : ∀ t o, (held w t).count (some o) ≤ 1) :
    ∃ w', onReleased w o t = some w' ∧ w'.objs = w.objs ∧ (∀ s, s ≠ t → w'.trks s = w.trks s) ∧
      ∃ c', w'.trks t = some c' ∧ (∀ x, some x ∈ c'.items ↔ some x ∈ c.items ∧ x ≠ o) ∧
        (∀ x, c'.items.count (some x) ≤ 1) ∧
        c' = without o c := by
  have hd := h1 t
  rw [held_of hc] at hd
  cases c with
  | ptr p =>
    simp only [onReleased, hc, Option.bind_some, without]
    by_cases hp : p = some o
    · rw [if_pos hp]
      refine ⟨_, rfl, rfl, fun s hs => by simp [put, hs], .ptr none, by simp [put], fun x => ?_, fun x => by simp [Content.items], by simp [hp]⟩
      simp only [Content.items, List.mem_singleton, hp]
      constructor
      · intro h; cases h
      · rintro ⟨h, h'⟩; cases h; exact absurd rfl h'
    · rw [if_neg hp]
      refine ⟨w, rfl, rfl, fun _ _ => rfl, .ptr p, hc, fun x => ?_, hd, by simp [hp]⟩
      simp only [Content.items, List.mem_singleton]
      constructor
      · intro h; refine ⟨h, ?_⟩; rintro rfl; exact hp h.symm
      · exact And.left
  | list ps =>
    have hfil : ps.erase (some o) = ps.filter (· ≠ some o) := by
      simp only [Content.items] at hd
      clear hc
      induction ps with
      | nil => rfl
      | cons q qs ih =>
        by_cases hq : q = some o
        · subst hq
          have h2 := hd o
          have h3 : some o ∉ qs := by
            intro h
            have := List.count_pos_iff.2 h
            simp [Content.items] at h2
            omega
          rw [List.erase_cons_head, List.filter_cons_of_neg (by simp), List.filter_eq_self.2]
          intro a ha
          simp only [ne_eq, decide_eq_true_eq]
          rintro rfl
          exact h3 ha
        · rw [List.erase_cons_tail (by simpa using hq), List.filter_cons_of_pos (by simpa using hq), ih]
          intro x
          refine Nat.le_trans ?_ (hd x)
          simp [List.count_cons]
    simp only [onReleased, hc, Option.bind_some, without]
    by_cases hp : some o ∈ ps
    · rw [if_pos hp]
      refine ⟨_, rfl, rfl, fun s hs => by simp [put, hs], .list (ps.erase (some o)), by simp [put], fun x => ?_, fun x => ?_, by simp only [hfil]⟩
      · simp only [Content.items, hfil, List.mem_filter]
        simp
      · exact Nat.le_trans ((List.erase_sublist).count_le _) (hd x)
    · rw [if_neg hp]
      refine ⟨w, rfl, rfl, fun _ _ => rfl, .list ps, hc, fun x => ?_, hd, ?_⟩
      · simp only [Content.items]
        constructor
        · intro h; refine ⟨h, ?_⟩; rintro rfl; exact hp h
        · exact And.left
      · simp only [Content.list.injEq]
        rw [List.filter_eq_self.2]
        intro a ha
        simp only [ne_eq, decide_eq_true_eq]
        rintro rfl
        exact hp ha

theorem without_items (o x : Nat) (c : Content) : some x ∈ (without o c).items ↔ some x ∈ c.items ∧ x ≠ o := by
  cases c with
  | ptr p =>
    simp only [without, Content.items, List.mem_singleton]
    by_cases hp : p = some o
    · rw [if_pos hp, hp]
      constructor
      · intro h; cases h
      · rintro ⟨h, h'⟩; cases h; exact absurd rfl h'
    · rw [if_neg hp]
      constructor
      · intro h; refine ⟨h, ?_⟩; rintro rfl; exact hp h.symm
      · exact And.left
  | list ps => simp [without, Content.items, List.mem_filter]

theorem without_id (o : Nat) (c : Content) (h : some o ∉ c.items) : without o c = c := by
  cases c with
  | ptr p =>
    simp only [Content.items, List.mem_singleton] at h
    simp only [without]
    rw [if_neg (fun h' => h h'.symm)]
  | list ps =>
    simp only [without, Content.items] at *
    rw [List.filter_eq_self.2]
    intro a ha
    simp only [ne_eq, decide_eq_true_eq]
    rintro rfl
    exact h ha

theorem notifyAll_spec (o : Nat) (ts : List Nat) : ∀ {w : World}, ts.Nodup → (∀ t ∈ ts, ∃ c, w.trks t = some c) →
    (∀ t o, (held w t).count (some o) ≤ 1) →
    ∃ w', notifyAll w o ts = some w' ∧ w'.objs = w.objs ∧
      ∀ t, w'.trks t = if t ∈ ts then (w.trks t).map (without o) else w.trks t := by
  induction ts with
  | nil => exact fun {w} _ _ _ => ⟨w, rfl, rfl, by simp⟩
  | cons t ts ih =>
    intro w hd ha h1
    obtain ⟨hd1, hd2⟩ := List.nodup_cons.1 hd
    obtain ⟨c, hc⟩ := ha t (by simp)
    obtain ⟨w1, hw1, ho1, hs1, c', hc', -, h5, h6⟩ := onReleased_spec o t c hc h1
    have h6' : c' = without o c := h6
    obtain ⟨w2, hw2, ho2, ht2⟩ := ih (w := w1) hd2 (fun s hs => by
        have : s ≠ t := by rintro rfl; exact hd1 hs
        rw [hs1 s this]
        exact ha s (by simp [hs])) (fun s x => by
        by_cases hs : s = t
        · subst hs; rw [held_of hc']; exact h5 x
        · have : held w1 s = held w s := by simp [held, hs1 s hs]
          rw [this]; exact h1 s x)
    refine ⟨w2, by simp [notifyAll, hw1, hw2], ho2.trans ho1, fun s => ?_⟩
    rw [ht2]
    by_cases hs : s = t
    · subst hs
      simp [hd1, hc, hc', h6']
    · simp [hs, hs1 s hs]

/-- The loop of `Detach` succeeds, and afterwards every tracker holds what it held, without the object. -/
theorem release_spec {w : World} (h : Inv w) (o : Nat) (ha : Alive w o) :
    ∃ w', release w o = some w' ∧ (∀ x, w'.objs x = if x = o then none else w.objs x) ∧
      ∀ t, w'.trks t = (w.trks t).map (without o) := by
  obtain ⟨ts, hts⟩ := Option.isSome_iff_exists.1 ha
  obtain ⟨w1, h1, h2, h3⟩ := notifyAll_spec o ts (w := w) (h.nodup _ _ hts) (fun t ht => by
    have := (h.link t o).2 ⟨ts, hts, ht⟩
    unfold held at this
    cases hc : w.trks t with
    | none => simp [hc] at this
    | some c => exact ⟨c, rfl⟩) h.once
  refine ⟨{ w1 with objs := Function.update w1.objs o none }, by simp [release, hts, h1], fun x => ?_, fun t => ?_⟩
  · by_cases hx : x = o
    · simp [hx]
    · simp [hx, h2]
  · rw [h3]
    by_cases ht : t ∈ ts
    · simp [ht]
    · simp only [ht, if_false]
      cases hc : w.trks t with
      | none => rfl
      | some c =>
        have : some o ∉ held w t := fun hh => by
          obtain ⟨us, h4, h5⟩ := (h.link t o).1 hh
          rw [hts] at h4; cases h4
          exact ht h5
        rw [held_of hc] at this
        simp [without_id o c this]

theorem without_count (o x : Nat) (c : Content) (h : c.items.count (some x) ≤ 1) : (without o c).items.count (some x) ≤ 1 := by
  cases c with
  | ptr p => simp only [without, Content.items]; exact Nat.le_trans List.count_le_length (by simp)
  | list ps => exact Nat.le_trans ((List.filter_sublist).count_le _) h

theorem release_inv {w w' : World} (h : Inv w) (o : Nat) (ho : ∀ x, w'.objs x = if x = o then none else w.objs x)
    (ht : ∀ t, w'.trks t = (w.trks t).map (without o)) : Inv w' := by
  have hh : ∀ t x, some x ∈ held w' t ↔ some x ∈ held w t ∧ x ≠ o := fun t x => by
    unfold held
    rw [ht]
    cases w.trks t with
    | none => simp
    | some c => exact without_items o x c
  refine ⟨fun t x => ?_, fun x ts => ?_, fun t x => ?_⟩
  · rw [hh, h.link]
    by_cases hx : x = o
    · simp [knows, ho, hx]
    · simp [knows, ho, hx]
  · rw [ho]
    by_cases hx : x = o
    · simp [hx]
    · simp only [hx, if_false]; exact h.nodup x ts
  · have h1 := h.once t x
    unfold held at h1 ⊢
    rw [ht]
    cases hc : w.trks t with
    | none => simp
    | some c => rw [hc] at h1; exact without_count o x c h1

theorem take_cons_drop {α} {l : List α} {k : Nat} {p : α} (h : l[k]? = some p) : l = l.take k ++ p :: l.drop (k + 1) := by
  obtain ⟨hk, rfl⟩ := List.getElem?_eq_some_iff.1 h
  rw [List.getElem_cons_drop, List.take_append_drop]

theorem count_split {l a b : List Ptr} {p : Ptr} (hl : l = a ++ p :: b) (h : ∀ o, l.count (some o) ≤ 1) (o : Nat) :
    some o ∈ a ++ b ↔ some o ∈ l ∧ some o ≠ p := by
  subst hl
  have h2 := h o
  simp only [List.count_append, List.count_cons] at h2
  constructor
  · intro hm
    refine ⟨by simp only [List.mem_append, List.mem_cons] at *; tauto, ?_⟩
    rintro rfl
    have : 0 < (a ++ b).count (some o) := List.count_pos_iff.2 hm
    simp only [List.count_append] at this
    simp at h2
    omega
  · rintro ⟨hm, hne⟩
    simp only [List.mem_append, List.mem_cons] at *
    tauto

/-- Every legal operation succeeds and keeps the invariant. -/
theorem run_inv {w : World} (h : Inv w) (op : Op) (hl : Legal w op) : ∃ w', run w op = some w' ∧ Inv w' := by
  cases op with
  | create o =>
    have hl' : w.objs o = none := hl
    refine ⟨{ w with objs := Function.update w.objs o (some []) }, by simp only [run, create]; rw [if_pos hl'], ⟨fun t x => ?_, fun x ts => ?_, h.once⟩⟩
    · refine (h.link t x).trans ?_
      by_cases hx : x = o
      · subst hx; simp [knows, hl']
      · simp [knows, hx]
    · by_cases hx : x = o
      · subst hx; simp only [Function.update_self, Option.some.injEq]; rintro rfl; simp
      · simp only [ne_eq, hx, not_false_eq_true, Function.update_of_ne]; exact h.nodup x ts
  | release o =>
    obtain ⟨w', h1, h2, h3⟩ := release_spec h o hl
    exact ⟨w', h1, release_inv h o h2 h3⟩
  | newPtr t p =>
    obtain ⟨w1, w2, h1, h2, h3, -⟩ := change_inv h t [] [p] (some (.ptr p)) [p] rfl (by simp) (by simpa using hl.2) (fun o => by
      simp [held_free hl.1, Content.items]) (fun o => Nat.le_trans List.count_le_length (by simp [Content.items]))
    simp only [untrackAll, Option.some.injEq] at h1
    subst h1
    rw [trackAll_one] at h2
    exact ⟨_, by simp only [run, newPtr]; rw [if_pos hl.1, track_put, h2]; rfl, h3⟩
  | deletePtr t =>
    obtain ⟨q, hq⟩ := hl
    obtain ⟨w1, w2, h1, h2, h3, -⟩ := change_inv h t [q] [] none [] rfl (by simp [held_of hq, Content.items]) (by simp) (fun o => by
      simp [held_of hq, Content.items]) (by simp)
    simp only [trackAll, Option.some.injEq] at h2
    subst h2
    rw [untrackAll_one] at h1
    exact ⟨_, by simp only [run, deletePtr, getPtr_of hq, Option.bind_some, h1], h3⟩
  | assign t p =>
    obtain ⟨⟨q, hq⟩, hv⟩ := hl
    obtain ⟨w1, w2, h1, h2, h3, -⟩ := change_inv h t [q] [p] (some (.ptr p)) [p] rfl (by simp [held_of hq, Content.items]) (by simpa using hv)
      (fun o => by simp [held_of hq, Content.items]) (fun o => Nat.le_trans List.count_le_length (by simp [Content.items]))
    rw [untrackAll_one] at h1
    rw [trackAll_one] at h2
    exact ⟨_, by simp only [run, assign, getPtr_of hq, Option.bind_some, h1, track_put, h2, Option.map_some], h3⟩
  | assignFrom t s =>
    obtain ⟨⟨q, hq⟩, p, hp⟩ := hl
    have hv : Valid w p := held_valid h s p (by simp [held_of hp, Content.items])
    obtain ⟨w1, w2, h1, h2, h3, -⟩ := change_inv h t [q] [p] (some (.ptr p)) [p] rfl (by simp [held_of hq, Content.items]) (by simpa using hv)
      (fun o => by simp [held_of hq, Content.items]) (fun o => Nat.le_trans List.count_le_length (by simp [Content.items]))
    rw [untrackAll_one] at h1
    rw [trackAll_one] at h2
    exact ⟨_, by simp only [run, assignFrom, assign, getPtr_of hq, getPtr_of hp, Option.bind_some, h1, track_put, h2, Option.map_some], h3⟩
  | newList t =>
    have hl' : w.trks t = none := hl
    obtain ⟨w1, w2, h1, h2, h3, -⟩ := change_inv h t [] [] (some (.list [])) [] rfl (by simp) (by simp)
      (fun o => by simp [held_free hl', Content.items]) (by simp [Content.items])
    simp only [untrackAll, trackAll, Option.some.injEq] at h1 h2
    subst h1 h2
    exact ⟨_, by simp only [run, newList]; rw [if_pos hl'], h3⟩
  | deleteList t =>
    obtain ⟨ps, hp⟩ := hl
    obtain ⟨w1, w2, h1, h2, h3, -⟩ := change_inv h t ps [] none [] rfl (by simp [held_of hp, Content.items]) (by simp)
      (fun o => by simp [held_of hp, Content.items]) (by simp)
    simp only [trackAll, Option.some.injEq] at h2
    subst h2
    refine ⟨put (put w1 t (some (.list []))) t none, by simp only [run, deleteList, clear, getList_of hp, Option.bind_some, h1], ?_⟩
    have : put (put w1 t (some (.list []))) t none = put w1 t none := by simp [put]
    rw [this]; exact h3
  | clear t =>
    obtain ⟨ps, hp⟩ := hl
    obtain ⟨w1, w2, h1, h2, h3, -⟩ := change_inv h t ps [] (some (.list [])) [] rfl (by simp [held_of hp, Content.items]) (by simp)
      (fun o => by simp [held_of hp, Content.items]) (by simp [Content.items])
    simp only [trackAll, Option.some.injEq] at h2
    subst h2
    exact ⟨_, by simp only [run, clear, getList_of hp, Option.bind_some, h1], h3⟩
  | pushBack t p =>
    obtain ⟨⟨ps, hp⟩, hv, hf⟩ := hl
    rw [held_of hp] at hf
    have ho := h.once t
    rw [held_of hp] at ho
    obtain ⟨w1, w2, h1, h2, h3, -⟩ := change_inv h t [] [p] (some (.list (ps ++ [p]))) (ps ++ [p]) rfl (by simp) (by simpa using hv)
      (fun o => by simp [held_of hp, Content.items]) (fun o => by
        simp only [Content.items, List.count_append] at *
        have := ho o
        rcases hf with rfl | hf
        · simpa using this
        · by_cases hpo : p = some o
          · subst hpo; simp [List.count_eq_zero.2 hf]
          · simpa [List.count_cons, hpo] using this)
    simp only [untrackAll, Option.some.injEq] at h1
    subst h1
    rw [trackAll_one] at h2
    exact ⟨_, by simp only [run, pushBack, getList_of hp, Option.bind_some, h2], h3⟩
  | insert t k p =>
    obtain ⟨⟨ps, hp, hk⟩, hv, hf⟩ := hl
    rw [held_of hp] at hf
    have ho := h.once t
    rw [held_of hp] at ho
    have hmem : ∀ x, x ∈ ps ↔ x ∈ ps.take k ∨ x ∈ ps.drop k := fun x => by
      rw [← List.mem_append, List.take_append_drop]
    have hcnt : ∀ x, ps.count x = (ps.take k).count x + (ps.drop k).count x := fun x => by
      rw [← List.count_append, List.take_append_drop]
    obtain ⟨w1, w2, h1, h2, h3, -⟩ := change_inv h t [] [p] (some (.list (ps.take k ++ p :: ps.drop k))) (ps.take k ++ p :: ps.drop k) rfl (by simp) (by simpa using hv)
      (fun o => by
        simp only [held_of hp, Content.items, List.mem_append, List.mem_cons, hmem (some o), List.not_mem_nil, not_false_eq_true, and_true,
          or_false]
        tauto) (fun o => by
        simp only [Content.items, List.count_append, List.count_cons] at *
        have := ho o
        rw [hcnt] at this
        rcases hf with rfl | hf
        · simpa using this
        · by_cases hpo : p = some o
          · subst hpo
            have h0 := List.count_eq_zero.2 hf
            rw [hcnt] at h0
            simp; omega
          · simpa [hpo] using this)
    simp only [untrackAll, Option.some.injEq] at h1
    subst h1
    rw [trackAll_one] at h2
    exact ⟨_, by simp only [run, insert, getList_of hp, Option.bind_some, if_pos hk, h2], h3⟩
  | insertAll t k qs =>
    obtain ⟨⟨ps, hp, hk⟩, hv, hf⟩ := hl
    rw [held_of hp] at hv
    have ho := h.once t
    rw [held_of hp] at ho
    have hmem : ∀ x, x ∈ ps ↔ x ∈ ps.take k ∨ x ∈ ps.drop k := fun x => by
      rw [← List.mem_append, List.take_append_drop]
    have hcnt : ∀ x, ps.count x = (ps.take k).count x + (ps.drop k).count x := fun x => by
      rw [← List.count_append, List.take_append_drop]
    obtain ⟨w1, w2, h1, h2, h3, -⟩ := change_inv h t [] qs (some (.list (ps.take k ++ qs ++ ps.drop k))) (ps.take k ++ qs ++ ps.drop k) rfl (by simp)
      (fun p hp => (hv p hp).1)
      (fun o => by
        simp only [held_of hp, Content.items, List.mem_append, hmem (some o), List.not_mem_nil, not_false_eq_true, and_true]
        tauto) (fun o => by
        simp only [Content.items, List.count_append] at *
        have h4 := ho o
        have h5 := hf o
        rw [hcnt] at h4
        by_cases hq : some o ∈ qs
        · rcases (hv _ hq).2 with h6 | h6
          · cases h6
          · have h0 := List.count_eq_zero.2 h6
            rw [hcnt] at h0
            omega
        · have := List.count_eq_zero.2 hq
          omega)
    simp only [untrackAll, Option.some.injEq] at h1
    subst h1
    exact ⟨_, by simp only [run, insertAll, getList_of hp, Option.bind_some, if_pos hk, h2], h3⟩
  | eraseAt t k =>
    obtain ⟨ps, hp, hk⟩ := hl
    have ho := h.once t
    rw [held_of hp] at ho
    have hg : ps[k]? = some ps[k] := List.getElem?_eq_getElem hk
    have hsp := take_cons_drop hg
    obtain ⟨w1, w2, h1, h2, h3, -⟩ := change_inv h t [ps[k]] [] (some (.list (ps.take k ++ ps.drop (k + 1)))) (ps.take k ++ ps.drop (k + 1)) rfl
      (by simp [held_of hp, Content.items]) (by simp)
      (fun o => by
        simp only [held_of hp, Content.items, List.mem_singleton, List.not_mem_nil, or_false]
        exact count_split hsp ho o)
      (fun o => by
        have := ho o
        simp only [Content.items] at *
        rw [hsp, List.count_append, List.count_cons] at this
        rw [List.count_append]
        omega)
    simp only [trackAll, Option.some.injEq] at h2
    subst h2
    rw [untrackAll_one] at h1
    exact ⟨_, by simp only [run, eraseAt, getList_of hp, Option.bind_some, hg, h1], h3⟩
  | eraseRange t a b =>
    obtain ⟨ps, hp, hab, hb⟩ := hl
    have ho := h.once t
    rw [held_of hp] at ho
    have hsp : ps = ps.take a ++ ((ps.take b).drop a ++ ps.drop b) := by
      have h1 : ps.take b = ps.take a ++ (ps.take b).drop a := by
        conv_lhs => rw [← List.take_append_drop a (ps.take b)]
        rw [List.take_take, Nat.min_eq_left hab]
      rw [← List.append_assoc, ← h1, List.take_append_drop]
    have hmem : ∀ x, x ∈ ps ↔ x ∈ ps.take a ∨ x ∈ (ps.take b).drop a ∨ x ∈ ps.drop b := fun x => by
      rw [← List.mem_append, ← List.mem_append, ← hsp]
    have hcnt : ∀ x, ps.count x = (ps.take a).count x + (((ps.take b).drop a).count x + (ps.drop b).count x) := fun x => by
      rw [← List.count_append, ← List.count_append, ← hsp]
    obtain ⟨w1, w2, h1, h2, h3, -⟩ := change_inv h t ((ps.take b).drop a) [] (some (.list (ps.take a ++ ps.drop b))) (ps.take a ++ ps.drop b) rfl
      (fun p hq => by rw [held_of hp]; exact (hmem p).2 (.inr (.inl hq))) (by simp)
      (fun o => by
        simp only [held_of hp, Content.items, List.not_mem_nil, or_false, List.mem_append, hmem (some o)]
        have h4 := ho o
        simp only [Content.items] at h4
        rw [hcnt] at h4
        constructor
        · rintro (h5 | h5)
          · refine ⟨.inl h5, fun h6 => ?_⟩
            have := List.count_pos_iff.2 h5; have := List.count_pos_iff.2 h6; omega
          · refine ⟨.inr (.inr h5), fun h6 => ?_⟩
            have := List.count_pos_iff.2 h5; have := List.count_pos_iff.2 h6; omega
        · tauto)
      (fun o => by
        have := ho o
        simp only [Content.items] at *
        rw [hcnt] at this
        rw [List.count_append]
        omega)
    simp only [trackAll, Option.some.injEq] at h2
    subst h2
    exact ⟨_, by simp only [run, eraseRange, getList_of hp, Option.bind_some, if_pos (And.intro hab hb), h1], h3⟩
  | erase t p =>
    obtain ⟨ps, hp⟩ := hl
    have ho := h.once t
    rw [held_of hp] at ho
    by_cases hm : p ∈ ps
    · obtain ⟨l1, l2, -, hs1, hs2⟩ := List.exists_erase_eq hm
      obtain ⟨w1, w2, h1, h2, h3, -⟩ := change_inv h t [p] [] (some (.list (ps.erase p))) (ps.erase p) rfl
        (by simpa [held_of hp, Content.items] using hm) (by simp)
        (fun o => by
          simp only [held_of hp, Content.items, List.mem_singleton, List.not_mem_nil, or_false]
          rw [hs2]
          exact count_split hs1 ho o)
        (fun o => Nat.le_trans ((List.erase_sublist).count_le _) (ho o))
      simp only [trackAll, Option.some.injEq] at h2
      subst h2
      rw [untrackAll_one] at h1
      exact ⟨_, by simp only [run, erase, getList_of hp, Option.bind_some, if_pos hm, h1], h3⟩
    · exact ⟨w, by simp only [run, erase, getList_of hp, Option.bind_some, if_neg hm], h⟩
  | popBack t =>
    obtain ⟨ps, hp⟩ := hl
    have ho := h.once t
    rw [held_of hp] at ho
    rcases List.eq_nil_or_concat ps with rfl | ⟨qs, p, rfl⟩
    · exact ⟨w, by simp [run, popBack, getList_of hp], h⟩
    · obtain ⟨w1, w2, h1, h2, h3, -⟩ := change_inv h t [p] [] (some (.list qs)) qs rfl
        (by simp [held_of hp, Content.items]) (by simp)
        (fun o => by
          simp only [held_of hp, Content.items, List.mem_singleton, List.not_mem_nil, or_false]
          simpa using count_split (a := qs) (b := []) (p := p) (l := qs.concat p) (by simp) ho o)
        (fun o => by
          have := ho o
          simp only [Content.items, List.concat_eq_append, List.count_append] at *
          omega)
      simp only [trackAll, Option.some.injEq] at h2
      subst h2
      rw [untrackAll_one] at h1
      exact ⟨_, by simp [run, popBack, getList_of hp, h1], h3⟩
  | popFront t =>
    obtain ⟨ps, hp⟩ := hl
    have ho := h.once t
    rw [held_of hp] at ho
    cases ps with
    | nil => exact ⟨w, by simp [run, popFront, getList_of hp], h⟩
    | cons p qs =>
      obtain ⟨w1, w2, h1, h2, h3, -⟩ := change_inv h t [p] [] (some (.list qs)) qs rfl
        (by simp [held_of hp, Content.items]) (by simp)
        (fun o => by
          simp only [held_of hp, Content.items, List.mem_singleton, List.not_mem_nil, or_false]
          simpa using count_split (a := []) (b := qs) (p := p) (l := p :: qs) (by simp) ho o)
        (fun o => by
          have := ho o
          simp only [Content.items, List.count_cons] at *
          omega)
      simp only [trackAll, Option.some.injEq] at h2
      subst h2
      rw [untrackAll_one] at h1
      exact ⟨_, by simp [run, popFront, getList_of hp, h1], h3⟩
  | releaseFrom t o =>
    obtain ⟨ps, hp⟩ := hl
    have ho := h.once t
    rw [held_of hp] at ho
    by_cases hm : some o ∈ ps
    · obtain ⟨l1, l2, -, hs1, hs2⟩ := List.exists_erase_eq hm
      obtain ⟨w1, w2, h1, h2, h3, ha, -⟩ := change_inv h t [some o] [] (some (.list (ps.erase (some o)))) (ps.erase (some o)) rfl
        (by simpa [held_of hp, Content.items] using hm) (by simp)
        (fun x => by
          simp only [held_of hp, Content.items, List.mem_singleton, List.not_mem_nil, or_false]
          rw [hs2]
          exact count_split hs1 ho x)
        (fun x => Nat.le_trans ((List.erase_sublist).count_le _) (ho x))
      simp only [trackAll, Option.some.injEq] at h2
      subst h2
      rw [untrackAll_one] at h1
      have hal : Alive w o := held_valid h t (some o) (by rw [held_of hp]; exact hm)
      obtain ⟨w', h4, h5, h6⟩ := release_spec h3 o ((ha o).2 hal)
      exact ⟨w', by simp only [run, releaseFrom, erase, getList_of hp, Option.bind_some, if_pos hm, h1, h4], release_inv h3 o h5 h6⟩
    · exact ⟨w, by simp only [run, releaseFrom, getList_of hp, Option.bind_some, if_neg hm], h⟩

theorem empty_inv : Inv empty := ⟨fun t o => by simp [held, empty, knows], fun o ts => by simp [empty], fun t o => by simp [held, empty]⟩

theorem reach_inv {w : World} (h : Reach w) : Inv w := by
  induction h with
  | empty => exact empty_inv
  | step op _ hl hr ih =>
    obtain ⟨w', h1, h2⟩ := run_inv ih op hl
    rw [hr] at h1
    cases h1
    exact h2

end Verif.FTrack
