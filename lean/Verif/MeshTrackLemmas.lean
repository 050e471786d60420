import Mathlib.Data.List.Nodup
import Verif.MeshEditSpec

/-!
# Lemmas about inputs and the sources they track
-/

namespace Verif.FMesh

open Verif.FPoly Verif.FUnify Verif.FFit

/-- The input a tracker belongs to. -/
def Tracker.of : Tracker → Nat
  | .ptr n => n
  | .input n => n

/-- Every input tracks its source twice, first with its pointer. -/
structure TInv (w : World) : Prop where
  names : (w.inputs.map TInput.name).Nodup
  fresh : ∀ x ∈ w.inputs, x.name < w.next
  order : ∀ x ∈ w.inputs, ∀ d, x.src = some d → w.alive d = true ∧ [.ptr x.name, .input x.name].Sublist (w.trackers d)
  back : ∀ d, ∀ t ∈ w.trackers d, ∃ x ∈ w.inputs, x.name = t.of ∧ x.src = some d
  nodup : ∀ d, (w.trackers d).Nodup

theorem name_inj {xs : List TInput} (h : (xs.map TInput.name).Nodup) {x y : TInput} (hx : x ∈ xs) (hy : y ∈ xs) (e : x.name = y.name) : x = y :=
  List.inj_on_of_nodup_map h hx hy e

theorem sourceOf_eq {w : World} (h : TInv w) {x : TInput} (hx : x ∈ w.inputs) : sourceOf w x.name = some x.src := by
  unfold sourceOf
  cases hf : w.inputs.find? fun y => y.name = x.name with
  | none => exact absurd (List.find?_eq_none.1 hf x hx) (by simp)
  | some y =>
    have := List.find?_some hf
    rw [name_inj h.names (List.mem_of_find?_eq_some hf) hx (by simpa using this)]
    rfl

/-- The trackers after a new source for the input `n`. -/
def retrack (n : Nat) (old s : Option Nat) (T : Nat → List Tracker) (e : Nat) : List Tracker :=
  (if old = some e then ((T e).erase (.input n)).erase (.ptr n) else T e) ++ if s = some e then [.ptr n, .input n] else []

theorem not_in_base {w : World} (h : TInv w) {x : TInput} (hx : x ∈ w.inputs) (e : Nat) {t : Tracker} (ht : t.of = x.name) :
    t ∉ (if x.src = some e then ((w.trackers e).erase (.input x.name)).erase (.ptr x.name) else w.trackers e) := by
  intro hm
  split at hm
  · have hn := (h.nodup e).erase (.input x.name)
    rw [hn.mem_erase_iff, (h.nodup e).mem_erase_iff] at hm
    cases t with
    | ptr m => exact hm.1 (by rw [← ht]; rfl)
    | input m => exact hm.2.1 (by rw [← ht]; rfl)
  · rename_i hne
    obtain ⟨y, hy, hn, hs⟩ := h.back e t hm
    rw [name_inj h.names hy hx (hn.trans ht)] at hs
    exact hne hs

theorem setSource_eq {w : World} (h : TInv w) {x : TInput} (hx : x ∈ w.inputs) {s : Option Nat} (hs : ∀ d, s = some d → w.alive d = true) :
    setSource x.name s w = some { putSource x.name s w with trackers := retrack x.name x.src s w.trackers } := by
  have hold : ∀ d, x.src = some d → w.alive d = true := fun d hd => (h.order x hx d hd).1
  have hnot := not_in_base h hx
  unfold setSource
  rw [sourceOf_eq h hx]
  unfold assign
  rcases hxs : x.src with _ | d <;> rcases s with _ | e
  · simp only [Option.bind_some, onPtr, putSource, Option.some.injEq, World.mk.injEq, true_and]
    funext k
    simp [retrack]
  · have he := hs e rfl
    have n1 := hnot e (t := .ptr x.name) rfl
    have n2 := hnot e (t := .input x.name) rfl
    rw [hxs] at n1 n2
    simp only [Option.bind_some, onPtr, putSource, track, he, if_true, Option.some.injEq, World.mk.injEq, true_and]
    rw [if_neg (by simp)] at n1 n2
    funext k
    by_cases hk : k = e
    · subst hk
      simp [retrack, n1, n2]
    · simp [retrack, hk, Ne.symm hk]
  · have hd := hold d hxs
    simp only [Option.bind_some, onPtr, putSource, untrack, hd, if_true, Option.some.injEq, World.mk.injEq, true_and]
    funext k
    by_cases hk : k = d
    · subst hk
      simp [retrack]
    · simp [retrack, hk, Ne.symm hk]
  · have he := hs e rfl
    have hd := hold d hxs
    have n1 := hnot e (t := .ptr x.name) rfl
    have n2 := hnot e (t := .input x.name) rfl
    rw [hxs] at n1 n2
    simp only [Option.bind_some, onPtr, putSource, untrack, track, hd, he, if_true, Option.some.injEq, World.mk.injEq, true_and]
    funext k
    by_cases hk : k = e
    · subst hk
      by_cases hkd : k = d
      · subst hkd
        rw [if_pos rfl] at n1 n2
        simp [retrack, n1, n2]
      · rw [if_neg (by simp [Ne.symm hkd])] at n1 n2
        simp [retrack, n1, n2, hkd, Ne.symm hkd]
    · by_cases hkd : k = d
      · subst hkd
        simp [retrack, hk, Ne.symm hk]
      · simp [retrack, hk, Ne.symm hk, hkd, Ne.symm hkd]

theorem mem_retrack {w : World} (h : TInv w) {x : TInput} (hx : x ∈ w.inputs) {s : Option Nat} {d : Nat} {t : Tracker} (ht : t ∈ retrack x.name x.src s w.trackers d) :
    (t.of ≠ x.name ∧ t ∈ w.trackers d) ∨ (t.of = x.name ∧ s = some d) := by
  unfold retrack at ht
  rw [List.mem_append] at ht
  rcases ht with ht | ht
  · refine .inl ⟨fun e => not_in_base h hx d e ht, ?_⟩
    split at ht
    · exact List.mem_of_mem_erase (List.mem_of_mem_erase ht)
    · exact ht
  · split at ht
    · rename_i hs
      simp only [List.mem_cons, List.not_mem_nil, or_false] at ht
      rcases ht with rfl | rfl <;> exact .inr ⟨rfl, hs⟩
    · simp at ht

theorem retrack_nodup {w : World} (h : TInv w) {x : TInput} (hx : x ∈ w.inputs) (s : Option Nat) (d : Nat) : (retrack x.name x.src s w.trackers d).Nodup := by
  unfold retrack
  rw [List.nodup_append]
  refine ⟨?_, ?_, ?_⟩
  · split
    · exact ((h.nodup d).erase _).erase _
    · exact h.nodup d
  · split <;> simp
  · intro t ht u hu e
    subst e
    have := not_in_base h hx d (t := t)
    split at hu
    · simp only [List.mem_cons, List.not_mem_nil, or_false] at hu
      rcases hu with rfl | rfl <;> exact this rfl ht
    · simp at hu

theorem retrack_keep {x y : TInput} (hne : y.name ≠ x.name) {T : Nat → List Tracker} {d : Nat} (h : [Tracker.ptr y.name, .input y.name].Sublist (T d)) (s : Option Nat) :
    [Tracker.ptr y.name, .input y.name].Sublist (retrack x.name x.src s T d) := by
  unfold retrack
  refine List.Sublist.trans ?_ (List.sublist_append_left _ _)
  split
  · have h1 := (h.erase (.input x.name)).erase (.ptr x.name)
    rwa [List.erase_of_not_mem (by simpa using Ne.symm hne), List.erase_of_not_mem (by simpa using Ne.symm hne)] at h1
  · exact h

theorem setSource_ok {w : World} (h : TInv w) {x : TInput} (hx : x ∈ w.inputs) {s : Option Nat} (hs : ∀ d, s = some d → w.alive d = true) :
    TInv { putSource x.name s w with trackers := retrack x.name x.src s w.trackers } where
  names := by
    have : (w.inputs.map fun y => if y.name = x.name then { y with src := s } else y).map TInput.name = w.inputs.map TInput.name := by
      rw [List.map_map]
      apply List.map_congr_left
      intro y _
      simp only [Function.comp]
      split <;> rfl
    show ((w.inputs.map fun y => if y.name = x.name then { y with src := s } else y).map TInput.name).Nodup
    rw [this]
    exact h.names
  fresh := by
    intro y hy
    obtain ⟨z, hz, rfl⟩ := List.mem_map.1 hy
    have := h.fresh z hz
    split <;> exact this
  order := by
    intro y hy d hd
    obtain ⟨z, hz, rfl⟩ := List.mem_map.1 hy
    by_cases he : z.name = x.name
    · rw [if_pos he] at hd ⊢
      have hd : s = some d := hd
      refine ⟨hs d hd, ?_⟩
      show [Tracker.ptr z.name, .input z.name].Sublist (retrack x.name x.src s w.trackers d)
      rw [he]
      unfold retrack
      rw [if_pos hd]
      exact List.sublist_append_right _ _
    · rw [if_neg he] at hd ⊢
      obtain ⟨h1, h2⟩ := h.order z hz d hd
      exact ⟨h1, retrack_keep he h2 s⟩
  back := by
    intro d t ht
    rcases mem_retrack h hx ht with ⟨h1, h2⟩ | ⟨h1, h2⟩
    · obtain ⟨y, hy, e, hsrc⟩ := h.back d t h2
      refine ⟨y, List.mem_map.2 ⟨y, hy, ?_⟩, e, hsrc⟩
      rw [if_neg (by rw [e]; exact h1)]
    · refine ⟨{ x with src := s }, List.mem_map.2 ⟨x, hx, ?_⟩, h1.symm, h2⟩
      rw [if_pos rfl]
  nodup := retrack_nodup h hx s

theorem addInput_pre {w : World} (h : TInv w) (offset : Nat) :
    TInv { w with inputs := w.inputs ++ [⟨w.next, none, ⟨offset, []⟩⟩], next := w.next + 1 } where
  names := by
    show ((w.inputs ++ [(⟨w.next, none, ⟨offset, []⟩⟩ : TInput)]).map TInput.name).Nodup
    rw [List.map_append, List.nodup_append]
    refine ⟨h.names, by simp, ?_⟩
    intro n hn m hm e
    obtain ⟨x, hx, rfl⟩ := List.mem_map.1 hn
    have := h.fresh x hx
    simp only [List.map_cons, List.map_nil, List.mem_singleton] at hm
    omega
  fresh := by
    intro x hx
    show x.name < w.next + 1
    rcases List.mem_append.1 hx with hx | hx
    · have := h.fresh x hx
      omega
    · simp only [List.mem_singleton] at hx
      rw [hx]
      exact Nat.lt_succ_self _
  order := by
    intro x hx d hd
    rcases List.mem_append.1 hx with hx | hx
    · exact h.order x hx d hd
    · simp only [List.mem_singleton] at hx
      rw [hx] at hd
      simp at hd
  back := by
    intro d t ht
    obtain ⟨x, hx, e⟩ := h.back d t ht
    exact ⟨x, List.mem_append_left _ hx, e⟩
  nodup := h.nodup

theorem addInput_eq {w : World} (h : TInv w) {s : Option Nat} (hs : ∀ d, s = some d → w.alive d = true) (offset : Nat) :
    ∃ w', addInput s offset w = some w' ∧ TInv w' ∧ w'.inputs = w.inputs ++ [⟨w.next, s, ⟨offset, []⟩⟩] ∧ w'.alive = w.alive := by
  have hp := addInput_pre h offset
  have hm : (⟨w.next, none, ⟨offset, []⟩⟩ : TInput) ∈ ({ w with inputs := w.inputs ++ [⟨w.next, none, ⟨offset, []⟩⟩], next := w.next + 1 } : World).inputs :=
    List.mem_append_right _ (by simp)
  refine ⟨_, setSource_eq hp hm hs, setSource_ok hp hm hs, ?_, rfl⟩
  show (w.inputs ++ [(⟨w.next, none, ⟨offset, []⟩⟩ : TInput)]).map (fun x : TInput => if x.name = w.next then { x with src := s } else x) = _
  rw [List.map_append]
  congr 1
  · conv_rhs => rw [← List.map_id w.inputs]
    apply List.map_congr_left
    intro x hx
    have := h.fresh x hx
    rw [if_neg (by omega)]
    rfl
  · simp

theorem releaseInput_eq {w : World} (h : TInv w) {x : TInput} (hx : x ∈ w.inputs) :
    ∃ w', releaseInput x.name w = some w' ∧ TInv w' ∧ w'.inputs = w.inputs.filter (fun y => y.name ≠ x.name) ∧ w'.alive = w.alive := by
  have h1 := setSource_eq h hx (s := none) (by simp)
  have h2 := setSource_ok h hx (s := none) (by simp)
  have h3 : releaseInput x.name w = (setSource x.name none w).map fun w => { w with inputs := w.inputs.filter fun y => y.name ≠ x.name } := by
    unfold releaseInput setSource
    rw [sourceOf_eq h hx, Option.bind_some, Option.bind_some]
    cases onPtr (untrack (.input x.name)) x.src w with
    | none => rfl
    | some w1 =>
      rw [Option.bind_some, Option.bind_some]
      cases assign x.name x.src none w1 <;> rfl
  have hf : (w.inputs.map fun y => if y.name = x.name then { y with src := none } else y).filter (fun y => y.name ≠ x.name) = w.inputs.filter (fun y => y.name ≠ x.name) := by
    induction w.inputs with
    | nil => rfl
    | cons y ys ih =>
      by_cases he : y.name = x.name
      · simp only [List.map_cons, he, if_true, List.filter_cons, ne_eq, not_true_eq_false, decide_false]
        exact ih
      · simp only [List.map_cons, he, if_false, List.filter_cons, ne_eq, not_false_eq_true, decide_true, if_true]
        rw [ih]
  rw [h1, Option.map_some] at h3
  refine ⟨_, h3, ?_, hf, rfl⟩
  refine ⟨?_, ?_, ?_, ?_, h2.nodup⟩
  · exact (List.filter_sublist.map _).nodup h2.names
  · exact fun y hy => h2.fresh y (List.mem_of_mem_filter hy)
  · exact fun y hy => h2.order y (List.mem_of_mem_filter hy)
  · intro d t ht
    obtain ⟨y, hy, e, hs⟩ := h2.back d t ht
    refine ⟨y, List.mem_filter.2 ⟨hy, ?_⟩, e, hs⟩
    simp only [ne_eq, decide_not, Bool.not_eq_eq_eq_not, Bool.not_true, decide_eq_false_iff_not]
    intro hn
    obtain ⟨z, hz, rfl⟩ := List.mem_map.1 hy
    by_cases hzn : z.name = x.name
    · rw [if_pos hzn] at hs
      simp at hs
    · rw [if_neg hzn] at hn
      exact hzn hn

/-! ## The release of a source -/

theorem release_fold (d : Nat) : ∀ (l : List Tracker) (xs : List TInput), l.Nodup →
    (∀ n, .input n ∈ l → [.ptr n, .input n].Sublist l ∨ ∀ x ∈ xs, x.name = n → x.src ≠ some d) →
    l.foldl (onReleased d) xs = xs.map fun x => if Tracker.ptr x.name ∈ l ∧ x.src = some d then { x with src := none } else x := by
  intro l
  induction l with
  | nil => intro xs _ _; simp
  | cons t l ih =>
    intro xs hn h
    rw [List.nodup_cons] at hn
    rw [List.foldl_cons]
    cases t with
    | ptr n =>
      rw [ih _ hn.2]
      · simp only [onReleased, ptrReleased, List.map_map]
        apply List.map_congr_left
        intro x _
        simp only [Function.comp, List.mem_cons, Tracker.ptr.injEq]
        by_cases h1 : x.name = n <;> by_cases h2 : x.src = some d <;> simp [h1, h2]
      · intro m hm
        rcases h m (List.mem_cons_of_mem _ hm) with h1 | h1
        · rw [List.sublist_cons_iff] at h1
          rcases h1 with h1 | ⟨r, h1, h2⟩
          · exact .inl h1
          · rw [List.cons_eq_cons] at h1
            have hmn : m = n := by simpa using h1.1
            refine .inr fun x hx hxm => ?_
            obtain ⟨z, hz, rfl⟩ := List.mem_map.1 hx
            split
            · simp
            · rename_i hc
              rw [if_neg hc] at hxm
              exact fun hs => hc ⟨hxm.trans hmn, hs⟩
        · refine .inr fun x hx hxm => ?_
          obtain ⟨z, hz, rfl⟩ := List.mem_map.1 hx
          split
          · simp
          · rename_i hc
            rw [if_neg hc] at hxm
            exact h1 z hz hxm
    | input n =>
      have hno : ∀ x ∈ xs, x.name = n → x.src ≠ some d := by
        rcases h n (by simp) with h1 | h1
        · rw [List.sublist_cons_iff] at h1
          rcases h1 with h1 | ⟨r, h1, h2⟩
          · exact absurd (h1.subset (by simp)) hn.1
          · simp at h1
        · exact h1
      have hid : onReleased d xs (.input n) = xs := by
        simp only [onReleased, inputReleased]
        cases hf : xs.find? fun x => x.name = n with
        | none => rfl
        | some x =>
          have := hno x (List.mem_of_find?_eq_some hf) (by simpa using List.find?_some hf)
          simp only
          rw [if_neg this]
      rw [hid, ih _ hn.2]
      · apply List.map_congr_left
        intro x _
        simp
      · intro m hm
        rcases h m (List.mem_cons_of_mem _ hm) with h1 | h1
        · rw [List.sublist_cons_iff] at h1
          rcases h1 with h1 | ⟨r, h1, h2⟩
          · exact .inl h1
          · simp at h1
        · exact .inr h1

theorem releaseSource_eq {w : World} (h : TInv w) {d : Nat} (hd : w.alive d = true) :
    ∃ w', releaseSource d w = some w' ∧ TInv w' ∧ w'.inputs = (w.inputs.map fun x => if x.src = some d then { x with src := none } else x) ∧
      ∀ e, w'.alive e = (w.alive e && decide (e ≠ d)) := by
  have hfold : (w.trackers d).foldl (onReleased d) w.inputs = w.inputs.map fun x => if x.src = some d then { x with src := none } else x := by
    rw [release_fold d _ _ (h.nodup d)]
    · apply List.map_congr_left
      intro x hx
      by_cases hs : x.src = some d
      · have := (h.order x hx d hs).2.subset (show Tracker.ptr x.name ∈ _ by simp)
        simp [hs, this]
      · simp [hs]
    · intro n hn
      obtain ⟨x, hx, e, hs⟩ := h.back d _ hn
      have := (h.order x hx d hs).2
      rw [e] at this
      exact .inl this
  refine ⟨_, by rw [releaseSource, if_pos hd], ?_, hfold, fun e => ?_⟩
  · rw [hfold]
    refine ⟨?_, ?_, ?_, ?_, ?_⟩
    · have : (w.inputs.map fun x => if x.src = some d then { x with src := none } else x).map TInput.name = w.inputs.map TInput.name := by
        rw [List.map_map]
        apply List.map_congr_left
        intro y _
        simp only [Function.comp]
        split <;> rfl
      show ((w.inputs.map fun x => if x.src = some d then { x with src := none } else x).map TInput.name).Nodup
      rw [this]
      exact h.names
    · intro y hy
      obtain ⟨z, hz, rfl⟩ := List.mem_map.1 hy
      have := h.fresh z hz
      split <;> exact this
    · intro y hy e he
      obtain ⟨z, hz, rfl⟩ := List.mem_map.1 hy
      by_cases hs : z.src = some d
      · rw [if_pos hs] at he
        simp at he
      · rw [if_neg hs] at he ⊢
        have hed : e ≠ d := fun hc => hs (by rw [he, hc])
        obtain ⟨h1, h2⟩ := h.order z hz e he
        show (if e = d then false else w.alive e) = true ∧ List.Sublist _ (if e = d then [] else w.trackers e)
        rw [if_neg hed, if_neg hed]
        exact ⟨h1, h2⟩
    · intro e t ht
      have ht : t ∈ if e = d then [] else w.trackers e := ht
      by_cases hed : e = d
      · rw [if_pos hed] at ht
        simp at ht
      · rw [if_neg hed] at ht
        obtain ⟨x, hx, e1, hs⟩ := h.back e t ht
        refine ⟨x, List.mem_map.2 ⟨x, hx, ?_⟩, e1, hs⟩
        rw [if_neg (by rw [hs]; simpa using hed)]
    · intro e
      show (if e = d then [] else w.trackers e).Nodup
      split
      · simp
      · exact h.nodup e
  · show (if e = d then false else w.alive e) = _
    by_cases hed : e = d <;> simp [hed]

/-! ## The other calls -/

theorem createSource_eq {w : World} (h : TInv w) {d : Nat} (hd : w.alive d = false) :
    ∃ w', createSource d w = some w' ∧ TInv w' ∧ w'.inputs = w.inputs ∧ ∀ e, w'.alive e = (w.alive e || decide (e = d)) := by
  refine ⟨{ w with alive := fun e => if e = d then true else w.alive e, trackers := fun e => if e = d then [] else w.trackers e },
    by rw [createSource, if_neg (by simp [hd])], ?_, rfl, fun e => ?_⟩
  · refine ⟨h.names, h.fresh, ?_, ?_, ?_⟩
    · intro x hx e he
      obtain ⟨h1, h2⟩ := h.order x hx e he
      have hed : e ≠ d := by
        rintro rfl
        rw [hd] at h1
        simp at h1
      show (if e = d then true else w.alive e) = true ∧ List.Sublist _ (if e = d then [] else w.trackers e)
      rw [if_neg hed, if_neg hed]
      exact ⟨h1, h2⟩
    · intro e t ht
      have ht : t ∈ if e = d then [] else w.trackers e := ht
      split at ht
      · simp at ht
      · exact h.back e t ht
    · intro e
      show (if e = d then [] else w.trackers e).Nodup
      split
      · simp
      · exact h.nodup e
  · show (if e = d then true else w.alive e) = _
    by_cases hed : e = d <;> simp [hed]

theorem zip_put {xs : List TInput} {ys : List Input} (hl : ys.length = xs.length) :
    (xs.zipWith (fun x y => { x with input := y }) ys).map (fun x => (x.name, x.src)) = xs.map (fun x => (x.name, x.src)) ∧
      (xs.zipWith (fun x y => { x with input := y }) ys).map TInput.input = ys := by
  induction xs generalizing ys with
  | nil => cases ys with
    | nil => exact ⟨rfl, rfl⟩
    | cons => simp at hl
  | cons x xs ih => cases ys with
    | nil => simp at hl
    | cons y ys =>
      obtain ⟨h1, h2⟩ := ih (by simpa using hl)
      exact ⟨by simp [h1], by simp [h2]⟩

theorem inv_of_pairs {w w' : World} (h : TInv w) (hp : w'.inputs.map (fun x => (x.name, x.src)) = w.inputs.map (fun x => (x.name, x.src))) (hn : w'.next = w.next)
    (ha : w'.alive = w.alive) (ht : w'.trackers = w.trackers) : TInv w' := by
  have key : ∀ x ∈ w'.inputs, ∃ y ∈ w.inputs, y.name = x.name ∧ y.src = x.src := by
    intro x hx
    have : (x.name, x.src) ∈ w.inputs.map (fun x => (x.name, x.src)) := by
      rw [← hp]
      exact List.mem_map.2 ⟨x, hx, rfl⟩
    obtain ⟨y, hy, e⟩ := List.mem_map.1 this
    simp only [Prod.mk.injEq] at e
    exact ⟨y, hy, e⟩
  refine ⟨?_, ?_, ?_, ?_, by rw [ht]; exact h.nodup⟩
  · have e1 : ∀ l : List TInput, l.map TInput.name = (l.map (fun x => (x.name, x.src))).map Prod.fst := fun l => by simp
    rw [e1, hp, ← e1]
    exact h.names
  · intro x hx
    obtain ⟨y, hy, e, _⟩ := key x hx
    rw [hn, ← e]
    exact h.fresh y hy
  · intro x hx d hd
    obtain ⟨y, hy, e, e'⟩ := key x hx
    rw [ha, ht, ← e]
    exact h.order y hy d (e'.trans hd)
  · intro d t htt
    rw [ht] at htt
    obtain ⟨y, hy, e, e'⟩ := h.back d t htt
    have : (y.name, y.src) ∈ w'.inputs.map (fun x => (x.name, x.src)) := by
      rw [hp]
      exact List.mem_map.2 ⟨y, hy, rfl⟩
    obtain ⟨x, hx, e2⟩ := List.mem_map.1 this
    simp only [Prod.mk.injEq] at e2
    exact ⟨x, hx, e2.1.trans e, e2.2.trans e'⟩

theorem setIndices_eq {w : World} (h : TInv w) {k : Nat} {x : TInput} (hx : w.inputs[k]? = some x) (l : List (Option Nat)) :
    ∃ w', setIndices x.name l w = some w' ∧ TInv w' ∧ w'.inputs.map (fun x => (x.name, x.src)) = w.inputs.map (fun x => (x.name, x.src)) ∧
      w'.inputs.map TInput.input = FPoly.setIndices (w.inputs.map TInput.input) k l ∧ w'.alive = w.alive := by
  have hk := (List.getElem?_eq_some_iff.1 hx).1
  have hf : w.inputs.findIdx? (fun y => y.name = x.name) = some k := by
    rw [List.findIdx?_eq_some_iff_getElem]
    obtain ⟨_, e⟩ := List.getElem?_eq_some_iff.1 hx
    refine ⟨hk, by simp [e], fun j hj => ?_⟩
    simp only [decide_eq_true_eq]
    intro hc
    have h1 : (w.inputs.map TInput.name)[j]? = some x.name := by
      rw [List.getElem?_map, List.getElem?_eq_getElem (by omega)]
      simp [hc]
    have h2 : (w.inputs.map TInput.name)[k]? = some x.name := by simp [hx]
    have := (List.getElem?_inj (by simp; omega) h.names).1 (h1.trans h2.symm)
    omega
  have hlen : (FPoly.setIndices (w.inputs.map TInput.input) k l).length = w.inputs.length := by simp [FPoly.setIndices, upd]
  obtain ⟨z1, z2⟩ := zip_put hlen
  refine ⟨{ w with inputs := w.inputs.zipWith (fun x y => { x with input := y }) (FPoly.setIndices (w.inputs.map TInput.input) k l) },
    by rw [setIndices, hf, Option.map_some], ?_, z1, z2, rfl⟩
  exact inv_of_pairs h z1 rfl rfl rfl

theorem start_inv : TInv start := ⟨by simp [start], by simp [start], by simp [start], by simp [start], by simp [start]⟩

theorem act_ok {w : World} (h : TInv w) {a : Act} (ha : Allowed w a) : ∃ w', act w a = some w' ∧ TInv w' := by
  cases a with
  | createSource d => obtain ⟨w', h1, h2, _⟩ := createSource_eq h ha; exact ⟨w', h1, h2⟩
  | releaseSource d => obtain ⟨w', h1, h2, _⟩ := releaseSource_eq h ha; exact ⟨w', h1, h2⟩
  | addInput s offset => obtain ⟨w', h1, h2, _⟩ := addInput_eq h ha offset; exact ⟨w', h1, h2⟩
  | releaseInput n =>
    obtain ⟨x, hx, rfl⟩ := ha
    obtain ⟨w', h1, h2, _⟩ := releaseInput_eq h hx
    exact ⟨w', h1, h2⟩
  | setSource n s =>
    obtain ⟨⟨x, hx, rfl⟩, hs⟩ := ha
    exact ⟨_, setSource_eq h hx hs, setSource_ok h hx hs⟩
  | setIndices n l =>
    obtain ⟨x, hx, rfl⟩ := ha
    obtain ⟨k, hk⟩ := List.mem_iff_getElem?.1 hx
    obtain ⟨w', h1, h2, _⟩ := setIndices_eq h hk l
    exact ⟨w', h1, h2⟩

theorem reached_inv {w : World} (h : Reached w) : TInv w := by
  induction h with
  | start => exact start_inv
  | step _ ha he ih =>
    obtain ⟨w', h1, h2⟩ := act_ok ih ha
    rw [h1] at he
    obtain rfl := Option.some.inj he
    exact h2

end Verif.FMesh
