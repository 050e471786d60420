import Verif.PolySpec
import Mathlib.Tactic.Common

/-! # Lemmas about inputs, faces and holes -/

namespace Verif.FPoly

/-! ## Inputs -/

/-- The list of indices for an offset. -/
def chan (ins : List Input) (off : Nat) : List (Option Nat) := ((ins.find? fun y => y.offset = off && owns y).map Input.indices).getD []

/-- Each offset has at most one input with indices. -/
def One (ins : List Input) : Prop :=
  ∀ (i j : Nat) (x y : Input), ins[i]? = some x → ins[j]? = some y → x.offset = y.offset → owns x = true → owns y = true → i = j

theorem owns_iff {x : Input} : owns x = true ↔ x.indices ≠ [] := by
  simp [owns]

theorem chan_of_owner {ins : List Input} (h : One ins) {k : Nat} {z : Input} (hk : ins[k]? = some z) (ho : owns z = true) : chan ins z.offset = z.indices := by
  simp only [chan]
  cases hf : ins.find? fun y => y.offset = z.offset && owns y with
  | none =>
    rw [List.find?_eq_none] at hf
    have := hf z (List.mem_of_getElem? hk)
    simp [ho] at this
  | some y =>
    have h1 := List.find?_some hf
    have h2 := List.mem_of_find?_eq_some hf
    obtain ⟨j, hj⟩ := List.getElem?_of_mem h2
    simp only [Bool.and_eq_true, decide_eq_true_eq] at h1
    have := h j k y z hj hk h1.1 h1.2 ho
    subst this
    rw [hk] at hj
    cases hj
    rfl

theorem chan_none {ins : List Input} {off : Nat} (h : ∀ (k : Nat) (z : Input), ins[k]? = some z → z.offset = off → owns z = false) : chan ins off = [] := by
  simp only [chan]
  cases hf : ins.find? fun y => y.offset = off && owns y with
  | none => rfl
  | some y =>
    have h1 := List.find?_some hf
    have h2 := List.mem_of_find?_eq_some hf
    obtain ⟨j, hj⟩ := List.getElem?_of_mem h2
    simp only [Bool.and_eq_true, decide_eq_true_eq] at h1
    have := h j y hj h1.1
    rw [h1.2] at this
    simp at this

theorem findOwner_spec {ins : List Input} (h : One ins) {i : Nat} {x : Input} (hx : ins[i]? = some x) :
    ∃ y, ins[findOwner ins i]? = some y ∧ y.offset = x.offset ∧ y.indices = chan ins x.offset ∧
      (∀ k z, ins[k]? = some z → z.offset = x.offset → owns z = true → k = findOwner ins i) := by
  simp only [findOwner, hx]
  split
  · rename_i ho
    refine ⟨x, hx, rfl, (chan_of_owner h hx ho).symm, ?_⟩
    intro k z hk he hz
    exact h k i z x hk hx he hz ho
  · rename_i ho
    cases hf : ins.findIdx? fun y => y.offset = x.offset && owns y with
    | none =>
      rw [List.findIdx?_eq_none_iff] at hf
      have hn : ∀ (k : Nat) (z : Input), ins[k]? = some z → z.offset = x.offset → owns z = false := by
        intro k z hk he
        have := hf z (List.mem_of_getElem? hk)
        simpa [he] using this
      refine ⟨x, by simp [hx], rfl, ?_, ?_⟩
      · rw [chan_none hn]
        by_contra hne
        exact ho (owns_iff.mpr hne)
      · intro k z hk he hz
        rw [hn k z hk he] at hz
        simp at hz
    | some j =>
      rw [List.findIdx?_eq_some_iff_getElem] at hf
      obtain ⟨hj, h1, _⟩ := hf
      simp only [Bool.and_eq_true, decide_eq_true_eq] at h1
      have hj' : ins[j]? = some ins[j] := List.getElem?_eq_getElem hj
      refine ⟨ins[j], by simp [hj'], h1.1, ?_, ?_⟩
      · rw [← h1.1]; exact (chan_of_owner h hj' h1.2).symm
      · intro k z hk he hz
        exact h k j z _ hk hj' (he.trans h1.1.symm) hz h1.2

theorem indexList_chan {ins : List Input} (h : One ins) {i : Nat} {x : Input} (hx : ins[i]? = some x) : indexList ins i = chan ins x.offset := by
  obtain ⟨y, h1, _, h3, _⟩ := findOwner_spec h hx
  simp [indexList, h1, h3]

theorem upd_get {ins : List Input} {i : Nat} {f : List (Option Nat) → List (Option Nat)} (k : Nat) :
    (upd ins i f)[k]? = (ins[k]?).map fun z => if findOwner ins i = k then { z with indices := f z.indices } else z := by
  simp only [upd, List.getElem?_modify]
  split <;> simp

theorem upd_offsets (ins : List Input) (i : Nat) (f : List (Option Nat) → List (Option Nat)) : (upd ins i f).map Input.offset = ins.map Input.offset := by
  apply List.ext_getElem?
  intro k
  simp only [List.getElem?_map, upd_get, Option.map_map]
  congr 1
  funext z
  simp only [Function.comp]
  split <;> rfl

theorem upd_one {ins : List Input} (h : One ins) {i : Nat} {x : Input} (hx : ins[i]? = some x) (f : List (Option Nat) → List (Option Nat)) :
    One (upd ins i f) := by
  obtain ⟨y, h1, h2, h3, h4⟩ := findOwner_spec h hx
  intro a b u v ha hb he hu hv
  rw [upd_get] at ha hb
  cases ha' : ins[a]? with
  | none => simp [ha'] at ha
  | some u' =>
    cases hb' : ins[b]? with
    | none => simp [hb'] at hb
    | some v' =>
      simp only [ha', Option.map_some, Option.some.injEq] at ha
      simp only [hb', Option.map_some, Option.some.injEq] at hb
      by_cases ea : findOwner ins i = a <;> by_cases eb : findOwner ins i = b
      · omega
      · rw [if_pos ea] at ha
        rw [if_neg eb] at hb
        subst ha hb
        rw [← ea, h1] at ha'
        cases ha'
        exact absurd (h4 b _ hb' (he.symm.trans h2) hv).symm eb
      · rw [if_neg ea] at ha
        rw [if_pos eb] at hb
        subst ha hb
        rw [← eb, h1] at hb'
        cases hb'
        exact absurd (h4 a _ ha' (he.trans h2) hu).symm ea
      · rw [if_neg ea] at ha
        rw [if_neg eb] at hb
        subst ha hb
        exact h a b _ _ ha' hb' he hu hv

theorem chan_absent {ins : List Input} {off : Nat} (h : ∀ x ∈ ins, x.offset ≠ off) : chan ins off = [] :=
  chan_none fun _ z hk he => absurd he (h z (List.mem_of_getElem? hk))

theorem upd_chan {ins : List Input} (h : One ins) {i : Nat} {x : Input} (hx : ins[i]? = some x) (f : List (Option Nat) → List (Option Nat)) (off : Nat) :
    chan (upd ins i f) off = if off = x.offset then f (chan ins off) else chan ins off := by
  obtain ⟨y, h1, h2, h3, h4⟩ := findOwner_spec h hx
  have hone := upd_one h hx f
  have hget : (upd ins i f)[findOwner ins i]? = some { y with indices := f y.indices } := by
    rw [upd_get, h1]; simp
  split
  · rename_i heq
    subst heq
    by_cases hf : f (chan ins x.offset) = []
    · rw [hf]
      apply chan_none
      intro k z hk he
      rw [upd_get] at hk
      cases hk' : ins[k]? with
      | none => simp [hk'] at hk
      | some z' =>
        simp only [hk', Option.map_some, Option.some.injEq] at hk
        by_cases e : findOwner ins i = k
        · rw [if_pos e] at hk
          subst hk
          rw [← e, h1] at hk'
          cases hk'
          simp [owns, h3, hf]
        · rw [if_neg e] at hk
          subst hk
          by_contra ho
          exact e (h4 k _ hk' he (by simpa using ho)).symm
    · have := chan_of_owner hone hget (by rw [owns_iff, h3]; exact hf)
      rw [h2, h3] at this
      exact this
  · rename_i hne
    by_cases hex : ∃ (k : Nat) (z : Input), ins[k]? = some z ∧ z.offset = off ∧ owns z = true
    · obtain ⟨k, z, hk, he, ho⟩ := hex
      have hkne : findOwner ins i ≠ k := by
        intro e
        rw [← e, h1] at hk
        cases hk
        exact hne (he.symm.trans h2)
      have hk2 : (upd ins i f)[k]? = some z := by rw [upd_get, hk]; simp [hkne]
      rw [← he, chan_of_owner h hk ho, chan_of_owner hone hk2 ho]
    · rw [chan_none (ins := ins), chan_none]
      · intro k z hk he
        rw [upd_get] at hk
        cases hk' : ins[k]? with
        | none => simp [hk'] at hk
        | some z' =>
          simp only [hk', Option.map_some, Option.some.injEq] at hk
          by_cases e : findOwner ins i = k
          · rw [if_pos e] at hk
            subst hk
            rw [← e, h1] at hk'
            cases hk'
            exact absurd (he.symm.trans h2) hne
          · rw [if_neg e] at hk
            subst hk
            by_contra ho
            exact hex ⟨k, _, hk', he, by simpa using ho⟩
      · intro k z hk he
        by_contra ho
        exact hex ⟨k, z, hk, he, by simpa using ho⟩

theorem get_offset {ins ins' : List Input} (h : ins'.map Input.offset = ins.map Input.offset) {i : Nat} {x : Input} (hx : ins[i]? = some x) :
    ∃ x', ins'[i]? = some x' ∧ x'.offset = x.offset := by
  have := congrArg (fun l => l[i]?) h
  simp only [List.getElem?_map, hx, Option.map_some] at this
  cases hx' : ins'[i]? with
  | none => simp [hx'] at this
  | some x' => exact ⟨x', rfl, by simpa [hx'] using this⟩

/-! ## AddFace -/

theorem findOwner_own {ins : List Input} {i : Nat} {x : Input} (hx : ins[i]? = some x) (ho : owns x = true) : findOwner ins i = i := by
  simp [findOwner, hx, ho]

/-- Changing the owned lists one after the other changes them all. -/
theorem owners_loop (g : List Input → Nat → List Input) (f : List (Option Nat) → List (Option Nat))
    (hg : ∀ ins i x, ins[i]? = some x → g ins i = if owns x then upd ins i f else ins) (ins : List Input) :
    (List.range ins.length).foldl g ins = ins.map fun x => if owns x then { x with indices := f x.indices } else x := by
  have key : ∀ n, n ≤ ins.length → (List.range n).foldl g ins =
      (ins.take n).map (fun x => if owns x then { x with indices := f x.indices } else x) ++ ins.drop n := by
    intro n
    induction n with
    | zero => intro _; simp
    | succ n ih =>
      intro hn
      rw [List.range_succ, List.foldl_append, ih (by omega)]
      simp only [List.foldl_cons, List.foldl_nil]
      have hget : ((ins.take n).map (fun x => if owns x then { x with indices := f x.indices } else x) ++ ins.drop n)[n]? = some ins[n] := by
        rw [List.getElem?_append_right (by simp; omega)]
        simp [List.length_take, Nat.min_eq_left (show n ≤ ins.length by omega)]
      rw [hg _ _ _ hget]
      have hdrop : ins.drop n = ins[n] :: ins.drop (n + 1) := (List.getElem_cons_drop (h := by omega)).symm
      have htake : ins.take (n + 1) = ins.take n ++ [ins[n]] := by rw [List.take_succ_eq_append_getElem (by omega)]
      split
      · rename_i ho
        simp only [upd, findOwner_own hget ho]
        rw [htake, hdrop, List.map_append]
        have hl : ((ins.take n).map (fun x => if owns x then { x with indices := f x.indices } else x)).length = n := by
          simp; omega
        rw [List.modify_eq_take_drop, List.take_append_of_le_length (by omega), List.take_of_length_le (by omega),
          List.drop_append_of_le_length (by omega), List.drop_of_length_le (by omega)]
        simp only [List.nil_append, List.modifyHead_cons, List.map_cons, List.map_nil, ho, if_true, List.append_assoc, List.cons_append]
      · rename_i ho
        rw [htake, hdrop, List.map_append]
        simp [ho]
  have := key ins.length (Nat.le_refl _)
  simpa using this

theorem map_owned_one {ins : List Input} (h : One ins) (f : List (Option Nat) → List (Option Nat)) :
    One (ins.map fun x => if owns x then { x with indices := f x.indices } else x) := by
  have key : ∀ x : Input, (if owns x then { x with indices := f x.indices } else x).offset = x.offset := by intro x; split <;> rfl
  have key2 : ∀ x : Input, owns (if owns x then { x with indices := f x.indices } else x) = true → owns x = true := by
    intro x; split
    · intro _; assumption
    · exact id
  intro a b u v ha hb he hu hv
  simp only [List.getElem?_map, Option.map_eq_some_iff] at ha hb
  obtain ⟨u', ha, rfl⟩ := ha
  obtain ⟨v', hb, rfl⟩ := hb
  exact h a b u' v' ha hb (by rw [key, key] at he; exact he) (key2 u' hu) (key2 v' hv)

theorem map_owned_chan {ins : List Input} (h : One ins) (f : List (Option Nat) → List (Option Nat)) (off : Nat) :
    chan (ins.map fun x => if owns x then { x with indices := f x.indices } else x) off = if chan ins off = [] then [] else f (chan ins off) := by
  by_cases hex : ∃ (k : Nat) (z : Input), ins[k]? = some z ∧ z.offset = off ∧ owns z = true
  · obtain ⟨k, z, hk, he, ho⟩ := hex
    subst he
    rw [chan_of_owner h hk ho, if_neg (owns_iff.mp ho)]
    have hk2 : (ins.map fun x => if owns x then { x with indices := f x.indices } else x)[k]? = some { z with indices := f z.indices } := by
      simp [hk, ho]
    by_cases hf : f z.indices = []
    · rw [hf]
      apply chan_none
      intro a u ha hu
      simp only [List.getElem?_map, Option.map_eq_some_iff] at ha
      obtain ⟨u', ha, rfl⟩ := ha
      by_cases hou : owns u' = true
      · rw [if_pos hou] at hu ⊢
        have := h a k u' z ha hk hu hou ho
        subst this
        rw [hk] at ha
        cases ha
        simp [owns, hf]
      · rw [if_neg hou]; simpa using hou
    · exact chan_of_owner (map_owned_one h f) hk2 (owns_iff.mpr hf)
  · have h1 : chan ins off = [] := by
      apply chan_none
      intro k z hk he
      by_contra ho
      exact hex ⟨k, z, hk, he, by simpa using ho⟩
    rw [h1, if_pos rfl]
    apply chan_none
    intro a u ha hu
    simp only [List.getElem?_map, Option.map_eq_some_iff] at ha
    obtain ⟨u', ha, rfl⟩ := ha
    by_cases hou : owns u' = true
    · rw [if_pos hou] at hu
      exact absurd ⟨a, u', ha, hu, hou⟩ hex
    · rw [if_neg hou]; simpa using hou

theorem map_owned_offsets (ins : List Input) (f : List (Option Nat) → List (Option Nat)) :
    (ins.map fun x => if owns x then { x with indices := f x.indices } else x).map Input.offset = ins.map Input.offset := by
  rw [List.map_map]
  congr 1
  funext x
  simp only [Function.comp]
  split <;> rfl

theorem addFace_inputs {ins : List Input} (h : One ins) {isNew : Bool} {degree s : Nat} (hs : ∀ x ∈ ins, (chan ins x.offset).length = s)
    (hnew : isNew = true ↔ s = 0) (hd : 0 < degree) :
    One ((List.range ins.length).foldl (addFaceStep isNew degree) ins) ∧
    ((List.range ins.length).foldl (addFaceStep isNew degree) ins).map Input.offset = ins.map Input.offset ∧
    ∀ x ∈ ins, chan ((List.range ins.length).foldl (addFaceStep isNew degree) ins) x.offset = chan ins x.offset ++ List.replicate degree none := by
  cases isNew with
  | false =>
    have hs0 : s ≠ 0 := by intro e; have := hnew.mpr e; simp at this
    have hg : ∀ ins' i x, ins'[i]? = some x → (fun ins' i => addFaceStep false degree ins' i) ins' i =
        if owns x then upd ins' i (fun l => resize (l.length + degree) l) else ins' := by
      intro ins' i x hx
      simp only [addFaceStep, hx, Option.map_some, Option.getD_some, Bool.false_eq_true, false_and, if_false, true_and]
      split
      · rename_i ho
        simp only [setIndexCount, upd, indexList, findOwner_own hx ho, hx, Option.map_some, Option.getD_some]
        apply List.ext_getElem?
        intro k
        simp only [List.getElem?_modify]
        by_cases e : i = k
        · subst e; simp [hx]
        · simp [e]
      · rfl
    have hloop := owners_loop (fun ins' i => addFaceStep false degree ins' i) _ hg ins
    rw [show (List.range ins.length).foldl (addFaceStep false degree) ins = _ from hloop]
    refine ⟨map_owned_one h (fun l => resize (l.length + degree) l), map_owned_offsets ins (fun l => resize (l.length + degree) l), ?_⟩
    intro x hx
    have hl := hs x hx
    rw [map_owned_chan h (fun l => resize (l.length + degree) l), if_neg (by intro e; rw [e] at hl; simp at hl; omega)]
    simp only [resize]
    rw [List.take_of_length_le (by omega)]
    simp
  | true =>
    have hs0 : s = 0 := hnew.mp rfl
    subst hs0
    have key : ∀ n, n ≤ ins.length → One ((List.range n).foldl (addFaceStep true degree) ins) ∧
        ((List.range n).foldl (addFaceStep true degree) ins).map Input.offset = ins.map Input.offset ∧
        ∀ off, chan ((List.range n).foldl (addFaceStep true degree) ins) off =
          if off ∈ (ins.take n).map Input.offset then List.replicate degree none else [] := by
      intro n
      induction n with
      | zero =>
        intro _
        refine ⟨h, rfl, ?_⟩
        intro off
        simp only [List.range_zero, List.foldl_nil, List.take_zero, List.map_nil, List.not_mem_nil, if_false]
        by_cases hex : ∃ x ∈ ins, x.offset = off
        · obtain ⟨x, hx, rfl⟩ := hex
          exact List.eq_nil_of_length_eq_zero (hs x hx)
        · exact chan_absent fun x hx he => hex ⟨x, hx, he⟩
      | succ n ih =>
        intro hn
        obtain ⟨i1, i2, i3⟩ := ih (by omega)
        have hgn : ins[n]? = some ins[n] := List.getElem?_eq_getElem (by omega)
        rw [List.range_succ, List.foldl_append]
        simp only [List.foldl_cons, List.foldl_nil]
        generalize hins' : (List.range n).foldl (addFaceStep true degree) ins = ins' at i1 i2 i3
        obtain ⟨x', hx', he⟩ := get_offset i2 hgn
        have htake : ins.take (n + 1) = ins.take n ++ [ins[n]] := by rw [List.take_succ_eq_append_getElem (by omega)]
        simp only [addFaceStep, Bool.true_eq_false, false_and, if_false, true_and]
        rw [indexList_chan i1 hx', he]
        have hc := i3 ins[n].offset
        by_cases hm : ins[n].offset ∈ (ins.take n).map Input.offset
        · rw [if_pos hm] at hc
          rw [if_neg (by rw [hc]; simp; omega)]
          refine ⟨i1, i2, ?_⟩
          intro off
          rw [i3 off, htake, List.map_append, List.map_singleton]
          simp only [List.mem_append, List.mem_singleton]
          by_cases ho : off ∈ (ins.take n).map Input.offset
          · rw [if_pos ho, if_pos (Or.inl ho)]
          · rw [if_neg ho, if_neg]
            rintro (h' | h')
            · exact ho h'
            · subst h'; exact ho hm
        · rw [if_neg hm] at hc
          rw [if_pos (by rw [hc]; rfl)]
          refine ⟨upd_one i1 hx' _, (upd_offsets _ _ _).trans i2, ?_⟩
          intro off
          simp only [setIndexCount]
          rw [upd_chan i1 hx', he, i3 off, htake, List.map_append, List.map_singleton]
          simp only [List.mem_append, List.mem_singleton]
          by_cases ho : off = ins[n].offset
          · subst ho
            rw [if_pos rfl, if_neg hm, if_pos (Or.inr rfl)]
            simp [resize]
          · rw [if_neg ho]
            by_cases h' : off ∈ (ins.take n).map Input.offset
            · rw [if_pos h', if_pos (Or.inl h')]
            · rw [if_neg h', if_neg]
              rintro (h2 | h2)
              · exact h' h2
              · exact ho h2
    obtain ⟨k1, k2, k3⟩ := key ins.length (Nat.le_refl _)
    refine ⟨k1, k2, ?_⟩
    intro x hx
    rw [k3, List.take_length, if_pos (List.mem_map_of_mem hx), List.eq_nil_of_length_eq_zero (hs x hx)]
    rfl

/-! ## RemoveFace -/

theorem shiftLoop_length (c : Nat) : ∀ n o l, (shiftLoop c n o l).length = l.length := by
  intro n
  induction n with
  | zero => intro o l; rfl
  | succ n ih => intro o l; simp [shiftLoop, ih]

theorem shiftLoop_get (c : Nat) : ∀ n o (l : List (Option Nat)), o + n + c ≤ l.length → ∀ k, (shiftLoop c n o l)[k]? =
    if o ≤ k ∧ k < o + n then l[k + c]? else l[k]? := by
  intro n
  induction n with
  | zero => intro o l _ k; rw [if_neg (by omega)]; rfl
  | succ n ih =>
    intro o l hl k
    simp only [shiftLoop]
    rw [ih (o + 1) _ (by simp; omega) k]
    have hg : l.getD (o + c) none = l[o + c]'(by omega) := by simp [List.getD, List.getElem?_eq_getElem (show o + c < l.length by omega)]
    by_cases h1 : o + 1 ≤ k ∧ k < o + 1 + n
    · rw [if_pos h1, if_pos (by omega), List.getElem?_set_ne (by omega)]
    · rw [if_neg h1]
      by_cases h2 : o = k
      · subst h2
        rw [if_pos (by omega), List.getElem?_set_self (by omega), hg, List.getElem?_eq_getElem (by omega)]
      · rw [if_neg (by omega), List.getElem?_set_ne h2]

theorem remove_indices (c o : Nat) (l : List (Option Nat)) (h : o + c ≤ l.length) :
    resize (max o (l.length - c)) (shiftLoop c (l.length - c - o) o l) = l.take o ++ l.drop (o + c) := by
  have hm : max o (l.length - c) = l.length - c := by omega
  rw [hm]
  simp only [resize, shiftLoop_length]
  rw [show l.length - c - l.length = 0 by omega, List.replicate_zero, List.append_nil]
  apply List.ext_getElem?
  intro k
  by_cases hk : k < l.length - c
  · rw [List.getElem?_take_of_lt hk, shiftLoop_get _ _ _ _ (by omega)]
    by_cases ho : o ≤ k
    · rw [if_pos (by omega), List.getElem?_append_right (by simp; omega)]
      simp only [List.length_take, List.getElem?_drop]
      congr 1
      omega
    · rw [if_neg (by omega), List.getElem?_append_left (by simp; omega), List.getElem?_take_of_lt (by omega)]
  · rw [List.getElem?_eq_none (by simp [shiftLoop_length]; omega), List.getElem?_eq_none (by simp; omega)]

theorem removeStep_ok {ins : List Input} {i : Nat} {x : Input} (hx : ins[i]? = some x) (o c : Nat) (hlen : owns x = true → o + c ≤ x.indices.length) :
    removeFaceStep o c ins i = some (if owns x then upd ins i (fun l => l.take o ++ l.drop (o + c)) else ins) := by
  by_cases ho : owns x = true
  · have h1 := hlen ho
    have hi : indexList ins i = x.indices := by simp [indexList, findOwner_own hx ho, hx]
    simp only [removeFaceStep, hx, Option.map_some, Option.getD_some, ho, hi, if_true]
    rw [if_neg (by simp)]
    by_cases hlt : o < x.indices.length
    · rw [if_pos hlt, if_pos (by omega)]
      congr 1
      apply List.ext_getElem?
      intro k
      have hr := remove_indices c o x.indices h1
      by_cases hc : c = 0
      · subst hc
        -- nothing moves
        have hid : ∀ n p (l : List (Option Nat)), shiftLoop 0 n p l = l := by
          intro n
          induction n with
          | zero => intro p l; rfl
          | succ n ih =>
            intro p l
            simp only [shiftLoop, ih, Nat.add_zero]
            by_cases hp : p < l.length
            · simp [List.getD, List.getElem?_eq_getElem hp]
            · exact List.set_eq_of_length_le (by omega)
        simp only [setIndexCount]
        have hfo : findOwner (upd ins i (shiftLoop 0 (x.indices.length - 0 - o) o)) i = i := by
          apply findOwner_own (x := x)
          · rw [upd_get, hx, findOwner_own hx ho]
            simp [hid]
          · exact ho
        rw [upd_get, hfo, upd_get, upd_get, findOwner_own hx ho]
        by_cases e : i = k
        · subst e
          simp [hx, hid, resize, Nat.max_eq_right (Nat.le_of_lt hlt)]
        · simp [e]
      · have hown2 : (upd ins i (shiftLoop c (x.indices.length - c - o) o))[i]? = some { x with indices := shiftLoop c (x.indices.length - c - o) o x.indices } := by
          rw [upd_get, hx, findOwner_own hx ho]; simp
        have hfo := findOwner_own hown2 (by
          rw [owns_iff]
          intro e
          have := congrArg List.length e
          rw [shiftLoop_length] at this
          have := owns_iff.mp ho
          simp_all)
        simp only [setIndexCount]
        rw [upd_get, hfo, upd_get, upd_get, findOwner_own hx ho]
        by_cases e : i = k
        · subst e
          simp [hx, hr]
        · simp [e]
    · rw [if_neg hlt]
      congr 1
      have hc : o + c = x.indices.length := by omega
      apply List.ext_getElem?
      intro k
      rw [upd_get, findOwner_own hx ho]
      by_cases e : i = k
      · subst e
        have : o = x.indices.length := by omega
        have hc0 : c = 0 := by omega
        simp [hx, this, hc0]
      · simp [e]
  · simp [removeFaceStep, hx, ho]

theorem foldlM_some (g : List Input → Nat → Option (List Input)) (g' : List Input → Nat → List Input) (I : List Input → Prop) : ∀ (l : List Nat) (ins : List Input),
    I ins → (∀ ins i, I ins → i ∈ l → g ins i = some (g' ins i) ∧ I (g' ins i)) → l.foldlM g ins = some (l.foldl g' ins) := by
  intro l
  induction l with
  | nil => intro ins _ _; rfl
  | cons i l ih =>
    intro ins hI h
    obtain ⟨h1, h2⟩ := h ins i hI (by simp)
    simp only [List.foldlM_cons, List.foldl_cons, h1]
    exact ih (g' ins i) h2 fun ins j hj hm => h ins j hj (by simp [hm])

/-! ## Faces and holes -/

theorem toHoles_gt : ∀ (fs : List Face) (s : Nat), ∀ h ∈ toHoles s fs, s < h := by
  intro fs
  induction fs with
  | nil => intro s h hh; simp [toHoles] at hh
  | cons f fs ih =>
    intro s h hh
    simp only [toHoles, List.mem_append, List.mem_range'_1] at hh
    rcases hh with hh | hh
    · omega
    · have := ih _ h hh; omega

theorem holeLoop_skip : ∀ (holes : List Nat) (index n : Nat), (∀ h ∈ holes, index < h) → holeLoop holes index n = n := by
  intro holes
  induction holes with
  | nil => intros; rfl
  | cons h holes ih =>
    intro index n hh
    have := hh h (by simp)
    simp only [holeLoop]
    rw [if_neg (by omega)]
    exact ih index n fun x hx => hh x (by simp [hx])

theorem holeLoop_range : ∀ (m s i n : Nat) (rest : List Nat), s ≤ i → holeLoop (List.range' s m ++ rest) i n = holeLoop rest (i + m) (n + m) := by
  intro m
  induction m with
  | zero => intros; simp
  | succ m ih =>
    intro s i n rest hs
    rw [List.range'_succ, List.cons_append, holeLoop, if_pos hs, ih (s + 1) (i + 1) (n + 1) rest (by omega)]
    congr 1 <;> omega

/-- The number of holes in some faces. -/
def holesIn (fs : List Face) : Nat := (fs.map fun f => f.2.length).sum

theorem holeLoop_faces : ∀ (fs : List Face) (s i n : Nat), i ≤ fs.length → holeLoop (toHoles s fs) (s + i) n = n + holesIn (fs.take i) := by
  intro fs
  induction fs with
  | nil => intro s i n hi; simp [toHoles, holeLoop, holesIn]
  | cons f fs ih =>
    intro s i n hi
    cases i with
    | zero =>
      simp only [List.take_zero, holesIn, List.map_nil, List.sum_nil, Nat.add_zero]
      exact holeLoop_skip _ _ _ fun h hh => toHoles_gt (f :: fs) s h hh
    | succ i =>
      simp only [toHoles]
      rw [holeLoop_range _ _ _ _ _ (by omega), show s + (i + 1) + f.2.length = (s + 1 + f.2.length) + i by omega, ih _ _ _ (by simpa using hi)]
      simp [holesIn]
      omega

theorem toCounts_length : ∀ fs : List Face, (toCounts fs).length = fs.length + holesIn fs := by
  intro fs
  induction fs with
  | nil => rfl
  | cons f fs ih => simp [toCounts, holesIn] at ih ⊢; omega

theorem toHoles_length : ∀ (fs : List Face) (s : Nat), (toHoles s fs).length = holesIn fs := by
  intro fs
  induction fs with
  | nil => intro s; rfl
  | cons f fs ih => intro s; simp [toHoles, holesIn, ih] 

theorem toCounts_append (fs gs : List Face) : toCounts (fs ++ gs) = toCounts fs ++ toCounts gs := by simp [toCounts]

theorem toCounts_sum : ∀ fs : List Face, (toCounts fs).sum = (fs.map faceSize).sum := by
  intro fs
  induction fs with
  | nil => rfl
  | cons f fs ih =>
    have : toCounts (f :: fs) = f.1 :: f.2 ++ toCounts fs := by simp [toCounts]
    rw [this]
    simp [ih, faceSize, Nat.add_assoc]

theorem toHoles_append : ∀ (fs gs : List Face) (s : Nat), toHoles s (fs ++ gs) = toHoles s fs ++ toHoles (s + (toCounts fs).length) gs := by
  intro fs
  induction fs with
  | nil => intro gs s; simp [toHoles, toCounts]
  | cons f fs ih =>
    intro gs s
    have : toCounts (f :: fs) = f.1 :: f.2 ++ toCounts fs := by simp [toCounts]
    simp only [List.cons_append, toHoles, ih, List.append_assoc, this, List.length_cons, List.length_append]
    rw [show s + 1 + f.2.length + (toCounts fs).length = s + (f.2.length + (toCounts fs).length + 1) by omega]

theorem toHoles_lt : ∀ (fs : List Face) (s : Nat), ∀ h ∈ toHoles s fs, h < s + (toCounts fs).length := by
  intro fs
  induction fs with
  | nil => intro s h hh; simp [toHoles] at hh
  | cons f fs ih =>
    intro s h hh
    have e : toCounts (f :: fs) = f.1 :: f.2 ++ toCounts fs := by simp [toCounts]
    rw [e]
    simp only [toHoles, List.mem_append, List.mem_range'_1] at hh
    simp only [List.length_append, List.length_cons, List.cons_append]
    rcases hh with hh | hh
    · omega
    · have := ih _ h hh; omega

theorem holeRun_range (holes : List Nat) (size : Nat) : ∀ (m n s : Nat), m ≤ n → s + m ≤ size → (∀ k, k < m → s + k ∈ holes) → s + m ∉ holes ∨ size ≤ s + m →
    holeRun holes size n s = m := by
  intro m
  induction m with
  | zero =>
    intro n s _ _ _ he
    cases n with
    | zero => rfl
    | succ n =>
      simp only [holeRun]
      by_cases hs : s < size
      · rw [if_pos hs, if_neg]
        rcases he with h | h
        · simpa using h
        · omega
      · rw [if_neg hs]
  | succ m ih =>
    intro n s hn hs hh he
    cases n with
    | zero => omega
    | succ n =>
      simp only [holeRun]
      have h0 := hh 0 (by omega)
      rw [if_pos (by omega), if_pos (by simpa using h0), ih n (s + 1) (by omega) (by omega)]
      · intro k hk
        have := hh (k + 1) (by omega)
        rwa [show s + (k + 1) = s + 1 + k by omega] at this
      · rwa [show s + (m + 1) = s + 1 + m by omega] at he

theorem split_at {fs : List Face} {i : Nat} (hi : i < fs.length) : ∃ as f bs, fs = as ++ f :: bs ∧ as.length = i ∧ fs[i]? = some f ∧ fs.take i = as := by
  refine ⟨fs.take i, fs[i], fs.drop (i + 1), ?_, by simp; omega, List.getElem?_eq_getElem hi, rfl⟩
  rw [List.getElem_cons_drop (h := hi), List.take_append_drop]

theorem exists_faces : ∀ (counts holes : List Nat) (s : Nat), holes.Pairwise (· < ·) → (∀ h ∈ holes, s ≤ h ∧ h < s + counts.length) →
    ∃ (pre : List Nat) (fs : List Face), counts = pre ++ toCounts fs ∧ holes = List.range' s pre.length ++ toHoles (s + pre.length) fs := by
  intro counts
  induction counts with
  | nil =>
    intro holes s _ hr
    have : holes = [] := by
      apply List.eq_nil_iff_forall_not_mem.mpr
      intro h hh; have := hr h hh; simp at this; omega
    subst this
    exact ⟨[], [], rfl, rfl⟩
  | cons c counts ih =>
    intro holes s hp hr
    by_cases hs : s ∈ holes
    · obtain ⟨h0, hs', rfl⟩ : ∃ h0 hs', holes = h0 :: hs' := by
        cases holes with
        | nil => simp at hs
        | cons a b => exact ⟨a, b, rfl⟩
      rw [List.pairwise_cons] at hp
      have h0s : h0 = s := by
        have h1 := hr h0 (by simp)
        rcases List.mem_cons.mp hs with e | hm
        · exact e.symm
        · have := hp.1 s hm; omega
      subst h0s
      obtain ⟨pre, fs, e1, e2⟩ := ih hs' (h0 + 1) hp.2 (by
        intro h hh
        have h1 := hp.1 h hh
        have h2 := hr h (by simp [hh])
        simp only [List.length_cons] at h2
        omega)
      refine ⟨c :: pre, fs, by rw [e1]; rfl, ?_⟩
      rw [List.length_cons, List.range'_succ, List.cons_append, e2]
      congr 3
      omega
    · obtain ⟨pre, fs, e1, e2⟩ := ih holes (s + 1) hp (by
        intro h hh
        have h2 := hr h hh
        simp only [List.length_cons] at h2
        have : h ≠ s := fun e => hs (e ▸ hh)
        omega)
      refine ⟨[], (c, pre) :: fs, by rw [e1]; simp [toCounts], ?_⟩
      rw [e2]
      simp [toHoles]

theorem insertHole_mem (i : Nat) : ∀ (l : List Nat) (z : Nat), z ∈ insertHole i l ↔ z = i ∨ z ∈ l := by
  intro l
  induction l with
  | nil => simp [insertHole]
  | cons h l ih =>
    intro z
    simp only [insertHole]
    split
    · simp
    · simp only [List.mem_cons, ih]
      constructor
      · rintro (h | h | h) <;> simp [h]
      · rintro (h | h | h) <;> simp [h]

theorem insertHole_sorted (i : Nat) : ∀ (l : List Nat), l.Pairwise (· < ·) → i ∉ l → (insertHole i l).Pairwise (· < ·) := by
  intro l
  induction l with
  | nil => intros; simp [insertHole]
  | cons h l ih =>
    intro hp hn
    rw [List.pairwise_cons] at hp
    simp only [List.mem_cons, not_or] at hn
    simp only [insertHole]
    split
    · rename_i hlt
      rw [List.pairwise_cons, List.pairwise_cons]
      refine ⟨?_, hp⟩
      intro z hz
      rcases List.mem_cons.mp hz with rfl | hz
      · exact hlt
      · have := hp.1 z hz; omega
    · rename_i hlt
      rw [List.pairwise_cons]
      refine ⟨?_, ih hp.2 hn.2⟩
      intro z hz
      rcases (insertHole_mem i l z).mp hz with rfl | hz
      · omega
      · exact hp.1 z hz

end Verif.FPoly
