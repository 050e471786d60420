import Verif.MeshTrackLemmas
import Verif.FitLemmas

/-!
# Lemmas about index lists when inputs are removed or cloned
-/

namespace Verif.FMesh

open Verif.FPoly Verif.FUnify Verif.FFit
open scoped Classical

theorem one_iff (ins : List Input) : FPoly.One ins ↔ ins.Pairwise fun x y => owns x = true → owns y = true → x.offset ≠ y.offset := by
  rw [List.pairwise_iff_getElem]
  constructor
  · intro h i j hi hj hij hx hy he
    have := h i j _ _ (List.getElem?_eq_getElem hi) (List.getElem?_eq_getElem hj) he hx hy
    omega
  · intro h i j x y hi hj he hx hy
    obtain ⟨hi', rfl⟩ := List.getElem?_eq_some_iff.1 hi
    obtain ⟨hj', rfl⟩ := List.getElem?_eq_some_iff.1 hj
    rcases Nat.lt_trichotomy i j with hlt | heq | hlt
    · exact absurd he (h i j hi' hj' hlt hx hy)
    · exact heq
    · exact absurd he.symm (h j i hj' hi' hlt hy hx)

theorem one_sublist {ins ins' : List Input} (h : FPoly.One ins) (hs : ins'.Sublist ins) : FPoly.One ins' := by
  rw [one_iff] at h ⊢
  exact h.sublist hs

theorem chan_mem {ins : List Input} (h : FPoly.One ins) {z : Input} (hz : z ∈ ins) (ho : owns z = true) : chan ins z.offset = z.indices := by
  obtain ⟨k, hk⟩ := List.mem_iff_getElem?.1 hz
  exact chan_of_owner h hk ho

theorem chan_nobody {ins : List Input} {o : Nat} (h : ∀ z ∈ ins, z.offset = o → owns z = false) : chan ins o = [] :=
  chan_none fun _ z hk he => h z (List.mem_of_getElem? hk) he

/-- One input is removed. -/
theorem chan_removed {ins ins' : List Input} (h : FPoly.One ins) (hs : ins'.Sublist ins) {k : Nat} {x : Input} (hk : ins[k]? = some x)
    (hout : ∀ z ∈ ins', ∃ j, j ≠ k ∧ ins[j]? = some z) (hin : ∀ j, j ≠ k → ∀ z, ins[j]? = some z → z ∈ ins') (o : Nat) :
    chan ins' o = if owns x = true ∧ o = x.offset then [] else chan ins o := by
  split
  · rename_i hc
    refine chan_nobody fun z hz he => ?_
    cases ho : owns z with
    | false => rfl
    | true =>
      obtain ⟨j, hj, hjz⟩ := hout z hz
      exact absurd (h j k z x hjz hk (he.trans hc.2) ho hc.1) hj
  · rename_i hc
    by_cases hex : ∃ z ∈ ins', owns z = true ∧ z.offset = o
    · obtain ⟨z, hz, ho, rfl⟩ := hex
      rw [chan_mem (one_sublist h hs) hz ho, chan_mem h (hs.subset hz) ho]
    · rw [chan_nobody (ins := ins'), chan_none]
      · intro j z hj he
        cases ho : owns z with
        | false => rfl
        | true =>
          by_cases hjk : j = k
          · subst hjk
            rw [hk] at hj
            obtain rfl := Option.some.inj hj
            exact absurd ⟨ho, he.symm⟩ hc
          · exact absurd ⟨z, hin j hjk z hj, ho, he⟩ hex
      · intro z hz he
        cases ho : owns z with
        | false => rfl
        | true => exact absurd ⟨z, hz, ho, he⟩ hex

/-! ## The inputs of a polygon set over time -/

theorem map_input_congr {xs : List TInput} {f : TInput → TInput} (h : ∀ x ∈ xs, (f x).input = x.input) : (xs.map f).map TInput.input = xs.map TInput.input := by
  rw [List.map_map]
  exact List.map_congr_left h

theorem act_one {w w' : World} (h : TInv w) (h1 : FPoly.One (w.inputs.map TInput.input)) {a : Act} (ha : Allowed w a) (he : act w a = some w') :
    FPoly.One (w'.inputs.map TInput.input) := by
  cases a with
  | createSource d =>
    obtain ⟨v, e, _, hi, _⟩ := createSource_eq h ha
    obtain rfl := Option.some.inj (e.symm.trans he)
    rwa [hi]
  | releaseSource d =>
    obtain ⟨v, e, _, hi, _⟩ := releaseSource_eq h ha
    obtain rfl := Option.some.inj (e.symm.trans he)
    rw [hi, map_input_congr]
    · exact h1
    · intro x _
      split <;> rfl
  | addInput s offset =>
    obtain ⟨v, e, _, hi, _⟩ := addInput_eq h ha offset
    obtain rfl := Option.some.inj (e.symm.trans he)
    rw [hi, List.map_append]
    exact one_snoc h1 offset
  | releaseInput n =>
    obtain ⟨x, hx, rfl⟩ := ha
    obtain ⟨v, e, _, hi, _⟩ := releaseInput_eq h hx
    obtain rfl := Option.some.inj (e.symm.trans he)
    rw [hi]
    exact one_sublist h1 (List.filter_sublist.map _)
  | setSource n s =>
    obtain ⟨⟨x, hx, rfl⟩, hs⟩ := ha
    obtain rfl := Option.some.inj ((setSource_eq h hx hs).symm.trans he)
    show FPoly.One ((w.inputs.map fun y => if y.name = x.name then { y with src := s } else y).map TInput.input)
    rw [map_input_congr]
    · exact h1
    · intro x _
      split <;> rfl
  | setIndices n l =>
    obtain ⟨x, hx, rfl⟩ := ha
    obtain ⟨k, hk⟩ := List.mem_iff_getElem?.1 hx
    obtain ⟨v, e, _, _, hi, _⟩ := setIndices_eq h hk l
    obtain rfl := Option.some.inj (e.symm.trans he)
    rw [hi]
    exact upd_one h1 (x := x.input) (by simp [hk]) _

theorem reached_one {w : World} (h : Reached w) : FPoly.One (w.inputs.map TInput.input) := by
  induction h with
  | start => intro i j x y hi; simp [start] at hi
  | step hr ha he ih => exact act_one (reached_inv hr) ih ha he

/-! ## A source becomes per-vertex -/

theorem idxOf_get {l : List Nat} (hn : l.Nodup) {j d : Nat} (h : l[j]? = some d) : l.idxOf d = j := by
  obtain ⟨hj, rfl⟩ := List.getElem?_eq_some_iff.1 h
  exact hn.idxOf_getElem j hj

theorem get_idxOf {l : List Nat} {d : Nat} (h : d ∈ l) : l[l.idxOf d]? = some d := List.getElem?_idxOf h

theorem get_input {S : MSet} (h : S.srcs.length = S.polys.inputs.length) {d : Nat} (hd : d ∈ S.srcs) : ∃ x, S.polys.inputs[S.srcs.idxOf d]? = some x :=
  ⟨_, List.getElem?_eq_getElem (by rw [← h]; exact List.idxOf_lt_length_of_mem hd)⟩

theorem findInput_eq {S : MSet} {d : Nat} (hd : d ∈ S.srcs) : findInput S d = some (S.srcs.idxOf d) := by
  unfold findInput
  rw [List.findIdx?_eq_some_iff_getElem]
  refine ⟨List.idxOf_lt_length_of_mem hd, by simp, fun j hj => ?_⟩
  simp only [decide_eq_true_eq]
  intro hc
  have := List.not_of_lt_findIdx (p := (· == d)) (xs := S.srcs) hj
  simp [hc] at this

theorem findInput_none {S : MSet} {d : Nat} (hd : d ∉ S.srcs) : findInput S d = none := by
  unfold findInput
  rw [List.findIdx?_eq_none_iff]
  intro x hx
  simp only [decide_eq_false_iff_not]
  rintro rfl
  exact hd hx

theorem erase_get {α : Type} {l : List α} {i j : Nat} (hij : j ≠ i) {x : α} (h : l[j]? = some x) : (l.eraseIdx i)[if j < i then j else j - 1]? = some x := by
  rw [List.getElem?_eraseIdx]
  by_cases hlt : j < i
  · rw [if_pos hlt, if_pos hlt, h]
  · rw [if_neg hlt, if_neg (by omega), show j - 1 + 1 = j by omega, h]

theorem erase_from {α : Type} {l : List α} {i k : Nat} {x : α} (h : (l.eraseIdx i)[k]? = some x) : ∃ j, j ≠ i ∧ l[j]? = some x := by
  rw [List.getElem?_eraseIdx] at h
  split at h
  · exact ⟨k, by omega, h⟩
  · exact ⟨k + 1, by omega, h⟩

/-- What is said of the set in which the source `d` has become per-vertex. -/
structure Vertexed (S T : MSet) (d : Nat) : Prop where
  mem : d ∈ T.srcs
  offset : offsetOf T d = some 0
  nodup : T.srcs.Nodup
  others : ∀ e, e ≠ d → (e ∈ T.srcs ↔ e ∈ S.srcs)
  offsets : ∀ e ∈ S.srcs, e ≠ d → offsetOf T e = offsetOf S e
  own : ∀ o, chan T.polys.inputs o = if (∃ x, S.polys.inputs[S.srcs.idxOf d]? = some x ∧ owns x = true ∧ o = x.offset) ∧ d ∈ S.srcs then [] else chan S.polys.inputs o
  one : FPoly.One T.polys.inputs
  rest : T.polys = { S.polys with inputs := T.polys.inputs }
  len : T.srcs.length = T.polys.inputs.length

theorem vertexInput_ok {S : MSet} (h1 : FPoly.One S.polys.inputs) (hl : S.srcs.length = S.polys.inputs.length) (hn : S.srcs.Nodup) (d : Nat) :
    Vertexed S (vertexInput d S) d := by
  by_cases hd : d ∈ S.srcs
  · have hi := findInput_eq hd
    obtain ⟨x, hx⟩ := get_input hl hd
    have hlt := List.idxOf_lt_length_of_mem hd
    have e : vertexInput d S = { polys := { S.polys with inputs := S.polys.inputs.eraseIdx (S.srcs.idxOf d) ++ [⟨0, []⟩] }, srcs := S.srcs.eraseIdx (S.srcs.idxOf d) ++ [d] } := by
      unfold vertexInput
      rw [hi]
    have hdn : d ∉ S.srcs.eraseIdx (S.srcs.idxOf d) := by
      intro hm
      obtain ⟨k, hk⟩ := List.mem_iff_getElem?.1 hm
      obtain ⟨j, hj, hjd⟩ := erase_from hk
      exact hj ((idxOf_get hn hjd).symm)
    have hnd : (S.srcs.eraseIdx (S.srcs.idxOf d) ++ [d]).Nodup := by
      rw [List.nodup_append]
      refine ⟨hn.sublist (List.eraseIdx_sublist _ _), by simp, ?_⟩
      intro a ha b hb hab
      simp only [List.mem_singleton] at hb
      rw [hab, hb] at ha
      exact hdn ha
    have hlen : (S.srcs.eraseIdx (S.srcs.idxOf d)).length = (S.polys.inputs.eraseIdx (S.srcs.idxOf d)).length := by
      rw [List.length_eraseIdx_of_lt hlt, List.length_eraseIdx_of_lt (by rw [← hl]; exact hlt), hl]
    have hidx : (S.srcs.eraseIdx (S.srcs.idxOf d) ++ [d]).idxOf d = (S.srcs.eraseIdx (S.srcs.idxOf d)).length := idxOf_get hnd (by simp)
    rw [e]
    refine ⟨by simp, ?_, hnd, ?_, ?_, ?_, ?_, rfl, ?_⟩
    · simp only [offsetOf]
      rw [hidx, hlen]
      simp
    · intro a ha
      simp only [List.mem_append, List.mem_singleton]
      constructor
      · rintro (hm | hm)
        · exact List.mem_of_mem_eraseIdx hm
        · exact absurd hm ha
      · intro hm
        have := get_idxOf hm
        refine .inl (List.mem_of_getElem? (erase_get (i := S.srcs.idxOf d) ?_ this))
        intro hc
        rw [hc, get_idxOf hd] at this
        exact ha (Option.some.inj this).symm
    · intro a ha hne
      obtain ⟨y, hy⟩ := get_input hl ha
      have hpos : S.srcs.idxOf a ≠ S.srcs.idxOf d := by
        intro hc
        have := get_idxOf ha
        rw [hc, get_idxOf hd] at this
        exact hne (Option.some.inj this).symm
      have g1 := erase_get hpos (get_idxOf ha)
      have g2 := erase_get hpos hy
      have hb := (List.getElem?_eq_some_iff.1 g1).1
      simp only [offsetOf]
      rw [idxOf_get hnd (by rw [List.getElem?_append_left hb]; exact g1), List.getElem?_append_left (by rw [← hlen]; exact hb), g2, hy]
    · intro o
      show chan (S.polys.inputs.eraseIdx (S.srcs.idxOf d) ++ [⟨0, []⟩]) o = _
      rw [chan_append_empty, chan_removed h1 (List.eraseIdx_sublist _ _) hx]
      · simp [hx, hd]
      · intro z hz
        obtain ⟨k, hk⟩ := List.mem_iff_getElem?.1 hz
        exact erase_from hk
      · intro j hj z hz
        exact List.mem_of_getElem? (erase_get hj hz)
    · exact one_snoc (one_sublist h1 (List.eraseIdx_sublist _ _)) 0
    · simp only [List.length_append, hlen]
      rfl
  · have e : vertexInput d S = { polys := { S.polys with inputs := S.polys.inputs ++ [⟨0, []⟩] }, srcs := S.srcs ++ [d] } := by
      unfold vertexInput
      rw [findInput_none hd]
    have hnd : (S.srcs ++ [d]).Nodup := by
      rw [List.nodup_append]
      refine ⟨hn, by simp, ?_⟩
      intro a ha b hb hab
      simp only [List.mem_singleton] at hb
      rw [hab, hb] at ha
      exact hd ha
    rw [e]
    refine ⟨by simp, ?_, hnd, ?_, ?_, ?_, one_snoc h1 0, rfl, ?_⟩
    · simp only [offsetOf]
      rw [idxOf_get hnd (j := S.srcs.length) (by simp), hl]
      simp
    · intro a ha
      simp [ha]
    · intro a ha hne
      have hb := List.idxOf_lt_length_of_mem ha
      simp only [offsetOf]
      rw [idxOf_get hnd (j := S.srcs.idxOf a) (by rw [List.getElem?_append_left hb]; exact get_idxOf ha), List.getElem?_append_left (by rw [← hl]; exact hb)]
    · intro o
      show chan (S.polys.inputs ++ [⟨0, []⟩]) o = _
      rw [chan_append_empty, if_neg (by simp [hd])]
    · simp only [List.length_append, hl]
      rfl

theorem indicesOf_chan {S : MSet} (h1 : FPoly.One S.polys.inputs) {d o : Nat} (h : offsetOf S d = some o) : indicesOf S d = chan S.polys.inputs o := by
  unfold offsetOf at h
  obtain ⟨x, hx, rfl⟩ := Option.map_eq_some_iff.1 h
  exact indexList_chan h1 hx

/-! ## Clones -/

/-- The clone of a set after `k` inputs. -/
structure CloneInv (vs : List Nat) (S : MSet) (k : Nat) (C : MSet) : Prop where
  one : FPoly.One C.polys.inputs
  slen : C.srcs.length = C.polys.inputs.length
  nodup : C.srcs.Nodup
  off : ∀ (i d : Nat) (y : Input), C.srcs[i]? = some d → C.polys.inputs[i]? = some y → ∀ (j : Nat) (x : Input), S.srcs[j]? = some d → S.polys.inputs[j]? = some x →
    y.offset = x.offset
  only : ∀ d ∈ C.srcs, d ∈ vs ∨ d ∈ S.srcs
  sub : ∀ d ∈ vs, d ∈ C.srcs
  done : ∀ j, j < k → ∀ d, S.srcs[j]? = some d → d ∈ C.srcs
  chans : ∀ o, chan C.polys.inputs o = if ∃ j x, j < k ∧ S.polys.inputs[j]? = some x ∧ x.offset = o ∧ owns x = true then chan S.polys.inputs o else []
  prim : C.polys.prim = .polygons

theorem newSet_clone {vs : List Nat} (hv : vs.Nodup) {S : MSet}
    (hz : ∀ (j d : Nat) (x : Input), S.srcs[j]? = some d → S.polys.inputs[j]? = some x → d ∈ vs → x.offset = 0) : CloneInv vs S 0 (newSet vs) := by
  have key : ∀ (i : Nat) (y : Input), (newSet vs).polys.inputs[i]? = some y → y = ⟨0, []⟩ := by
    intro i y hi
    simp only [newSet, List.getElem?_map, Option.map_eq_some_iff] at hi
    obtain ⟨_, _, h⟩ := hi
    exact h.symm
  refine ⟨?_, by simp [newSet], hv, ?_, fun d hd => .inl hd, fun d hd => hd, fun j hj => by omega, ?_, rfl⟩
  · intro i j x y hi _ _ hx _
    rw [key i x hi] at hx
    simp [owns] at hx
  · intro i d y hi hy j x hj hx
    rw [key i y hy]
    exact (hz j d x hj hx (List.mem_of_getElem? hi)).symm
  · intro o
    rw [if_neg (by rintro ⟨j, _, hj, _⟩; omega)]
    refine chan_none fun k z hk _ => ?_
    rw [key k z hk]
    rfl

/-- The index list of the input `k` is stored in the input `i` of the clone. -/
theorem cloneIndices_ok {vs : List Nat} {S C : MSet} {k i d : Nat} {x y : Input} (hS : FPoly.One S.polys.inputs) (hx : S.polys.inputs[k]? = some x) (hd : S.srcs[k]? = some d)
    (h : CloneInv vs S k C) (hi : C.srcs[i]? = some d) (hy : C.polys.inputs[i]? = some y) : CloneInv vs S (k + 1) (cloneIndices S k x C i) := by
  have he := h.off i d y hi hy k x hd hx
  have hdone : ∀ j, j < k + 1 → ∀ e, S.srcs[j]? = some e → e ∈ C.srcs := by
    intro j hj e he
    by_cases hjk : j = k
    · subst hjk
      rw [hd] at he
      obtain rfl := Option.some.inj he
      exact List.mem_of_getElem? hi
    · exact h.done j (by omega) e he
  unfold cloneIndices
  by_cases ho : owns x = true
  · rw [if_pos ho]
    have hoffs : (FPoly.setIndices C.polys.inputs i (indexList S.polys.inputs k)).map Input.offset = C.polys.inputs.map Input.offset := upd_offsets _ _ _
    refine ⟨upd_one h.one hy (fun _ => indexList S.polys.inputs k), ?_, h.nodup, ?_, h.only, h.sub, hdone, ?_, h.prim⟩
    · show C.srcs.length = (FPoly.setIndices C.polys.inputs i (indexList S.polys.inputs k)).length
      rw [h.slen, ← List.length_map (f := Input.offset) (as := FPoly.setIndices _ _ _), hoffs, List.length_map]
    · intro a e z ha hz j u hj hu
      obtain ⟨z0, hz0, hoff⟩ := get_offset hoffs.symm (show (FPoly.setIndices C.polys.inputs i (indexList S.polys.inputs k))[a]? = some z from hz)
      rw [← hoff]
      exact h.off a e z0 ha hz0 j u hj hu
    · intro o
      show chan (upd C.polys.inputs i fun _ => indexList S.polys.inputs k) o = _
      rw [upd_chan h.one hy, he, h.chans, indexList_chan hS hx]
      by_cases hoo : o = x.offset
      · subst hoo
        rw [if_pos rfl, if_pos ⟨k, x, by omega, hx, rfl, ho⟩]
      · rw [if_neg hoo]
        by_cases hex : ∃ j x, j < k ∧ S.polys.inputs[j]? = some x ∧ x.offset = o ∧ owns x = true
        · rw [if_pos hex]
          obtain ⟨j, z, a1, a2⟩ := hex
          rw [if_pos ⟨j, z, by omega, a2⟩]
        · rw [if_neg hex, if_neg]
          rintro ⟨j, z, a1, a2, a3, a4⟩
          by_cases hjk : j = k
          · subst hjk
            rw [hx] at a2
            obtain rfl := Option.some.inj a2
            exact hoo a3.symm
          · exact hex ⟨j, z, by omega, a2, a3, a4⟩
  · rw [if_neg ho]
    refine ⟨h.one, h.slen, h.nodup, h.off, h.only, h.sub, hdone, ?_, h.prim⟩
    intro o
    rw [h.chans]
    by_cases hex : ∃ j x, j < k ∧ S.polys.inputs[j]? = some x ∧ x.offset = o ∧ owns x = true
    · rw [if_pos hex]
      obtain ⟨j, z, a1, a2⟩ := hex
      rw [if_pos ⟨j, z, by omega, a2⟩]
    · rw [if_neg hex, if_neg]
      rintro ⟨j, z, a1, a2, a3, a4⟩
      by_cases hjk : j = k
      · subst hjk
        rw [hx] at a2
        obtain rfl := Option.some.inj a2
        exact ho a4
      · exact hex ⟨j, z, by omega, a2, a3, a4⟩

theorem addInput_clone {vs : List Nat} {S C : MSet} {k d : Nat} {x : Input} (hn : S.srcs.Nodup) (hx : S.polys.inputs[k]? = some x) (hd : S.srcs[k]? = some d)
    (h : CloneInv vs S k C) (hdC : d ∉ C.srcs) : CloneInv vs S k ⟨FPoly.addInput C.polys x.offset, C.srcs ++ [d]⟩ := by
  refine ⟨one_snoc h.one _, ?_, ?_, ?_, ?_, fun e he => List.mem_append_left _ (h.sub e he), fun j hj e he => List.mem_append_left _ (h.done j hj e he), ?_, h.prim⟩
  · simp [FPoly.addInput, h.slen]
  · show (C.srcs ++ [d]).Nodup
    rw [List.nodup_append]
    refine ⟨h.nodup, by simp, ?_⟩
    intro a ha b hb hab
    simp only [List.mem_singleton] at hb
    rw [hab, hb] at ha
    exact hdC ha
  · intro a e z ha hz j u hj hu
    have ha : (C.srcs ++ [d])[a]? = some e := ha
    have hz : (C.polys.inputs ++ [⟨x.offset, []⟩])[a]? = some z := hz
    by_cases hlt : a < C.srcs.length
    · rw [List.getElem?_append_left hlt] at ha
      rw [List.getElem?_append_left (by rw [← h.slen]; exact hlt)] at hz
      exact h.off a e z ha hz j u hj hu
    · have hal : a = C.srcs.length := by
        have := (List.getElem?_eq_some_iff.1 ha).1
        simp at this
        omega
      subst hal
      simp only [List.getElem?_concat_length, Option.some.injEq] at ha
      subst ha
      rw [h.slen] at hz
      simp only [List.getElem?_concat_length, Option.some.injEq] at hz
      subst hz
      have hjk : j = k := by rw [← idxOf_get hn hj, ← idxOf_get hn hd]
      subst hjk
      rw [hx] at hu
      obtain rfl := Option.some.inj hu
      rfl
  · intro e he
    rcases List.mem_append.1 he with he | he
    · exact h.only e he
    · simp only [List.mem_singleton] at he
      rw [he]
      exact .inr (List.mem_of_getElem? hd)
  · intro o
    show chan (C.polys.inputs ++ [⟨x.offset, []⟩]) o = _
    rw [chan_append_empty]
    exact h.chans o

theorem cloneInput_ok {vs : List Nat} {S C : MSet} {k n : Nat} (hS : FPoly.One S.polys.inputs) (hl : S.srcs.length = S.polys.inputs.length) (hn : S.srcs.Nodup)
    (hknown : ∀ d ∈ S.srcs, d < n) (hk : k < S.polys.inputs.length) (h : CloneInv vs S k C) : ∃ C', cloneInput n S C k = some C' ∧ CloneInv vs S (k + 1) C' := by
  obtain ⟨x, hx⟩ : ∃ x, S.polys.inputs[k]? = some x := ⟨_, List.getElem?_eq_getElem hk⟩
  obtain ⟨d, hd⟩ : ∃ d, S.srcs[k]? = some d := ⟨_, List.getElem?_eq_getElem (by omega)⟩
  unfold cloneInput
  simp only [hd, hx]
  rw [if_pos (hknown d (List.mem_of_getElem? hd))]
  by_cases hm : d ∈ C.srcs
  · rw [findInput_eq hm]
    obtain ⟨y, hy⟩ := get_input h.slen hm
    exact ⟨_, rfl, cloneIndices_ok hS hx hd h (get_idxOf hm) hy⟩
  · rw [findInput_none hm]
    have h' := addInput_clone hn hx hd h hm
    refine ⟨_, rfl, cloneIndices_ok (y := ⟨x.offset, []⟩) hS hx hd h' (by simp) ?_⟩
    show (C.polys.inputs ++ [⟨x.offset, []⟩])[C.srcs.length]? = _
    rw [h.slen]
    simp

theorem cloneInputs_ok {vs : List Nat} {S : MSet} {n : Nat} (hS : FPoly.One S.polys.inputs) (hl : S.srcs.length = S.polys.inputs.length) (hn : S.srcs.Nodup)
    (hknown : ∀ d ∈ S.srcs, d < n) : ∀ (m k : Nat) (C : MSet), k + m = S.polys.inputs.length → CloneInv vs S k C →
      ∃ C', (List.range' k m).foldlM (cloneInput n S) C = some C' ∧ CloneInv vs S (k + m) C' := by
  intro m
  induction m with
  | zero => intro k C _ h; exact ⟨C, rfl, h⟩
  | succ m ih =>
    intro k C hkm h
    obtain ⟨C1, e1, h1⟩ := cloneInput_ok hS hl hn hknown (by omega) h
    obtain ⟨C2, e2, h2⟩ := ih (k + 1) C1 (by omega) h1
    refine ⟨C2, ?_, by rw [show k + (m + 1) = k + 1 + m by omega]; exact h2⟩
    rw [List.range'_succ, List.foldlM_cons, e1]
    exact e2

theorem cloneSet_ok {vs : List Nat} (hv : vs.Nodup) {S : PSet} {n : Nat} (hb : Built S.set) (hknown : ∀ d ∈ S.set.srcs, d < n)
    (hz : ∀ d ∈ S.set.srcs, d ∈ vs → offsetOf S.set d = some 0) :
    ∃ T, cloneSet n vs S = some T ∧ SameSet S T ∧ T.set.polys.prim = .polygons ∧ (∀ d ∈ T.set.srcs, d ∈ vs ∨ d ∈ S.set.srcs) := by
  have hS := (reach_inv hb.reach).one
  have h0 : CloneInv vs S.set 0 (newSet vs) := by
    refine newSet_clone hv fun j d x hj hx hd => ?_
    have := hz d (List.mem_of_getElem? hj) hd
    unfold offsetOf at this
    rw [idxOf_get hb.nodup hj, hx] at this
    simpa using this
  obtain ⟨C, e, h⟩ := cloneInputs_ok hS hb.srcs hb.nodup hknown S.set.polys.inputs.length 0 _ (by omega) h0
  rw [← List.range_eq_range', Nat.zero_add] at *
  refine ⟨_, by rw [cloneSet, e, Option.map_some], ?_, h.prim, h.only⟩
  have hmem : ∀ d ∈ S.set.srcs, d ∈ C.srcs := fun d hd =>
    h.done _ (by rw [← hb.srcs]; exact List.idxOf_lt_length_of_mem hd) d (get_idxOf hd)
  have hoff : ∀ d ∈ S.set.srcs, offsetOf C d = offsetOf S.set d := by
    intro d hd
    obtain ⟨x, hx⟩ := get_input hb.srcs hd
    obtain ⟨y, hy⟩ := get_input h.slen (hmem d hd)
    unfold offsetOf
    rw [hx, hy, Option.map_some, Option.map_some, h.off _ d y (get_idxOf (hmem d hd)) hy _ x (get_idxOf hd) hx]
  refine ⟨rfl, rfl, rfl, rfl, hmem, hoff, fun d hd => ?_⟩
  obtain ⟨x, hx⟩ := get_input hb.srcs hd
  have h1 : offsetOf S.set d = some x.offset := by rw [offsetOf, hx]; rfl
  show indicesOf C d = _
  rw [indicesOf_chan h.one ((hoff d hd).trans h1), indicesOf_chan hS h1, h.chans]
  split
  · rfl
  · rename_i hno
    symm
    refine chan_none fun j z hj he => ?_
    cases ho : owns z with
    | false => rfl
    | true => exact absurd ⟨j, z, (List.getElem?_eq_some_iff.1 hj).1, hj, he, ho⟩ hno

end Verif.FMesh
