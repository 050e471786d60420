import Verif.ArcPolyHead

/-! # Lemmas for polygon sets: the lists of indices -/

namespace Verif.FArc

open Verif.FEff (Text text)
open Verif.FConv (Ov)

/-- One round of the loop of `indexColumns`. -/
def columnStep (os : List (Option (List Nat))) (x : GInput) : List (Option (List Nat)) := if x.owns then (extend os (x.offset + 1)).set x.offset (some x.indices) else os

theorem indexColumns_snoc (xs : List GInput) (x : GInput) : indexColumns (xs ++ [x]) = columnStep (indexColumns xs) x := by
  unfold indexColumns
  rw [List.foldl_append]
  rfl

/-- What the lists by offset are. -/
theorem columns_spec (xs : List GInput) : (indexColumns xs).length = span (xs.filter GInput.owns) ∧
    (∀ (k : Nat) l, (indexColumns xs)[k]? = some (some l) → ∃ x ∈ xs, x.owns = true ∧ x.offset = k ∧ x.indices = l) ∧
    (∀ x ∈ xs, x.owns = true → ∃ l, (indexColumns xs)[x.offset]? = some (some l)) := by
  induction xs using List.reverseRecOn with
  | nil => exact ⟨rfl, fun k l h => by simp [indexColumns] at h, fun x hx => by simp at hx⟩
  | append_singleton xs x ih =>
    obtain ⟨h1, h2, h3⟩ := ih
    rw [indexColumns_snoc]
    unfold columnStep
    cases ho : x.owns with
    | false =>
      rw [if_neg (by simp)]
      refine ⟨by rw [h1]; simp [ho], fun k l h => ?_, fun y hy hyo => ?_⟩
      · obtain ⟨z, hz, h⟩ := h2 k l h
        exact ⟨z, by simp [hz], h⟩
      · rcases List.mem_append.1 hy with hy | hy
        · exact h3 y hy hyo
        · rw [List.mem_singleton.1 hy, ho] at hyo
          exact absurd hyo (by decide)
    | true =>
      rw [if_pos rfl]
      have hlt : x.offset < (extend (indexColumns xs) (x.offset + 1)).length := by rw [extend_length]; omega
      refine ⟨?_, fun k l h => ?_, fun y hy hyo => ?_⟩
      · rw [List.length_set, extend_length, h1, List.filter_append, show [x].filter GInput.owns = [x] by simp [ho], span_append]
      · rw [List.getElem?_set] at h
        by_cases hk : x.offset = k
        · rw [if_pos hk, if_pos hlt] at h
          exact ⟨x, by simp, ho, hk, by simpa using h⟩
        · rw [if_neg hk, extend_get] at h
          obtain ⟨z, hz, h⟩ := h2 k l h
          exact ⟨z, by simp [hz], h⟩
      · rw [List.getElem?_set]
        by_cases hk : x.offset = y.offset
        · rw [if_pos hk, if_pos hlt]
          exact ⟨_, rfl⟩
        · rw [if_neg hk]
          rcases List.mem_append.1 hy with hy | hy
          · obtain ⟨l, hl⟩ := h3 y hy hyo
            exact ⟨l, (extend_get _ _ _ _).2 hl⟩
          · rw [List.mem_singleton.1 hy] at hk
            exact absurd rfl hk

/-- The indices shown by the inputs of an offset. -/
def shownAt (ins : List GInput) (k : Nat) : List Nat := (((views ins).find? fun v => decide (v.2.2.1 = k)).map fun v => v.2.2.2).getD []

theorem views_mem {ins : List GInput} {i : Nat} {x : GInput} (h : ins[i]? = some x) : (x.source, x.set, x.offset, indicesOf ins i) ∈ views ins := by
  unfold views
  rw [List.mem_iff_getElem?]
  exact ⟨i, by rw [List.getElem?_mapIdx, h]; rfl⟩

theorem shownAt_eq {ins : List GInput} (hs : ∀ v ∈ views ins, ∀ w ∈ views ins, v.2.2.1 = w.2.2.1 → v.2.2.2 = w.2.2.2) {i : Nat} {x : GInput} (h : ins[i]? = some x) : shownAt ins x.offset = indicesOf ins i := by
  have hm := views_mem h
  unfold shownAt
  cases hf : (views ins).find? (fun v => decide (v.2.2.1 = x.offset)) with
  | none =>
    have := List.find?_eq_none.1 hf _ hm
    simp at this
  | some v =>
    have h1 := List.mem_of_find?_eq_some hf
    have h2 := List.find?_some hf
    exact hs v h1 _ hm (by simpa using h2)

theorem indicesOf_self {ins : List GInput} {i : Nat} {x : GInput} (h : ins[i]? = some x) (ho : x.owns = true) : indicesOf ins i = x.indices := by
  have : ownerOf ins i = i := by
    unfold ownerOf
    rw [h]
    simp [ho]
  unfold indicesOf
  rw [this, h]
  rfl

theorem owner_exists {ins : List GInput} {i : Nat} {x : GInput} (h : ins[i]? = some x) (hn : indicesOf ins i ≠ []) : ∃ y ∈ ins, y.owns = true ∧ y.offset = x.offset := by
  by_cases ho : x.owns = true
  · exact ⟨x, List.mem_of_getElem? h, ho, rfl⟩
  · cases hf : ins.findIdx? (fun y => decide (y.offset = x.offset) && y.owns) with
    | none =>
      have : ownerOf ins i = i := by
        unfold ownerOf
        rw [h]
        simp [ho, hf]
      exfalso
      apply hn
      unfold indicesOf
      rw [this, h]
      simpa [GInput.owns] using ho
    | some k =>
      obtain ⟨hk, hp, -⟩ := List.findIdx?_eq_some_iff_getElem.1 hf
      simp only [Bool.and_eq_true, decide_eq_true_eq] at hp
      exact ⟨ins[k], List.getElem_mem hk, hp.2, hp.1⟩

theorem span_le {xs : List GInput} {n : Nat} (h : ∀ x ∈ xs, x.offset < n) : span xs ≤ n := by
  induction xs with
  | nil => simp [span]
  | cons y xs ih =>
    have h1 := h y (by simp)
    have h2 := ih fun x hx => h x (by simp [hx])
    simp only [span]
    omega

/-- The state after the inputs of a polygon set is one from which the indices can be read. -/
theorem reading_of {M : GMesh} (hM : GoodSources M) {P : GSet} (hP : GoodSet M P) {ss : List GSource} {e : FExtra.Extra} {st : HeadState} (hi : HeadInv M ss e P.inputs st) :
    Reading st.inputs st.owners (shownAt P.inputs) (indexColumns P.inputs) P.counts.sum := by
  obtain ⟨c1, c2, c3⟩ := columns_spec P.inputs
  have hshown : ∀ k i : Nat, st.owners[k]? = some (some i) → ∃ (j : Nat) (x : GInput), P.inputs[j]? = some x ∧ x.offset = k ∧ shownAt P.inputs k = indicesOf P.inputs j := by
    intro k i hk
    obtain ⟨x, hx, rfl⟩ := hi.owned k i hk
    obtain ⟨j, hj⟩ := List.mem_iff_getElem?.1 hx
    exact ⟨j, x, hj, rfl, shownAt_eq hP.shared hj⟩
  have hown : ∀ (l : List Nat) (k : Nat), (indexColumns P.inputs)[k]? = some (some l) → ∃ (j : Nat) (x : GInput), P.inputs[j]? = some x ∧ x.offset = k ∧ indicesOf P.inputs j = l := by
    intro l k hl
    obtain ⟨x, hx, ho, hk, hxl⟩ := c2 k l hl
    obtain ⟨j, hj⟩ := List.mem_iff_getElem?.1 hx
    exact ⟨j, x, hj, hk, by rw [indicesOf_self hj ho, hxl]⟩
  refine ⟨hi.own, ?_, ?_, ?_, ?_, ?_, ?_⟩
  · have h1 : (P.inputs.filter fun x => perVertex M x.source) ≠ [] := by
      intro h
      have := hP.perVertex
      rw [h] at this
      exact hM.some (by simpa using this.symm)
    obtain ⟨x, hx⟩ := List.exists_mem_of_ne_nil _ h1
    have hx0 : (x.source, x.set, x.offset) ∈ M.vertex.map fun s => (some s, (-1 : Int), 0) := by
      rw [← hP.perVertex]
      exact List.mem_map.2 ⟨x, hx, rfl⟩
    obtain ⟨s, -, hs⟩ := List.mem_map.1 hx0
    have h0 : x.offset = 0 := by simp only [Prod.mk.injEq] at hs; exact hs.2.2.symm
    have := hi.cover x (List.mem_of_mem_filter hx)
    rwa [h0, ← List.head?_eq_getElem?] at this
  · intro x hx
    rw [hi.inputs] at hx
    rcases List.mem_append.1 hx with hx | hx
    · obtain ⟨s, -, rfl⟩ := List.mem_map.1 hx
      rfl
    · obtain ⟨y, -, rfl⟩ := List.mem_map.1 hx
      rfl
  · intro ht
    rw [c1, hi.length]
    apply Nat.le_antisymm
    · exact span_le fun x hx => span_mem (List.mem_of_mem_filter hx)
    · apply span_le
      intro x hx
      obtain ⟨j, hj⟩ := List.mem_iff_getElem?.1 hx
      obtain ⟨y, hy, hyo, hyx⟩ := owner_exists hj (by
        intro h
        have := (hP.full _ (views_mem hj)).1
        simp only [h, List.length_nil] at this
        omega)
      rw [← hyx]
      exact span_mem (List.mem_filter.2 ⟨hy, hyo⟩)
  · intro ht k i hk
    obtain ⟨j, x, hj, rfl, hs⟩ := hshown k i hk
    obtain ⟨y, hy, hyo, hyx⟩ := owner_exists hj (by
      intro h
      have := (hP.full _ (views_mem hj)).1
      simp only [h, List.length_nil] at this
      omega)
    obtain ⟨l, hl⟩ := c3 y hy hyo
    rw [hyx] at hl
    obtain ⟨j', x', hj', hx', hl'⟩ := hown l _ hl
    rw [hl, ← hl', ← shownAt_eq hP.shared hj', hx']
  · intro k i hk
    obtain ⟨j, x, hj, -, hs⟩ := hshown k i hk
    rw [hs]
    exact (hP.full _ (views_mem hj)).1
  · intro l hl
    obtain ⟨k, hk⟩ := List.mem_iff_getElem?.1 hl
    obtain ⟨j, x, hj, -, rfl⟩ := hown l k hk
    exact hP.full _ (views_mem hj)

/-- The inputs as a program sees them, when those of the same offset show the same. -/
theorem views_shown {ins : List GInput} (hs : ∀ v ∈ views ins, ∀ w ∈ views ins, v.2.2.1 = w.2.2.1 → v.2.2.2 = w.2.2.2) : views ins = ins.map fun x => (x.source, x.set, x.offset, shownAt ins x.offset) := by
  apply List.ext_getElem?
  intro j
  rw [List.getElem?_map]
  conv_lhs => rw [views, List.getElem?_mapIdx]
  cases hj : ins[j]? with
  | none => rfl
  | some x => simp only [Option.map_some]; rw [shownAt_eq hs hj]

theorem views_lent {ins : List GInput} {owners : List (Option Nat)} (h : OwnInv ins owners) (f : Nat → List Nat) (hc : ∀ x ∈ ins, ∃ i, owners[x.offset]? = some (some i)) :
    views (lent ins owners f) = ins.map fun x => (x.source, x.set, x.offset, f x.offset) := by
  apply List.ext_getElem?
  intro j
  rw [List.getElem?_map, views, List.getElem?_mapIdx, lent_get, Option.map_map]
  cases hj : ins[j]? with
  | none => rfl
  | some x => simp only [Option.map_some, Function.comp]; rw [indicesOf_lent h f hj (hc x (List.mem_of_getElem? hj))]

/-- The inputs after loading. -/
theorem loaded_views {M : GMesh} (hM : GoodSources M) {P : GSet} (hP : GoodSet M P) {ss : List GSource} {e : FExtra.Extra} {st : HeadState} (hi : HeadInv M ss e P.inputs st) :
    views (lent st.inputs st.owners fun o => (shownAt P.inputs o).take P.counts.sum) =
      (views P.inputs).filter (fun v => perVertex M v.1) ++ (views P.inputs).filter fun v => !perVertex M v.1 := by
  have hR := reading_of hM hP hi
  have hcov : ∀ x ∈ st.inputs, ∃ i, st.owners[x.offset]? = some (some i) := by
    intro x hx
    rw [hi.inputs] at hx
    rcases List.mem_append.1 hx with hx | hx
    · obtain ⟨s, -, rfl⟩ := List.mem_map.1 hx
      obtain ⟨i, h⟩ := hR.first
      exact ⟨i, by rw [List.head?_eq_getElem?] at h; exact h⟩
    · obtain ⟨y, hy, rfl⟩ := List.mem_map.1 hx
      exact hi.cover y (List.mem_of_mem_filter hy)
  rw [views_lent hi.own _ hcov]
  have h1 : (st.inputs.map fun x => (x.source, x.set, x.offset, (shownAt P.inputs x.offset).take P.counts.sum)) = st.inputs.map fun x => (x.source, x.set, x.offset, shownAt P.inputs x.offset) := by
    apply List.map_congr_left
    intro x hx
    obtain ⟨i, h⟩ := hcov x hx
    rw [List.take_of_length_le (by rw [hR.colLen _ _ h])]
  rw [h1, views_shown hP.shared, hi.inputs, List.map_append]
  congr 1
  · rw [List.filter_map]
    have := congrArg (List.map fun a : Option Nat × Int × Nat => ((a.1, a.2.1, a.2.2, shownAt P.inputs a.2.2) : View)) hP.perVertex
    rw [List.map_map, List.map_map] at this
    unfold vertexInputs
    rw [List.map_map]
    exact this.symm
  · rw [List.filter_map, List.map_map]
    rfl

end Verif.FArc
