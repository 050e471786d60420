import Verif.PackLemmas
import Verif.UnifyProps
import Mathlib.Data.Rat.Floor

/-!
# Vertex packing: theorems (C73)
-/

namespace Verif.FPack

open Verif.FUnify (TMap Source MSet Mesh Good Corner value newIndices vertexCount generateMaps)

/-- **C73** (the packing map). With an empty packing map and enough indices, none of them above `maxIndex`: the call consumes at most `maxIndices` indices (65534 if this is
less), and stops with the one that brings the number of different ones to `maxVertices`. The indices consumed are numbered by first appearance, the packing map has these
numbers and marks all other indices, and the new indices are the numbers. -/
theorem packing_map {maxIndex maxIndices maxVertices : Nat} {ins : List Nat} (hv : ∀ v ∈ ins, v ≤ maxIndex) (hl : maxIndices ≤ ins.length) :
    ∃ s, packingMap maxIndex maxIndices maxVertices ins [] = some s ∧
      s.nIndices ≤ min maxIndices 65534 ∧ (0 < maxIndices → 0 < s.nIndices) ∧
      s.nVertices = distinct (ins.take s.nIndices) ∧ s.out = (ins.take s.nIndices).map (number (ins.take s.nIndices)) ∧
      s.map.length = maxIndex + 1 ∧ (∀ v, v ≤ maxIndex → s.map[v]? = some (if v ∈ ins.take s.nIndices then number (ins.take s.nIndices) v else 65535)) ∧
      (0 < maxVertices → s.nVertices ≤ maxVertices) ∧ (s.nIndices = min maxIndices 65534 ∨ maxVertices ≤ s.nVertices) ∧
      ∀ k, 0 < k → k < s.nIndices → distinct (ins.take k) < maxVertices := by
  have hm : (if maxIndices < invalid then maxIndices else invalid - 1) = min maxIndices 65534 := by
    unfold invalid
    split <;> omega
  have hinit : Inv maxIndex [] ⟨0, 0, (extend [] (maxIndex + 1) invalid).take (maxIndex + 1), []⟩ := by
    refine ⟨rfl, rfl, by simp [extend], ?_, rfl⟩
    intro v hv
    show ((extend [] (maxIndex + 1) invalid).take (maxIndex + 1))[v]? = _
    rw [if_neg (by simp), List.getElem?_take_of_lt (by omega), extend, List.nil_append, List.getElem?_replicate, if_pos (by simp; omega)]
  obtain ⟨n, s, h1, _, h3, h4, h5, h6⟩ := packLoop_ok (maxIndex := maxIndex) (maxV := maxVertices) (m := min maxIndices 65534) (by unfold invalid; omega) ins [] _ hinit hv
    (by simp) (by simp; omega) (by intro k h1 h2; simp at h2; omega)
  rw [List.nil_append] at h4 h6
  simp only [List.nil_append] at h5
  have hn : s.nIndices = n := by
    rw [h4.nI, List.length_take]
    omega
  have hle := distinct_le (ins.take n)
  rw [List.length_take] at hle
  refine ⟨s, ?_, ?_⟩
  · rw [packingMap, hm, h1, Option.map_some, if_pos]
    rw [h4.nV, hn]
    omega
  rw [hn]
  refine ⟨h3, ?_, h4.nV, h4.out, h4.len, h4.map, ?_, ?_, h5⟩
  · intro h
    rcases h6 with rfl | h6
    · omega
    · exact h6.1
  · intro hpos
    rw [h4.nV]
    by_cases h0 : n = 0
    · subst h0
      simp [distinct]
    · obtain ⟨k, rfl⟩ : ∃ k, n = k + 1 := ⟨n - 1, by omega⟩
      rw [List.take_succ_eq_append_getElem (by omega), distinct_snoc]
      by_cases hk : k = 0
      · subst hk
        simp [distinct]
        omega
      · have := h5 k (by omega) (by omega)
        split <;> omega
  · rcases h6 with h6 | h6
    · exact .inl h6
    · rw [h4.nV]; exact .inr h6.2

/-- Seven corners, at most three vertices. -/
example : packingMap 9 7 3 [5, 2, 5, 2, 9, 5, 1] [] = some ⟨5, 3, [65535, 65535, 1, 65535, 65535, 0, 65535, 65535, 65535, 2], [0, 1, 0, 1, 2]⟩ := by decide +kernel

/-- **C73** (the vertex buffer). The packed vertices, reached through the new indices, are the vertices of the source; no other part of the buffer is written. -/
theorem packed_vertices {α : Type} {maxIndex maxIndices maxVertices : Nat} {ins : List Nat} (hv : ∀ v ∈ ins, v ≤ maxIndex) (hl : maxIndices ≤ ins.length) {s : Packed}
    (hs : packingMap maxIndex maxIndices maxVertices ins [] = some s) {m : TMap} (hfun : ∀ o o' v, Relates m o v → Relates m o' v → o = o')
    (hmax : ∀ o v, Relates m o v → v ≤ maxIndex) {src : Source α} (hsrc : ∀ o v, Relates m o v → (o + 1) * src.stride ≤ src.data.length) {vCount : Nat} (hc : vCount ≤ src.stride)
    {dest : List (List α)} (hd : s.nVertices ≤ dest.length) (hrow : ∀ row ∈ dest, vCount ≤ row.length) :
    ∃ dest', packFloats src vCount s.map m dest = some dest' ∧ dest'.length = dest.length ∧
      (∀ (i v o : Nat), (ins.take s.nIndices)[i]? = some v → Relates m o v → ∃ (k : Nat) (row row' : List α), s.out[i]? = some k ∧ dest[k]? = some row ∧ dest'[k]? = some row' ∧
        row' = (value src o).take vCount ++ row.drop vCount) ∧
      ∀ k, s.nVertices ≤ k → dest'[k]? = dest[k]? := by
  obtain ⟨s', e, h1, _, h2, h3, h4, h5, _⟩ := packing_map (maxVertices := maxVertices) hv hl
  rw [hs] at e
  obtain rfl := Option.some.inj e
  have hlen : distinct (ins.take s.nIndices) ≤ 65534 := by
    have := distinct_le (ins.take s.nIndices)
    rw [List.length_take] at this
    omega
  have hvalid : ∀ v k, v ≤ maxIndex → s.map[v]? = some k → k ≠ invalid → v ∈ ins.take s.nIndices ∧ k = number (ins.take s.nIndices) v := by
    intro v k hv hk hne
    rw [h5 v hv] at hk
    by_cases h : v ∈ ins.take s.nIndices
    · rw [if_pos h] at hk
      exact ⟨h, (Option.some.inj hk).symm⟩
    · rw [if_neg h] at hk
      exact absurd (Option.some.inj hk).symm hne
  obtain ⟨dest', f1, f2, f3⟩ := packAll_ok (src := src) (vCount := vCount) (map := s.map) (m := m) (dest := dest) (by
      intro o v hr
      refine ⟨_, h5 v (hmax o v hr), fun hne => ?_⟩
      have hb := hsrc o v hr
      obtain ⟨hmem, hk⟩ := hvalid v _ (hmax o v hr) (h5 v (hmax o v hr)) hne
      rw [hk]
      have := number_lt hmem
      refine ⟨?_, by omega⟩
      calc src.stride * o + vCount ≤ src.stride * o + src.stride := by omega
        _ = (o + 1) * src.stride := by ring
        _ ≤ _ := hb) hrow (by
      intro o o' v v' k r1 r2 k1 k2 hne
      obtain ⟨m1, n1⟩ := hvalid v k (hmax _ _ r1) k1 hne
      obtain ⟨m2, n2⟩ := hvalid v' k (hmax _ _ r2) k2 hne
      have : v = v' := by
        rw [n1] at n2
        exact (List.idxOf_inj ((FUnify.mem_eraseDups' _ _).2 m1)).1 n2
      subst this
      exact hfun _ _ _ r1 r2)
  refine ⟨dest', by rw [packFloats, pack, if_pos hc, f1], f2, ?_, ?_⟩
  · intro i v o hi hr
    have hmem := List.mem_of_getElem? hi
    have hnl := number_lt hmem
    have hk : number (ins.take s.nIndices) v < dest.length := by omega
    obtain ⟨row', r1, _, _, r4, _⟩ := f3 _ _ (List.getElem?_eq_getElem hk)
    refine ⟨_, _, row', ?_, List.getElem?_eq_getElem hk, r1, ?_⟩
    · rw [h3, List.getElem?_map, hi]
      rfl
    · rw [r4 o v hr (by rw [h5 v (hmax o v hr), if_pos hmem]) (by unfold invalid; omega)]
      unfold newRow value
      rw [List.take_take, min_eq_left hc]
  · intro k hk
    by_cases hkd : k < dest.length
    · obtain ⟨row', r1, _, _, _, r5⟩ := f3 _ _ (List.getElem?_eq_getElem hkd)
      rw [r1, r5, List.getElem?_eq_getElem hkd]
      rintro ⟨o, v, hr, hmk, hne⟩
      obtain ⟨hmem, hn⟩ := hvalid v k (hmax _ _ hr) hmk hne
      have := number_lt hmem
      omega
    · rw [List.getElem?_eq_none (by omega), List.getElem?_eq_none (by omega)]

/-- Two vertices of a source with three values are packed. -/
example : packFloats ⟨2, [10, 11, 20, 21, 30, 31]⟩ 2 [1, 65535, 0] [(0, [1]), (1, [0]), (2, [2])] [[0, 0, 7], [0, 0, 8]] = some [[30, 31, 7], [20, 21, 8]] := by decide

/-- **C73** (with C37 and C74). For the unique indices of a mesh and the translation map of a source: each corner that was consumed reaches through its packed index the values
that it reached through its index into the source. -/
theorem packed_mesh {α : Type} {M : Mesh α} (h : Good M) {ms : List TMap} (hms : generateMaps M = some (some (newIndices M.sets 0, ms))) {d : Nat} {src : Source α}
    (hsrc : M.sources[d]? = some src) {m : TMap} (hm : ms[d]? = some m) {maxIndices maxVertices : Nat} (hl : maxIndices ≤ (newIndices M.sets 0).flatten.length) {s : Packed}
    (hs : packingMap (vertexCount M.sets) maxIndices maxVertices (newIndices M.sets 0).flatten [] = some s) {vCount : Nat} (hc : vCount ≤ src.stride)
    {dest : List (List α)} (hd : s.nVertices ≤ dest.length) (hrow : ∀ row ∈ dest, vCount ≤ row.length) :
    ∃ dest', packFloats src vCount s.map m dest = some dest' ∧
      ∀ (i j o : Nat), i < s.nIndices → (newIndices M.sets 0).flatten[i]? = some j → Corner M d o j → o < src.data.length / src.stride →
        ∃ (k : Nat) (row' : List α), s.out[i]? = some k ∧ dest'[k]? = some row' ∧ row'.take vCount = (value src o).take vCount := by
  obtain ⟨n1, n2, n3, _⟩ := FUnify.new_indices h
  have hbound : ∀ j, j ∈ (newIndices M.sets 0).flatten → j ≤ vertexCount M.sets := by
    intro j hj
    have := (n3 j).1 (List.mem_flatten.1 hj)
    omega
  obtain ⟨ms', e1, _, e3⟩ := FUnify.translation_maps h
  rw [hms] at e1
  simp only [Option.some.injEq, Prod.mk.injEq, true_and] at e1
  subst e1
  obtain ⟨_, _, hrel⟩ := e3 d src m hsrc hm
  have hst := (h.stride src (List.mem_of_getElem? hsrc)).1
  have hcorner : ∀ o o' j, Corner M d o j → Corner M d o' j → o = o' := by
    rintro o o' j ⟨p, S, B, i, k, c1, c2, c3, c4, c5⟩ ⟨p', S', B', i', k', c1', c2', c3', c4', c5'⟩
    have hp : p = p' := n2 p p' B B' j c2 c2' (List.mem_of_getElem? c5) (List.mem_of_getElem? c5')
    subst hp
    rw [c1] at c1'
    rw [c2] at c2'
    obtain rfl := Option.some.inj c1'
    obtain rfl := Option.some.inj c2'
    have hS := h.srcs S (List.mem_of_getElem? c1)
    have hi : i = i' := by
      have hlt := (List.getElem?_eq_some_iff.1 c3).1
      exact (List.getElem?_inj hlt hS.2.1).1 (c3.trans c3'.symm)
    subst hi
    have hlt : i < S.polys.inputs.length := by
      rw [← hS.1]
      exact (List.getElem?_eq_some_iff.1 c3).1
    have := ((n1 p S B c1 c2).2 k k' (List.getElem?_eq_some_iff.1 c5).1 (List.getElem?_eq_some_iff.1 c5').1).1 (c5.trans c5'.symm) i hlt
    rw [c4, c4'] at this
    exact Option.some.inj (Option.some.inj this)
  obtain ⟨dest', f1, _, f3, _⟩ := packed_vertices hbound hl hs (m := m)
    (fun o o' v h1 h2 => hcorner o o' v ((hrel o v).1 h1).1 ((hrel o' v).1 h2).1)
    (fun o v hr => by
      obtain ⟨p, S, B, i, k, c1, c2, c3, c4, c5⟩ := ((hrel o v).1 hr).1
      have := (n3 v).1 ⟨B, List.mem_of_getElem? c2, List.mem_of_getElem? c5⟩
      omega) (src := src)
    (fun o v hr => by
      have := ((hrel o v).1 hr).2
      exact (Nat.le_div_iff_mul_le hst).1 this) hc hd hrow
  refine ⟨dest', f1, fun i j o hi hj hcor ho => ?_⟩
  obtain ⟨k, row, row', g1, _, g3, g4⟩ := f3 i j o (by rw [List.getElem?_take_of_lt hi]; exact hj) ((hrel o j).2 ⟨hcor, ho⟩)
  refine ⟨k, row', g1, g3, ?_⟩
  have hvl : ((value src o).take vCount).length = vCount := by
    have h1 := (Nat.le_div_iff_mul_le hst).1 ho
    have h2 : src.stride * o + src.stride ≤ src.data.length := by
      calc src.stride * o + src.stride = (o + 1) * src.stride := by ring
        _ ≤ _ := h1
    unfold value
    simp
    omega
  rw [g4, List.take_append_of_le_length (by omega), List.take_of_length_le (by omega)]

/-- `FindLargestUniqueIndex` is an upper bound of the new indices that is reached (or zero). -/
theorem largest_index (m : TMap) : (∀ o v, Relates m o v → v ≤ largest m) ∧ (largest m = 0 ∨ ∃ o, Relates m o (largest m)) := by
  have inner : ∀ (l : List Nat) (a : Nat), a ≤ l.foldl max a ∧ (∀ v ∈ l, v ≤ l.foldl max a) ∧ (l.foldl max a = a ∨ l.foldl max a ∈ l) := by
    intro l
    induction l with
    | nil => intro a; simp
    | cons v l ih =>
      intro a
      obtain ⟨h1, h2, h3⟩ := ih (max a v)
      rw [List.foldl_cons]
      refine ⟨by omega, ?_, ?_⟩
      · intro u hu
        rcases List.mem_cons.1 hu with rfl | hu
        · omega
        · exact h2 u hu
      · rcases h3 with h3 | h3
        · rw [h3]
          rcases Nat.le_total a v with h | h
          · exact .inr (by simp [max_eq_right h])
          · exact .inl (max_eq_left h)
        · exact .inr (by simp [h3])
  have outer : ∀ (m : TMap) (a : Nat), a ≤ m.foldl (fun a p => p.2.foldl max a) a ∧ (∀ o v, Relates m o v → v ≤ m.foldl (fun a p => p.2.foldl max a) a) ∧
      (m.foldl (fun a p => p.2.foldl max a) a = a ∨ ∃ o, Relates m o (m.foldl (fun a p => p.2.foldl max a) a)) := by
    intro m
    induction m with
    | nil => intro a; exact ⟨le_refl _, by rintro o v ⟨l, hl, _⟩; simp at hl, .inl rfl⟩
    | cons p m ih =>
      intro a
      obtain ⟨h1, h2, h3⟩ := ih (p.2.foldl max a)
      obtain ⟨i1, i2, i3⟩ := inner p.2 a
      rw [List.foldl_cons]
      refine ⟨by omega, ?_, ?_⟩
      · rintro o v ⟨l, hl, hv⟩
        rcases List.mem_cons.1 hl with rfl | hl
        · exact (i2 v hv).trans h1
        · exact h2 o v ⟨l, hl, hv⟩
      · rcases h3 with h3 | ⟨o, l, hl, hv⟩
        · rw [h3]
          rcases i3 with i3 | i3
          · exact .inl i3
          · exact .inr ⟨p.1, p.2, by simp, i3⟩
        · exact .inr ⟨o, l, by simp [hl], hv⟩
  exact ⟨(outer m 0).2.1, (outer m 0).2.2⟩

example : largest [(0, [3, 1]), (1, [7, 2])] = 7 := by decide

/-- **C73, violated** (colours). A white colour (1, 1, 1) is packed as (1, 1, 1), and not as (255, 255, 255), and the missing alpha is not set. -/
theorem pack_color_violated : packColors (⟨3, [1, 1, 1]⟩ : Source ℚ) 3 [0] [(0, [0])] [[0, 0, 0, 0]] = some [[1, 1, 1, 0]] := by decide +kernel

/-- **C73, violated** (a packing map that is used again). The second call does not reset the map it is given: the different indices 2 and 0 are both numbered 0. -/
theorem pack_reuse_violated : ∃ s s', packingMap 2 2 10 [0, 1] [] = some s ∧ packingMap 2 2 10 [2, 0] s.map = some s' ∧ s'.out = [0, 0] :=
  ⟨⟨2, 2, [0, 1, 65535], [0, 1]⟩, ⟨2, 1, [0, 1, 0], [0, 0]⟩, by decide +kernel, by decide +kernel, rfl⟩

end Verif.FPack
