import Verif.PolyOps

/-!
# Polygon sets: theorems (C48, C36)

`indexList P.inputs j` is what `GetIndices` of the `j`-th input gives; an index that has not been initialised is `none`.
-/

namespace Verif.FPoly

/-- C48: every permitted operation on a polygon set built by permitted operations has a defined result. -/
theorem defined {P : Polys} (h : Reach P) {op : Op} (hl : Legal P op) : ∃ P', run P op = some P' := by
  obtain ⟨P', h1, _⟩ := run_ok (reach_inv h) hl
  exact ⟨P', h1⟩

/-- C48: what the queries say, in every polygon set that can be built: it is a list of faces with holes, the number of faces and the number of
holes of each face are those of the list, a face starts behind the corners of all faces before it, holes included, and has as many corners as
itself and its holes; the index lists of all inputs have exactly the corners of all faces. -/
theorem queries {P : Polys} (h : Reach P) : ∃ fs : List Face, Repr P fs ∧ faceCount P = fs.length ∧ P.total = (fs.map faceSize).sum ∧
    (∀ i f, fs[i]? = some f → holeCountBefore P i = ((fs.take i).map fun f => f.2.length).sum ∧ holeCount P i = f.2.length ∧
      faceVertexOffset P i = ((fs.take i).map faceSize).sum ∧ faceVertexCount P i = some (faceSize f)) ∧
    ∀ j, j < P.inputs.length → (indexList P.inputs j).length = (fs.map faceSize).sum := by
  have hi := reach_inv h
  obtain ⟨fs, hr⟩ := inv_repr hi
  have hs : P.counts.sum = (fs.map faceSize).sum := by rw [hr.1, toCounts_sum]
  refine ⟨fs, hr, repr_faceCount hr, by rw [hi.total, hs], ?_, ?_⟩
  · intro i f hf
    have hlt : i < fs.length := by
      by_contra hn
      rw [List.getElem?_eq_none (by omega)] at hf
      simp at hf
    exact ⟨repr_holesBefore hr (Nat.le_of_lt hlt), repr_holeCount hr hf, repr_offset hr hlt, repr_count hr hf⟩
  · intro j hj
    have hx : P.inputs[j]? = some P.inputs[j] := List.getElem?_eq_getElem hj
    rw [indexList_chan hi.one hx, hi.len _ (List.getElem_mem hj), hs]

/-- C48: the faces tile the index lists: the first starts at 0, each starts where the one before ends, and the last ends where the lists end. -/
theorem tile {P : Polys} (h : Reach P) (hf : 0 < faceCount P) :
    faceVertexOffset P 0 = 0 ∧
    (∀ i, i + 1 < faceCount P → ∃ n, faceVertexCount P i = some n ∧ faceVertexOffset P (i + 1) = faceVertexOffset P i + n) ∧
    (∃ n, faceVertexCount P (faceCount P - 1) = some n ∧ faceVertexOffset P (faceCount P - 1) + n = P.total) ∧
    ∀ j, j < P.inputs.length → (indexList P.inputs j).length = P.total := by
  obtain ⟨fs, hr, hc, ht, hq, hl⟩ := queries h
  rw [hc] at hf ⊢
  have get : ∀ {i}, i < fs.length → ∃ f, fs[i]? = some f := fun hi => ⟨_, List.getElem?_eq_getElem hi⟩
  have take_sum : ∀ {i f}, fs[i]? = some f → ((fs.take (i + 1)).map faceSize).sum = ((fs.take i).map faceSize).sum + faceSize f := by
    intro i f hi
    rw [List.take_add_one, hi]
    simp
  refine ⟨?_, ?_, ?_, ?_⟩
  · obtain ⟨f, hf0⟩ := get hf
    rw [(hq 0 f hf0).2.2.1]; rfl
  · intro i hi
    obtain ⟨f, hfi⟩ := get (show i < fs.length by omega)
    obtain ⟨g, hgi⟩ := get hi
    refine ⟨faceSize f, (hq i f hfi).2.2.2, ?_⟩
    rw [(hq _ g hgi).2.2.1, (hq i f hfi).2.2.1, take_sum hfi]
  · obtain ⟨f, hfi⟩ := get (show fs.length - 1 < fs.length by omega)
    refine ⟨faceSize f, (hq _ f hfi).2.2.2, ?_⟩
    rw [(hq _ f hfi).2.2.1, ← take_sum hfi, ht, show fs.length - 1 + 1 = fs.length by omega, List.take_length]
  · intro j hj
    rw [hl j hj, ht]

/-- C48: adding a face adds it at the end and leaves the faces and indices that were there; the indices of its corners are not initialised. -/
theorem add_face {P : Polys} (h : Reach P) {degree : Nat} (hd : 0 < degree) {fs : List Face} (hr : Repr P fs) :
    Repr (addFace P degree) (fs ++ [(degree, [])]) ∧ (addFace P degree).total = P.total + degree ∧
    (addFace P degree).inputs.map Input.offset = P.inputs.map Input.offset ∧
    ∀ j, j < P.inputs.length → indexList (addFace P degree).inputs j = indexList P.inputs j ++ List.replicate degree none := by
  have hi := reach_inv h
  obtain ⟨h1, h2, h3⟩ := addFace_ok hi hd
  refine ⟨⟨?_, ?_⟩, ?_, h2, ?_⟩
  · show P.counts ++ [degree] = _
    rw [hr.1]; simp [toCounts]
  · show P.holes = _
    rw [hr.2, toHoles_append]; simp [toHoles]
  · rw [h1.total, hi.total]
    show (P.counts ++ [degree]).sum = _
    simp
  · intro j hj
    obtain ⟨x, hx, e1, e2⟩ := indexList_keep hi h1 h2 hj
    rw [e1, e2, h3 x hx]

/-- C48: `AddHole` makes exactly the given face-vertex count a hole: if it was the face behind the face `f`, it becomes the last hole of `f`, and
its own holes become holes of `f`. -/
theorem add_hole {P : Polys} (h : Reach P) {fs gs : List Face} {f g : Face} (hr : Repr P (fs ++ f :: g :: gs)) :
    Repr (addHole P (toCounts (fs ++ [f])).length) (fs ++ (f.1, f.2 ++ g.1 :: g.2) :: gs) ∧
    (addHole P (toCounts (fs ++ [f])).length).inputs = P.inputs := by
  have hi := reach_inv h
  obtain ⟨f1, f2⟩ := f
  obtain ⟨g1, g2⟩ := g
  have hn : (toCounts fs).length + (1 + f2.length) ∉ P.holes := by
    rw [hr.2, toHoles_append]
    simp only [List.mem_append, toHoles, List.mem_range'_1, not_or]
    refine ⟨?_, ?_, ?_, ?_⟩
    · intro hm; have := toHoles_lt _ _ _ hm; omega
    · omega
    · omega
    · intro hm; have := toHoles_gt _ _ _ hm; omega
  have hlen : (toCounts (fs ++ [(f1, f2)])).length = (toCounts fs).length + (1 + f2.length) := by
    rw [toCounts_append]; simp [toCounts, Nat.add_comm]
  have hz : isHole P ((toCounts fs).length + (1 + f2.length)) = false := by simpa [isHole] using hn
  rw [hlen, addHole, if_neg (by simp [hz])]
  refine ⟨⟨?_, ?_⟩, rfl⟩
  · show P.counts = _
    rw [hr.1]
    simp [toCounts]
  · show insertHole _ P.holes = _
    have key : ∀ (a b : List Nat) (z : Nat), (∀ x ∈ a, x < z) → (∀ x ∈ b, z < x) → insertHole z (a ++ b) = a ++ z :: b := by
      intro a
      induction a with
      | nil =>
        intro b z _ hb
        cases b with
        | nil => rfl
        | cons y b => simp [insertHole, hb y (by simp)]
      | cons y a ih =>
        intro b z ha hb
        have := ha y (by simp)
        simp only [List.cons_append, insertHole]
        rw [if_neg (by omega), ih b z (fun x hx => ha x (by simp [hx])) hb]
    have e1 : P.holes = (toHoles 0 fs ++ List.range' ((toCounts fs).length + 1) f2.length) ++
        (List.range' ((toCounts fs).length + (1 + f2.length) + 1) g2.length ++ toHoles ((toCounts fs).length + (1 + f2.length) + 1 + g2.length) gs) := by
      rw [hr.2, toHoles_append]
      simp [toHoles, Nat.add_assoc]
    rw [e1, key]
    · rw [toHoles_append]
      simp only [toHoles, List.append_assoc, Nat.zero_add]
      congr 1
      rw [show (f2 ++ g1 :: g2).length = f2.length + (g2.length + 1) by simp, ← List.range'_append_1, List.range'_succ]
      simp only [List.append_assoc, List.cons_append, Nat.add_assoc, Nat.add_left_comm, Nat.add_comm]
    · intro x hx
      simp only [List.mem_append, List.mem_range'_1] at hx
      rcases hx with hx | hx
      · have := toHoles_lt _ _ _ hx; omega
      · omega
    · intro x hx
      simp only [List.mem_append, List.mem_range'_1] at hx
      rcases hx with hx | hx
      · omega
      · have := toHoles_gt _ _ _ hx; omega

/-- C48: the indices given to an input are those that it and every input with the same offset have afterwards; the others keep theirs. -/
theorem set_indices {P : Polys} (h : Reach P) {i j : Nat} {x y : Input} (hi : P.inputs[i]? = some x) (hj : P.inputs[j]? = some y)
    {l : List (Option Nat)} (hl : l.length = P.counts.sum) :
    indexList (setIndices P.inputs i l) j = if y.offset = x.offset then l else indexList P.inputs j := by
  have hv := reach_inv h
  have h' := setIndices_ok hv hi hl
  obtain ⟨y', hy', he⟩ := get_offset (upd_offsets P.inputs i fun _ => l) hj
  rw [indexList_chan h'.one hy', he, indexList_chan hv.one hj]
  exact upd_chan hv.one hi (fun _ => l) y.offset

/-- C48, as far as `RemoveFace` is right: in a set without holes, removing the first face removes exactly it and the indices of its corners.
Missing: every other face, see `remove_second_violated` and `remove_third_violated`, and sets with holes, see `remove_holes_violated`. -/
theorem remove_partial {P : Polys} (h : Reach P) {f : Nat} {fs : List Nat} (hr : Repr P ((f, []) :: fs.map fun c => (c, []))) :
    ∃ P', removeFace P 0 = some P' ∧ Repr P' (fs.map fun c => (c, [])) ∧ P'.total + f = P.total ∧
      P'.inputs.map Input.offset = P.inputs.map Input.offset ∧
      ∀ j, j < P.inputs.length → indexList P'.inputs j = (indexList P.inputs j).drop f := by
  have hi := reach_inv h
  have e0 : ∀ (l : List Nat) s, toHoles s (l.map fun c => ((c, []) : Face)) = [] := by
    intro l
    induction l with
    | nil => intro s; rfl
    | cons a l ih => intro s; simp [toHoles, ih]
  have e1 : ∀ l : List Nat, toCounts (l.map fun c => ((c, []) : Face)) = l := by
    intro l
    simp [toCounts, List.flatMap_map]
  have hh : P.holes = [] := by rw [hr.2]; exact e0 (f :: fs) 0
  have hc : P.counts = f :: fs := by rw [hr.1]; exact e1 (f :: fs)
  obtain ⟨P', r1, r2, r3, r4, r5, r6, r7⟩ := removeFirst_ok hi hh hc
  refine ⟨P', r1, ⟨by rw [r3, e1], by rw [r4, e0]⟩, ?_, r6, ?_⟩
  · rw [r2.total, hi.total, r3, hc]
    simp [Nat.add_comm]
  · intro j hj
    obtain ⟨x, hx, a1, a2⟩ := indexList_keep hi r2 r6 hj
    rw [a1, a2, r7 x hx]

/-! ## Triangulation -/

/-- The triangles of a face by the type of the set: strips are strips, everything else is a fan. -/
def trianglesOf (prim : Prim) : Nat → Nat → List Nat := if prim = .triangleStrips then strip else fan

/-- C36: triangulating a set of polygons, fans or strips gives a set of triangles without holes: the new list of every input has, in order, the
old indices of the corners of the triangles of every face; holes and faces with less than three corners are left out. -/
theorem triangulated {P : Polys} (h : Reach P) {fs : List Face} (hr : Repr P fs)
    (hp : P.prim = .polygons ∨ P.prim = .triangleFans ∨ P.prim = .triangleStrips) :
    ∃ P', triangulate P = some P' ∧ Repr P' (List.replicate ((fs.map fun f => f.1 - 2).sum) (3, [])) ∧ P'.prim = .polygons ∧
      P'.total = 3 * (fs.map fun f => f.1 - 2).sum ∧ P'.inputs.map Input.offset = P.inputs.map Input.offset ∧
      ∀ j, j < P.inputs.length → (indexList P'.inputs j).length = P'.total ∧
        (indexList P'.inputs j).map some = (triCorners (trianglesOf P.prim) 0 fs).map fun p => (indexList P.inputs j)[p]? := by
  have hi := reach_inv h
  obtain ⟨P', h1, h2, h3, h4, h5, h6, h7⟩ := triangulate_ok hi hr hp
  have e0 : ∀ n s, toHoles s (List.replicate n ((3, []) : Face)) = [] := by
    intro n
    induction n with
    | zero => intro s; rfl
    | succ n ih => intro s; simp [List.replicate_succ, toHoles, ih]
  have e1 : ∀ n, toCounts (List.replicate n ((3, []) : Face)) = List.replicate n 3 := by
    intro n
    induction n with
    | zero => rfl
    | succ n ih => simp only [List.replicate_succ, toCounts, List.flatMap_cons] at ih ⊢; rw [ih]; rfl
  refine ⟨P', h1, ⟨by rw [h3, e1]; rfl, by rw [h4, e0]⟩, h5, ?_, h6, ?_⟩
  · rw [h2.total, h3]; simp [triCount, Nat.mul_comm]
  · intro j hj
    obtain ⟨x, hx, a1, a2⟩ := indexList_keep hi h2 h6 hj
    refine ⟨?_, ?_⟩
    · obtain ⟨y, hy, he⟩ := get_offset h6 (List.getElem?_eq_getElem hj)
      rw [indexList_chan h2.one hy, h2.len y (List.mem_of_getElem? hy), h2.total]
    · rw [a2, a1, h7 x hx, pick, List.map_map]
      apply List.map_congr_left
      intro p hpm
      have hlt := triCorners_lt P.prim fs 0 p hpm
      have hlen := hi.len x hx
      rw [hr.1] at hlen
      simp [List.getD, List.getElem?_eq_getElem (show p < (chan P.inputs x.offset).length by omega)]

/-- C36: lines, line strips and points are left alone. -/
theorem triangulate_lines {P : Polys} (hp : P.prim = .lines ∨ P.prim = .lineStrips ∨ P.prim = .points) : triangulate P = some P := by
  rw [triangulate, if_pos]
  rcases hp with e | e | e <;> simp [e]

/-- C36: the corners of the triangles are corners of the face they come from, not of its holes or other faces. -/
theorem fan_inside {off n p : Nat} (hp : p ∈ fan off n ∨ p ∈ strip off n) : off ≤ p ∧ p < off + n := by
  rcases hp with hp | hp
  · simp only [fan, List.mem_flatMap, List.mem_range, List.mem_cons, List.not_mem_nil, or_false] at hp
    obtain ⟨t, ht, hp⟩ := hp
    omega
  · simp only [strip, List.mem_flatMap, List.mem_range] at hp
    obtain ⟨t, ht, hp⟩ := hp
    split at hp <;> simp at hp <;> omega

/-! ## Meshes -/

/-- C48: recalculating a mesh gives every polygon set the numbers of faces, holes and face-vertices of the sets before it, and the mesh the sums. -/
theorem mesh_offsets (Ps : List Polys) :
    (∀ k, k < Ps.length → (meshLoop Ps 0 0 0).1[k]? = some (((Ps.take k).map faceCount).sum, ((Ps.take k).map fun P => P.holes.length).sum,
      ((Ps.take k).map fun P => P.counts.sum).sum)) ∧
    (meshLoop Ps 0 0 0).2 = ((Ps.map faceCount).sum, (Ps.map fun P => P.holes.length).sum, (Ps.map fun P => P.counts.sum).sum) := by
  have key : ∀ (Ps : List Polys) (f h v : Nat),
      (∀ k, k < Ps.length → (meshLoop Ps f h v).1[k]? = some (f + ((Ps.take k).map faceCount).sum, h + ((Ps.take k).map fun P => P.holes.length).sum,
        v + ((Ps.take k).map fun P => P.counts.sum).sum)) ∧
      (meshLoop Ps f h v).2 = (f + (Ps.map faceCount).sum, h + (Ps.map fun P => P.holes.length).sum, v + (Ps.map fun P => P.counts.sum).sum) := by
    intro Ps
    induction Ps with
    | nil => intro f h v; exact ⟨by simp, rfl⟩
    | cons P Ps ih =>
      intro f h v
      obtain ⟨i1, i2⟩ := ih (f + faceCount (recalculate P)) (h + (recalculate P).holes.length) (v + (recalculate P).total)
      have ef : faceCount (recalculate P) = faceCount P := rfl
      have et : (recalculate P).total = P.counts.sum := rfl
      have eh : (recalculate P).holes = P.holes := rfl
      refine ⟨?_, ?_⟩
      · intro k hk
        cases k with
        | zero => simp [meshLoop]
        | succ k =>
          simp only [meshLoop, List.getElem?_cons_succ]
          rw [i1 k (by simp at hk; omega)]
          simp [ef, et, eh, Nat.add_assoc]
      · simp only [meshLoop]
        rw [i2]
        simp [ef, et, eh, Nat.add_assoc]
  simpa using key Ps 0 0 0

/-! ## Witnesses -/

/-- Two inputs with their own lists and one that shares the list of the first; a quadrangle with a triangular hole, and a pentagon. -/
def sample : Option Polys :=
  [Op.addInput 0, .addInput 1, .addInput 0, .addFace 4, .addFace 3, .addFace 5, .addHole 1,
   .setIndices 2 ((List.range 12).map some), .setIndices 1 ((List.range 12).map fun k => some (20 + k))].foldlM run empty

instance (P : Polys) (fs : List Face) : Decidable (Repr P fs) := by
  simp only [Repr]; infer_instance

instance (P : Polys) (op : Op) : Decidable (Legal P op) := by
  cases op <;> simp only [Legal] <;> infer_instance

theorem reach_foldlM {ops : List Op} : ∀ {P P' : Polys}, Reach P →
    ops.foldlM (fun P op => if Legal P op then run P op else none) P = some P' → Reach P' := by
  induction ops with
  | nil => intro P P' h e; cases e; exact h
  | cons op ops ih =>
    intro P P' h e
    simp only [List.foldlM_cons, Option.bind_eq_bind, Option.bind_eq_some_iff] at e
    obtain ⟨Q, e1, e2⟩ := e
    by_cases hl : Legal P op
    · rw [if_pos hl] at e1
      exact ih (.step h hl e1) e2
    · rw [if_neg hl] at e1
      simp at e1

theorem sample_reach : ∃ P, sample = some P ∧ Reach P ∧ Repr P [(4, [3]), (5, [])] := by
  refine ⟨⟨[4, 3, 5], [1], [⟨0, (List.range 12).map some⟩, ⟨1, (List.range 12).map fun k => some (20 + k)⟩, ⟨0, []⟩], .polygons, 12⟩, by decide, ?_, by decide⟩
  exact reach_foldlM (ops := [Op.addInput 0, .addInput 1, .addInput 0, .addFace 4, .addFace 3, .addFace 5, .addHole 1,
   .setIndices 2 ((List.range 12).map some), .setIndices 1 ((List.range 12).map fun k => some (20 + k))]) .start (by decide)

/-- The sample: two faces, the second starts behind the hole of the first; triangulated, it has five triangles. -/
example : (sample.map fun P => (faceCount P, faceVertexOffset P 1, faceVertexCount P 0, holeCount P 0)) = some (2, 7, some 7, 1) := by decide
example : ((sample.bind triangulate).map fun P => (P.counts, indexList P.inputs 2)) =
    some ([3, 3, 3, 3, 3], [0, 1, 2, 0, 2, 3, 7, 8, 9, 7, 9, 10, 7, 10, 11].map some) := by decide
example : triCorners (trianglesOf .polygons) 0 [(4, [3]), (5, [])] = [0, 1, 2, 0, 2, 3, 7, 8, 9, 7, 9, 10, 7, 10, 11] := by decide
example : triCorners (trianglesOf .triangleStrips) 0 [(5, [])] = [0, 1, 2, 1, 3, 2, 2, 3, 4] := by decide

/-- The hypotheses of `remove_partial` are met. -/
example : ∃ P, [Op.addInput 0, .addFace 4, .addFace 3].foldlM run empty = some P ∧ Reach P ∧ Repr P ((4, []) :: [3].map fun c => (c, [])) := by
  refine ⟨⟨[4, 3], [], [⟨0, List.replicate 7 none⟩], .polygons, 7⟩, by decide, ?_, by decide⟩
  exact reach_foldlM (ops := [Op.addInput 0, .addFace 4, .addFace 3]) .start (by decide)

/-! ## Violations -/

/-- C48 fails for the removal of the second face: its indices go, but the face stays, so that the set has more corners than indices. -/
theorem remove_second_violated : ∃ P P', Reach P ∧ Repr P [(4, []), (3, []), (5, [])] ∧ removeFace P 1 = some P' ∧
    Repr P' [(4, []), (3, []), (5, [])] ∧ P'.total = 12 ∧ (indexList P'.inputs 0).length = 9 := by
  refine ⟨⟨[4, 3, 5], [], [⟨0, List.replicate 12 none⟩], .polygons, 12⟩, ⟨[4, 3, 5], [], [⟨0, List.replicate 9 none⟩], .polygons, 12⟩, ?_, by decide⟩
  exact reach_foldlM (ops := [Op.addInput 0, .addFace 4, .addFace 3, .addFace 5]) .start (by decide)

/-- C48 fails for the removal of the third face: the memory behind the face-vertex counts is overwritten. -/
theorem remove_third_violated : ∃ P, Reach P ∧ Repr P [(4, []), (3, []), (5, [])] ∧ removeFace P 2 = none := by
  refine ⟨⟨[4, 3, 5], [], [⟨0, List.replicate 12 none⟩], .polygons, 12⟩, ?_, by decide⟩
  exact reach_foldlM (ops := [Op.addInput 0, .addFace 4, .addFace 3, .addFace 5]) .start (by decide)

/-- C48 fails for the removal of the first face of a set with holes: the hole stays marked, and the set has no face left although the pentagon
has not been removed. -/
theorem remove_holes_violated : ∃ P P', Reach P ∧ Repr P [(4, [3]), (5, [])] ∧ removeFace P 0 = some P' ∧ P'.counts = [5] ∧ P'.holes = [1] ∧ faceCount P' = 0 := by
  refine ⟨⟨[4, 3, 5], [1], [⟨0, List.replicate 12 none⟩], .polygons, 12⟩, ⟨[5], [1], [⟨0, List.replicate 5 none⟩], .polygons, 5⟩, ?_, by decide⟩
  exact reach_foldlM (ops := [Op.addInput 0, .addFace 4, .addFace 3, .addFace 5, .addHole 1]) .start (by decide)

/-- Why a face must have corners: behind an empty first face, the index lists stay empty. -/
theorem empty_face_violated : ∃ P, [Op.addInput 0, .addFace 0, .addFace 3].foldlM run empty = some P ∧ P.total = 3 ∧ indexList P.inputs 0 = [] := by
  exact ⟨⟨[0, 3], [], [⟨0, []⟩], .polygons, 3⟩, by decide⟩

end Verif.FPoly
