import Verif.FitAux
import Verif.FitLemmas
import Verif.PolyProps

/-!
# The splitting of polygon sets: theorems (C72)
-/

namespace Verif.FFit

open Verif.FPoly Verif.FUnify

/-- **C72, partial.** If the inputs at offset 0 are those of the per-vertex sources and no face is larger than the maximum: the call ends; the polygon sets of the mesh
are the old ones, cut off, followed by the new ones for each of them. The faces of each set are, in the same order and with the same indices into each source, those of what is
left of it and of its new sets; none of these has more indices than the maximum, and all have its material and its sources. Sets that fit are not changed. The new sets
are of the type `POLYGONS` and have no holes. -/
theorem fit_partial {vs : List Nat} {maximum : Nat} {sets : List PSet} (h : ∀ S ∈ sets, Reach S.set.polys ∧ (S.set.polys.prim ≠ .points → Splittable vs maximum S)) :
    ∃ (heads : List PSet) (copies : List (List PSet)) (N : Nat), (∀ n, N ≤ n → fitIndexBuffers vs maximum n sets = some (heads ++ copies.flatten)) ∧
      heads.length = sets.length ∧ copies.length = sets.length ∧
      ∀ (k : Nat) (S H : PSet) (Cs : List PSet), sets[k]? = some S → heads[k]? = some H → copies[k]? = some Cs →
        (S.set.polys.prim = .points → H = S ∧ Cs = []) ∧ (S.set.polys.prim ≠ .points → Split maximum S H Cs) := by
  obtain ⟨heads, copies, N, h1, h2, h3, h4⟩ := fitAll_ok sets fun S hS => (h S hS).2
  refine ⟨heads.map recalc, copies.map (List.map recalc), N, fun n hn => ?_, by simp [h2], by simp [h3], ?_⟩
  · rw [fitIndexBuffers, h1 n hn, Option.map_some, List.map_append, List.map_flatten]
  · intro k S H Cs a b c
    simp only [List.getElem?_map, Option.map_eq_some_iff] at b c
    obtain ⟨H, b, rfl⟩ := b
    obtain ⟨Cs, c, rfl⟩ := c
    obtain ⟨p1, p2⟩ := h4 k S H Cs a b c
    have hr := recalc_eq (h S (List.mem_of_getElem? a)).1
    refine ⟨fun hp => ?_, fun hp => ?_⟩
    · obtain ⟨rfl, rfl⟩ := p1 hp
      exact ⟨hr, rfl⟩
    · have hs := p2 hp
      refine ⟨?_, ?_, hs.head, ?_, ?_⟩
      · intro T hT
        rcases List.mem_cons.1 hT with rfl | hT
        · exact part_recalc (hs.parts H (by simp))
        · obtain ⟨T, hT', rfl⟩ := List.mem_map.1 hT
          exact part_recalc (hs.parts T (by simp [hT']))
      · intro d hd
        rw [hs.polys d hd, List.flatMap_cons, List.flatMap_cons, List.flatMap_map]
        rfl
      · intro T hT
        obtain ⟨T, hT', rfl⟩ := List.mem_map.1 hT
        exact hs.copies T hT'
      · intro hf
        obtain ⟨rfl, rfl⟩ := hs.fit hf
        exact ⟨hr, rfl⟩

example : (fitIndexBuffers [0] 7 9 [sample .polygons []]).map (fun l => l.map fun T => (T.set.polys.counts, polygons T 0, polygons T 1)) =
    some [([4, 3], [[0, 1, 2, 3].map some, [0, 1, 4].map some], [[7, 7, 7, 7].map some, [8, 8, 8].map some]), ([4], [[5, 4, 3, 2].map some], [[9, 9, 9, 9].map some])] := rfl

/-- Any number of rounds of the loop. -/
def rounds (vs : List Nat) (maximum : Nat) (S : PSet) : Nat → State → Option State
  | 0, t => some t
  | n + 1, t => (round vs maximum S t).bind (rounds vs maximum S n)

/-- **C72, violated** (a face that is larger than the maximum). With a maximum of 3 the call for the sample never ends: after any number of rounds the loop has
added that number of empty polygon sets to the mesh and has not moved on. -/
theorem fit_large_violated : (∀ n, ∃ t, rounds [0] 3 (sample .polygons []) n ⟨[], 0, 0, 0, 0⟩ = some t ∧ t.copies.length = n ∧ t.faceEnd = 0) ∧
    ∀ n, fitIndexBuffers [0] 3 n [sample .polygons []] = none := by
  have step : ∀ l, round [0] 3 (sample .polygons []) ⟨l, 0, 0, 0, 0⟩ = some ⟨l ++ [⟨newSet [0], [109]⟩], 0, 0, 0, 0⟩ := fun l => rfl
  constructor
  · have key : ∀ n l, ∃ t, rounds [0] 3 (sample .polygons []) n ⟨l, 0, 0, 0, 0⟩ = some t ∧ t.copies.length = l.length + n ∧ t.faceEnd = 0 := by
      intro n
      induction n with
      | zero => intro l; exact ⟨_, rfl, rfl, rfl⟩
      | succ n ih =>
        intro l
        obtain ⟨t, h1, h2, h3⟩ := ih (l ++ [⟨newSet [0], [109]⟩])
        refine ⟨t, ?_, by rw [h2]; simp; omega, h3⟩
        rw [rounds, step, Option.bind_some, h1]
    intro n
    obtain ⟨t, h1, h2, h3⟩ := key n []
    exact ⟨t, h1, by simpa using h2, h3⟩
  · have key : ∀ n l, loop [0] 3 (sample .polygons []) n ⟨l, 0, 0, 0, 0⟩ = none := by
      intro n
      induction n with
      | zero => intro l; rfl
      | succ n ih =>
        intro l
        rw [loop, if_pos (by show 0 < 3; decide), step, Option.bind_some, ih]
    intro n
    have h1 : fitSet [0] 3 n (sample .polygons []) = (loop [0] 3 (sample .polygons []) n ⟨[], 0, 0, 0, 0⟩).map fun t => (cutSet 0 0 (sample .polygons []), t.copies) := rfl
    rw [fitIndexBuffers, fitAll, h1, key]
    rfl

/-- **C72, violated** (the type of primitives). What is split off a set of triangle strips is a set of polygons. -/
theorem fit_prim_violated : (fitIndexBuffers [0] 7 9 [sample .triangleStrips []]).map (fun l => l.map fun T => T.set.polys.prim) = some [.triangleStrips, .polygons] := by
  decide

/-- **C72, violated** (holes). The sample with its third face as a hole in the second one: the first set still has the number of the hole, behind its faces, and in
the new set the hole is a face. -/
theorem fit_hole_violated : (fitIndexBuffers [0] 7 9 [sample .polygons [2]]).map (fun l => l.map fun T => (T.set.polys.counts, T.set.polys.holes)) =
    some [([4, 3], [2]), ([4], [])] := by
  decide

/-- **C72, violated** (offsets). If a source that is not per-vertex has the offset 0 and the per-vertex source another one, the two share an index list in the new
set, and the indices of one of them are lost. -/
theorem fit_offset_violated : ∃ S, (⟨S, []⟩ : PSet).set.polys.counts = [3, 3] ∧ Reach S.polys ∧ S.srcs = [0, 1] ∧
    polygons ⟨S, []⟩ 1 = [[7, 7, 7].map some, [8, 8, 8].map some] ∧
    (fitIndexBuffers [0] 3 9 [⟨S, []⟩]).map (fun l => l.flatMap (polygons · 1)) = some [[7, 7, 7].map some, [2, 1, 3].map some] := by
  refine ⟨⟨⟨[3, 3], [], [⟨1, [0, 1, 2, 2, 1, 3].map some⟩, ⟨0, [7, 7, 7, 8, 8, 8].map some⟩], .polygons, 6⟩, [0, 1]⟩, rfl, ?_, rfl, by decide, by decide⟩
  exact reach_foldlM (ops := [Op.addInput 1, .addInput 0, .addFace 3, .addFace 3, .setIndices 0 ([0, 1, 2, 2, 1, 3].map some),
    .setIndices 1 ([7, 7, 7, 8, 8, 8].map some)]) .start (by decide)

end Verif.FFit
