import Verif.UnifyAux
import Verif.UnifyInputs
import Verif.PolyProps

/-!
# Unique indices: theorems (C37, C74)

`indexList` of an input is what its `GetIndices` gives. `Good` (UnifySpec) describes the meshes covered.
-/

namespace Verif.FUnify

open Verif.FPoly

variable {α : Type}

/-! ## C37 -/

/-- C37: what the new indices are: in one polygon set two corners have the same new index exactly when they had the same index in every input;
corners of different sets have different new indices; the new indices are the numbers below the number of different corners, each used, and a
corner whose index is not new has the least index that is not yet used. -/
theorem new_indices {M : Mesh α} (h : Good M) :
    (∀ (p : Nat) (S : MSet) (B : List Nat), M.sets[p]? = some S → (newIndices M.sets 0)[p]? = some B →
      (∀ i, i < S.polys.inputs.length → B.length = (indexList S.polys.inputs i).length) ∧
      ∀ k k', k < B.length → k' < B.length → (B[k]? = B[k']? ↔ ∀ i, i < S.polys.inputs.length →
        (indexList S.polys.inputs i)[k]? = (indexList S.polys.inputs i)[k']?)) ∧
    (∀ (p p' : Nat) (B B' : List Nat) (b : Nat), (newIndices M.sets 0)[p]? = some B → (newIndices M.sets 0)[p']? = some B' → b ∈ B → b ∈ B' → p = p') ∧
    (∀ b, (∃ B ∈ newIndices M.sets 0, b ∈ B) ↔ b < vertexCount M.sets) ∧
    (∀ pre b post, (newIndices M.sets 0).flatten = pre ++ b :: post → b ∈ pre ∨ b = pre.eraseDups.length) := by
  have hkeys : ∀ (p : Nat) (S : MSet) (B : List Nat), M.sets[p]? = some S → (newIndices M.sets 0)[p]? = some B →
      B = (cornerKeys S).map fun x => vertexCount (M.sets.take p) + (cornerKeys S).eraseDups.idxOf x := by
    intro p S B hS hB
    rw [newIndices_get _ _ _ _ hS] at hB
    simpa using hB.symm
  have hrange : ∀ (p : Nat) (S : MSet) (B : List Nat), M.sets[p]? = some S → (newIndices M.sets 0)[p]? = some B → ∀ b ∈ B,
      vertexCount (M.sets.take p) ≤ b ∧ b < vertexCount (M.sets.take p) + (cornerKeys S).eraseDups.length := by
    intro p S B hS hB b hb
    rw [hkeys p S B hS hB] at hb
    obtain ⟨x, hx, rfl⟩ := List.mem_map.mp hb
    have := List.idxOf_lt_length_of_mem ((mem_eraseDups' (cornerKeys S) x).mpr hx)
    omega
  have hset : ∀ (p : Nat) (B : List Nat), (newIndices M.sets 0)[p]? = some B → ∃ S, M.sets[p]? = some S := by
    intro p B hB
    have : p < M.sets.length := by
      by_contra hn
      rw [List.getElem?_eq_none (by rw [newIndices_length]; omega)] at hB
      simp at hB
    exact ⟨_, List.getElem?_eq_getElem this⟩
  have hmono : ∀ p p' (S : MSet), p < p' → M.sets[p]? = some S → vertexCount (M.sets.take p) + (cornerKeys S).eraseDups.length ≤ vertexCount (M.sets.take p') := by
    intro p p' S hlt hS
    have h1 : (M.sets.take p')[p]? = some S := by rw [List.getElem?_take]; simp [hlt, hS]
    have := vertexCount_lt (M.sets.take p') p S h1
    rwa [List.take_take, Nat.min_eq_left (by omega)] at this
  refine ⟨?_, ?_, ?_, ?_⟩
  · intro p S B hS hB
    have hB' := hkeys p S B hS hB
    obtain ⟨⟨n, hok⟩, hlen⟩ := good_sets h S (List.mem_of_getElem? hS)
    have hBl : B.length = (indexList S.polys.inputs 0).length := by rw [hB']; simp [cornerKeys]
    refine ⟨?_, ?_⟩
    · intro i hi
      rw [hBl, hok.len i hi, hok.len 0 (by omega)]
    · intro k k' hk hk'
      have hget : ∀ k, k < B.length → B[k]? = some (vertexCount (M.sets.take p) + (cornerKeys S).eraseDups.idxOf (cornerKey S k)) ∧ cornerKey S k ∈ (cornerKeys S).eraseDups := by
        intro k hk
        rw [hBl] at hk
        have : (cornerKeys S)[k]? = some (cornerKey S k) := by simp [cornerKeys, hk]
        refine ⟨by rw [hB', List.getElem?_map, this]; rfl, ?_⟩
        rw [mem_eraseDups']
        exact List.mem_of_getElem? this
      rw [(hget k hk).1, (hget k' hk').1]
      constructor
      · intro e i hi
        have hkey := idxOf_inj' (hget k hk).2 (show (cornerKeys S).eraseDups.idxOf (cornerKey S k) = (cornerKeys S).eraseDups.idxOf (cornerKey S k') by
          simp at e; omega)
        exact (List.map_inj_left.mp hkey) i (List.mem_range.mpr hi)
      · intro e
        have : cornerKey S k = cornerKey S k' := List.map_congr_left fun i hi => e i (List.mem_range.mp hi)
        rw [this]
  · intro p p' B B' b hB hB' hb hb'
    obtain ⟨S, hS⟩ := hset p B hB
    obtain ⟨S', hS'⟩ := hset p' B' hB'
    have r1 := hrange p S B hS hB b hb
    have r2 := hrange p' S' B' hS' hB' b hb'
    rcases Nat.lt_trichotomy p p' with hlt | he | hlt
    · have := hmono p p' S hlt hS; omega
    · exact he
    · have := hmono p' p S' hlt hS'; omega
  · have key : ∀ (sets : List MSet) (base b : Nat), (∃ B ∈ newIndices sets base, b ∈ B) ↔ base ≤ b ∧ b < base + vertexCount sets := by
      intro sets
      induction sets with
      | nil => intro base b; simp [newIndices, vertexCount]
      | cons S sets ih =>
        intro base b
        have hv : vertexCount (S :: sets) = (cornerKeys S).eraseDups.length + vertexCount sets := by simp [vertexCount]
        have hone : b ∈ (cornerKeys S).map (fun x => base + (cornerKeys S).eraseDups.idxOf x) ↔ base ≤ b ∧ b < base + (cornerKeys S).eraseDups.length := by
          constructor
          · intro hb
            obtain ⟨x, hx, rfl⟩ := List.mem_map.mp hb
            have := List.idxOf_lt_length_of_mem ((mem_eraseDups' (cornerKeys S) x).mpr hx)
            omega
          · rintro ⟨h1, h2⟩
            have hlt : b - base < (cornerKeys S).eraseDups.length := by omega
            refine List.mem_map.mpr ⟨(cornerKeys S).eraseDups[b - base], (mem_eraseDups' _ _).mp (List.getElem_mem hlt), ?_⟩
            rw [(nodup_eraseDups (cornerKeys S)).idxOf_getElem]
            omega
        rw [hv]
        simp only [newIndices, List.mem_cons, exists_eq_or_imp, hone, ih]
        omega
    intro b
    rw [key]
    omega
  · have one : ∀ (K : List (List (Option (Option Nat)))) (base : Nat) (pre : List Nat) (b : Nat) (post : List Nat),
        K.map (fun x => base + K.eraseDups.idxOf x) = pre ++ b :: post → b ∈ pre ∨ b = base + pre.eraseDups.length := by
      intro K base pre b post e
      obtain ⟨l1, l2, rfl, e1, e2⟩ := List.map_eq_append_iff.mp e
      obtain ⟨x, l3, rfl, e3, e4⟩ := List.map_eq_cons_iff.mp e2
      by_cases hx : x ∈ l1
      · left
        rw [← e1, ← e3]
        exact List.mem_map_of_mem hx
      · right
        have hR : pre.eraseDups.length = l1.eraseDups.length := by
          obtain ⟨R, r1, r2, r3⟩ := reps (fun y => base + (l1 ++ x :: l3).eraseDups.idxOf y) id l1 (by
            intro a ha c hc
            constructor
            · intro e
              refine idxOf_inj' (l := (l1 ++ x :: l3).eraseDups) ((mem_eraseDups' _ _).mpr (by simp [ha])) ?_
              simpa using e
            · intro e; simp only [id] at e; rw [e])
          rw [← e1, r2]
          rw [List.map_id, List.map_id] at r3
          rw [r3]; simp
        have hidx : (l1 ++ x :: l3).eraseDups.idxOf x = l1.eraseDups.length := by
          have : (l1 ++ x :: l3).eraseDups = (l1 ++ [x]).eraseDups ++ (l3.removeAll (l1 ++ [x])).eraseDups := by
            rw [← List.eraseDups_append]; simp
          rw [this, List.idxOf_append_of_mem ((mem_eraseDups' _ _).mpr (by simp)), eraseDups_snoc, if_neg hx,
            List.idxOf_append_of_notMem (fun hm => hx ((mem_eraseDups' _ _).mp hm))]
          simp
        rw [← e3, hidx, hR]
    have all : ∀ (sets : List MSet) (base : Nat) (pre : List Nat) (b : Nat) (post : List Nat), (newIndices sets base).flatten = pre ++ b :: post →
        b ∈ pre ∨ b = base + pre.eraseDups.length := by
      intro sets
      induction sets with
      | nil => intro base pre b post e; simp [newIndices] at e
      | cons S sets ih =>
        intro base pre b post e
        simp only [newIndices, List.flatten_cons] at e
        rw [List.append_eq_append_iff] at e
        rcases e with ⟨t, e1, e2⟩ | ⟨t, e1, e2⟩
        · -- in the later sets
          rcases ih _ t b post e2 with hm | hb
          · left; rw [e1]; simp [hm]
          · right
            rw [hb, e1, List.eraseDups_append, List.length_append]
            have hfirst : ∀ c ∈ t, ¬ c ∈ (cornerKeys S).map (fun x => base + (cornerKeys S).eraseDups.idxOf x) := by
              intro c hc hc'
              obtain ⟨x, hx, rfl⟩ := List.mem_map.mp hc'
              have hlt := List.idxOf_lt_length_of_mem ((mem_eraseDups' (cornerKeys S) x).mpr hx)
              have hge : ∀ (sets : List MSet) (base : Nat), ∀ B ∈ newIndices sets base, ∀ c ∈ B, base ≤ c := by
                intro sets
                induction sets with
                | nil => intro base B hB; simp [newIndices] at hB
                | cons S sets ih =>
                  intro base B hB c hc
                  simp only [newIndices, List.mem_cons] at hB
                  rcases hB with rfl | hB
                  · obtain ⟨x, _, rfl⟩ := List.mem_map.mp hc; omega
                  · have := ih _ B hB c hc; omega
              have hcm : base + (cornerKeys S).eraseDups.idxOf x ∈ (newIndices sets (base + (cornerKeys S).eraseDups.length)).flatten := by rw [e2]; simp [hc]
              obtain ⟨B, hB, hcB⟩ := List.mem_flatten.mp hcm
              have := hge _ _ B hB _ hcB
              omega
            have hrem : t.removeAll ((cornerKeys S).map fun x => base + (cornerKeys S).eraseDups.idxOf x) = t := by
              simp only [List.removeAll]
              rw [List.filter_eq_self]
              intro c hc
              simpa using hfirst c hc
            rw [hrem]
            have hlen : ((cornerKeys S).map fun x => base + (cornerKeys S).eraseDups.idxOf x).eraseDups.length = (cornerKeys S).eraseDups.length := by
              obtain ⟨R, r1, r2, r3⟩ := reps (fun y => base + (cornerKeys S).eraseDups.idxOf y) id (cornerKeys S) (by
                intro a ha c hc
                constructor
                · intro e
                  refine idxOf_inj' (l := (cornerKeys S).eraseDups) ((mem_eraseDups' _ _).mpr ha) (by simpa using e)
                · intro e; simp only [id] at e; rw [e])
              rw [r2]
              rw [List.map_id, List.map_id] at r3
              rw [r3]; simp
            rw [hlen]
            omega
        · -- in the first set, or at the start of the later ones
          cases t with
          | nil =>
            simp at e1 e2
            rcases ih _ [] b post e2.symm with hm | hb
            · simp at hm
            · right
              rw [hb, ← e1]
              have hlen : ((cornerKeys S).map fun x => base + (cornerKeys S).eraseDups.idxOf x).eraseDups.length = (cornerKeys S).eraseDups.length := by
                obtain ⟨R, r1, r2, r3⟩ := reps (fun y => base + (cornerKeys S).eraseDups.idxOf y) id (cornerKeys S) (by
                  intro a ha c hc
                  constructor
                  · intro e
                    refine idxOf_inj' (l := (cornerKeys S).eraseDups) ((mem_eraseDups' _ _).mpr ha) (by simpa using e)
                  · intro e; simp only [id] at e; rw [e])
                rw [r2]
                rw [List.map_id, List.map_id] at r3
                rw [r3]; simp
              rw [hlen]
              simp
          | cons c t =>
            simp only [List.cons_append, List.cons.injEq] at e2
            obtain ⟨rfl, _⟩ := e2
            exact one _ base pre b t e1
    intro pre b post e
    have := all M.sets 0 pre b post e
    simpa using this

/-- C37: `GenerateUniqueIndices` has a defined result on every good mesh; the faces, holes and types of the polygon sets are kept; every input of
every polygon set has the new indices of the set; and every corner reaches through its new index the same values as before, in every source that
its set used. -/
theorem unique_indices [Zero α] {M : Mesh α} (h : Good M) : ∃ M', generate M = some M' ∧ M'.sets.length = M.sets.length ∧
    M'.sources.length = M.sources.length ∧
    (∀ (p : Nat) (S : MSet) (B : List Nat), M.sets[p]? = some S → (newIndices M.sets 0)[p]? = some B → ∃ S' : MSet, M'.sets[p]? = some S' ∧
      S'.polys.counts = S.polys.counts ∧ S'.polys.holes = S.polys.holes ∧ S'.polys.prim = S.polys.prim ∧ S'.srcs.length = S'.polys.inputs.length ∧
      (∀ d ∈ S.srcs, d ∈ S'.srcs) ∧ ∀ j, j < S'.polys.inputs.length → indexList S'.polys.inputs j = B.map some) ∧
    (∀ (d : Nat) (s : Source α), M.sources[d]? = some s → ∃ s' : Source α, M'.sources[d]? = some s' ∧ s'.stride = s.stride ∧
      ∀ o j, Corner M d o j → o < s.data.length / s.stride → value s' j = value s o) := by
  by_cases hne : M.sets = []
  · refine ⟨M, by rw [generate, if_pos hne], rfl, rfl, by intro p S B hS; rw [hne] at hS; simp at hS, ?_⟩
    intro d s hs
    refine ⟨s, hs, rfl, ?_⟩
    rintro o j ⟨p, S, B, i, k, hS, _⟩
    rw [hne] at hS
    simp at hS
  · have hsets := good_sets h
    have hfill := fill_ok M.sets 0 h.prim (fun S hS => (hsets S hS).1) (by have := h.count; omega)
    rw [Nat.zero_add] at hfill
    obtain ⟨ss', s1, s2, s3⟩ := sourceLoop_ok hsets M.sources 0 h.stride
    obtain ⟨f, f1, f2, f3⟩ := vertexLoop_ok M.sources.length (List.range ss'.length) { M with sources := ss' } (by intro d hd; rw [List.mem_range] at hd; omega)
    simp only [] at f1 f2
    have hzlen : (M.sets.map f).length = (newIndices M.sets 0).length := by rw [newIndices_length]; simp
    obtain ⟨sets', e1, e2, e3⟩ := enforceSets_ok (sources := ss') ((M.sets.map f).zip (newIndices M.sets 0)) (by
      intro q hq
      obtain ⟨p, hp⟩ := List.getElem?_of_mem hq
      rw [List.getElem?_zip_eq_some] at hp
      obtain ⟨p1, p2⟩ := hp
      rw [List.getElem?_map, Option.map_eq_some_iff] at p1
      obtain ⟨S, hS, eS⟩ := p1
      have hmem := List.mem_of_getElem? hS
      have hk := f3 S
      rw [eS] at hk
      obtain ⟨⟨n, hok⟩, hlen⟩ := hsets S hmem
      have hB := newIndices_get _ 0 _ _ hS
      rw [p2] at hB
      simp only [Nat.zero_add, Option.some_inj] at hB
      refine ⟨hk.one hok.inv.one, hk.len hlen, ?_, ?_, ?_⟩
      · intro d hd
        rw [s2]
        exact hk.bound (h.srcs S hmem).2.2 d hd
      · intro hBne s hs
        have hpos : 0 < vertexCount M.sets := by
          have hle := vertexCount_lt M.sets p S hS
          have : 0 < (cornerKeys S).eraseDups.length := by
            rcases hc : cornerKeys S with _ | ⟨x, l⟩
            · rw [hc] at hB; exact absurd hB hBne
            · exact List.length_pos_of_mem ((mem_eraseDups' (x :: l) x).mpr (by simp))
          omega
        obtain ⟨k, hk'⟩ := List.getElem?_of_mem hs
        have hklt : k < M.sources.length := by
          by_contra hn
          rw [List.getElem?_eq_none (by omega)] at hk'
          simp at hk'
        obtain ⟨s', t1, t2, t3, _⟩ := s3 k _ (List.getElem?_eq_getElem hklt)
        rw [hk'] at t1
        cases t1
        have := t3 hpos
        intro e
        rw [e] at this
        have hst := (h.stride _ (List.getElem_mem hklt)).1
        have : 0 < M.sources[k].stride * vertexCount M.sets := Nat.mul_pos hst hpos
        simp at *
        omega
      · intro hB0
        apply hk.empty
        intro x hx
        cases ho : owns x with
        | false => rfl
        | true =>
          obtain ⟨i, hi, e⟩ := owner_list hok.inv hx ho
          have hl := hok.len i hi
          have h0 := hok.len 0 (by omega)
          have : (cornerKeys S).length = 0 := by
            have := congrArg List.length hB
            rw [hB0] at this
            simpa using this.symm
          simp only [cornerKeys, List.length_map, List.length_range] at this
          rw [e] at hl
          simp [owns] at ho
          exact absurd (List.eq_nil_of_length_eq_zero (by omega)) ho)
    refine ⟨{ vertexLoop (List.range ss'.length) { M with sources := ss' } with sets := sets' }, ?_, ?_, ?_, ?_, ?_⟩
    · rw [generate, if_neg hne, hfill, Option.bind_some]
      simp only []
      rw [s1, Option.bind_some, f1, f2, e1]
      rfl
    · show sets'.length = _
      rw [e2, List.length_zip, newIndices_length]
      simp
    · show (vertexLoop (List.range ss'.length) { M with sources := ss' }).sources.length = _
      rw [f2, s2]
    · intro p S B hS hB
      obtain ⟨S', a1, a2, a3, a4, a5, a6, a7⟩ := e3 p (f S, B) (List.getElem?_zip_eq_some.mpr ⟨by rw [List.getElem?_map, hS]; rfl, hB⟩)
      have hk := f3 S
      refine ⟨S', a1, by rw [a4, hk.counts], by rw [a5, hk.holes], by rw [a6, hk.prim], ?_, ?_, a7⟩
      · rw [a2, a3]; exact hk.len (hsets S (List.mem_of_getElem? hS)).2
      · intro d hd; rw [a2]; exact hk.srcs d hd
    · intro d s hs
      obtain ⟨s', t1, t2, _, t4⟩ := s3 d s hs
      refine ⟨s', ?_, t2, ?_⟩
      · show (vertexLoop (List.range ss'.length) { M with sources := ss' }).sources[d]? = _
        rw [f2]; exact t1
      · intro o j hc ho
        rw [Nat.zero_add] at t4
        exact value_copied t2 fun q hq => t4 (o, j) (List.mem_filter.mpr ⟨(corner_pairs h).mpr hc, by simpa using ho⟩) q hq

/-- C37: a mesh with a set of points is left as it is. -/
theorem points_unchanged [Zero α] {M : Mesh α} (hr : ∀ S ∈ M.sets, Reach S.polys)
    (hi : ∀ S ∈ M.sets, ∀ i, i < S.polys.inputs.length → none ∉ indexList S.polys.inputs i) (hc : vertexCount M.sets < 2 ^ 32)
    (hp : ∃ S ∈ M.sets, S.polys.prim = .points) : generate M = some M := by
  have key : ∀ (sets : List MSet) (base : Nat), (∀ S ∈ sets, Reach S.polys) →
      (∀ S ∈ sets, ∀ i, i < S.polys.inputs.length → none ∉ indexList S.polys.inputs i) → base + vertexCount sets < 2 ^ 32 →
      (∃ S ∈ sets, S.polys.prim = .points) → fillLoop sets base = some none := by
    intro sets
    induction sets with
    | nil => intro base _ _ _ h; simp at h
    | cons S sets ih =>
      intro base h1 h2 h3 h4
      have hv : vertexCount (S :: sets) = (cornerKeys S).eraseDups.length + vertexCount sets := by simp [vertexCount]
      rw [hv] at h3
      rw [fillLoop]
      by_cases hS : S.polys.prim = .points
      · rw [if_pos hS]
      · rw [if_neg hS, set_ok (setOk_of (reach_inv (h1 S (by simp))) (h2 S (by simp))) (by omega), Option.bind_some,
          ih _ (fun S' h => h1 S' (by simp [h])) (fun S' h => h2 S' (by simp [h])) (by omega)]
        · rfl
        · obtain ⟨S', hS', e⟩ := h4
          rcases List.mem_cons.mp hS' with rfl | hS'
          · exact absurd e hS
          · exact ⟨S', hS', e⟩
  have hne : M.sets ≠ [] := by
    obtain ⟨S, hS, _⟩ := hp
    intro e
    rw [e] at hS
    simp at hS
  rw [generate, if_neg hne, key M.sets 0 hr hi (by omega) hp]
  rfl

/-! ## C74 -/

/-- C74: `GenerateUniqueIndices` into lists gives the new indices, and for every source a map in which `o` is related to `j` exactly when some
corner with the old index `o`, inside the source, has the new index `j`; no pair is there twice. -/
theorem translation_maps {M : Mesh α} (h : Good M) : ∃ ms, generateMaps M = some (some (newIndices M.sets 0, ms)) ∧ ms.length = M.sources.length ∧
    ∀ (d : Nat) (s : Source α) (m : TMap), M.sources[d]? = some s → ms[d]? = some m →
      (m.map Prod.fst).Pairwise (· < ·) ∧ (∀ p ∈ m, p.2.Nodup) ∧
      ∀ o j, (∃ l, (o, l) ∈ m ∧ j ∈ l) ↔ Corner M d o j ∧ o < s.data.length / s.stride := by
  have hsets := good_sets h
  have hfill := fill_ok M.sets 0 h.prim (fun S hS => (hsets S hS).1) (by have := h.count; omega)
  obtain ⟨ms, m1, m2, m3⟩ := mapLoop_ok hsets M.sources 0 fun s hs => (h.stride s hs).1
  refine ⟨ms, ?_, m2, ?_⟩
  · rw [generateMaps, hfill, Option.bind_some]
    simp only []
    rw [m1]; rfl
  · intro d s m hs hm
    obtain ⟨m', a1, a2, a3⟩ := m3 d s hs
    rw [hm] at a1
    cases a1
    refine ⟨List.pairwise_map.mpr a2.sorted, a2.nodup, ?_⟩
    intro o j
    rw [← mem_mapPairs, a3, Nat.zero_add]
    simp only [inside, List.mem_filter, decide_eq_true_eq, corner_pairs h]

/-- C74: applying the translation map of a source to data with as many values, all of them used by some corner, into room for all new vertices:
every corner reaches through its new index the values it reached through the old one. -/
theorem apply_map [Zero α] {M : Mesh α} (h : Good M) {ms : List TMap} (hm : generateMaps M = some (some (newIndices M.sets 0, ms)))
    {d : Nat} {s t : Source α} {m : TMap} (hs : M.sources[d]? = some s) (hmd : ms[d]? = some m)
    (ht : t.stride = s.stride ∧ t.data.length = s.data.length) (hall : ∀ o, o < s.data.length / s.stride → ∃ j, Corner M d o j)
    {n : Nat} (hn : vertexCount M.sets ≤ n) (hn32 : s.stride * n ≤ 2 ^ 32) :
    ∃ t', applySource t n m = some t' ∧ t'.stride = t.stride ∧ t'.data.length = t.stride * n ∧
      ∀ o j, Corner M d o j → o < s.data.length / s.stride → value t' j = value t o := by
  obtain ⟨ms', e1, e2, e3⟩ := translation_maps h
  rw [hm] at e1
  simp at e1
  subst e1
  have hsets := good_sets h
  obtain ⟨ms'', m1, m2, m3⟩ := mapLoop_ok hsets M.sources 0 fun s hs => (h.stride s hs).1
  have hfill := fill_ok M.sets 0 h.prim (fun S hS => (hsets S hS).1) (by have := h.count; omega)
  rw [generateMaps, hfill, Option.bind_some] at hm
  simp only [] at hm
  rw [m1] at hm
  simp at hm
  subst hm
  obtain ⟨m', a1, a2, a3⟩ := m3 d s hs
  rw [hmd] at a1
  cases a1
  have hst := h.stride s (List.mem_of_getElem? hs)
  obtain ⟨f1, f2⟩ := pairs_fun d M.sets 0 hsets
  rw [Nat.zero_add] at a3
  have hkeys : ∀ p ∈ m, p.1 < s.data.length / s.stride := by
    intro p hp
    obtain ⟨j, hj⟩ := List.exists_mem_of_ne_nil _ (a2.full p hp)
    have := (a3 (p.1, j)).mp (mem_mapPairs.mpr ⟨p.2, hp, hj⟩)
    simpa [inside] using (List.mem_filter.mp this).2
  -- the number of keys
  have hlen : m.length = s.data.length / s.stride := by
    have hk : (m.map Prod.fst) = List.range (s.data.length / s.stride) := by
      apply List.Perm.eq_of_pairwise (le := (· < ·)) (fun a b _ _ h1 h2 => absurd h1 (by omega)) (List.pairwise_map.mpr a2.sorted) List.pairwise_lt_range
      rw [List.perm_ext_iff_of_nodup ((List.pairwise_map.mpr a2.sorted).imp (fun h => Nat.ne_of_lt h)) List.nodup_range]
      intro o
      rw [List.mem_range]
      constructor
      · intro ho
        obtain ⟨p, hp, rfl⟩ := List.mem_map.mp ho
        exact hkeys p hp
      · intro ho
        obtain ⟨j, hj⟩ := hall o ho
        have := (a3 (o, j)).mpr (List.mem_filter.mpr ⟨(corner_pairs h).mpr hj, by simpa using ho⟩)
        obtain ⟨l, hl, _⟩ := mem_mapPairs.mp this
        exact List.mem_map.mpr ⟨(o, l), hl, rfl⟩
    have := congrArg List.length hk
    simpa using this
  have hlenr : (resizeData (n * t.stride) t.data).length = t.stride * n := by
    simp [resizeData, Nat.mul_comm]
    omega
  have hin : ∀ p ∈ mapPairs m, p ∈ allPairs M.sets d ∧ p.1 < s.data.length / s.stride := by
    intro p hp
    have := List.mem_filter.mp ((a3 p).mp hp)
    exact ⟨this.1, by simpa using this.2⟩
  obtain ⟨buf, b1, b2, b3⟩ := copyLoop_ok t (by rw [ht.1]; exact hst.1) (by rw [ht.2]; exact hst.2.1) n (by rw [ht.1]; exact hn32) (mapPairs m) []
    (resizeData (n * t.stride) t.data)
    (fun p hp => by have := (f1 p (hin p hp).1).2; omega) hlenr (by intro p hp; simp at hp)
    (by rw [List.nil_append]; intro p hp q hq; exact f2 p (hin p hp).1 q (hin q hq).1)
  refine ⟨{ t with data := buf }, ?_, rfl, b2, ?_⟩
  · have hv : valueCount t = some (s.data.length / s.stride) := by
      simp only [valueCount, ht.1, ht.2]
      rw [if_neg (by omega)]
    rw [applySource, hv, Option.bind_some, if_pos hlen.symm, applyMap_eq t (by rw [ht.1]; exact hst.1) m _ (by rw [ht.1, ht.2]; exact hkeys), b1]
    rfl
  · intro o j hc ho
    rw [List.nil_append] at b3
    refine value_copied (s := t) (s' := { t with data := buf }) (o := o) (j := j) rfl fun q hq => b3 (o, j) ?_ q hq
    refine List.mem_filter.mpr ⟨(a3 (o, j)).mpr (List.mem_filter.mpr ⟨(corner_pairs h).mpr hc, by simpa using ho⟩), ?_⟩
    simpa [ht.1, ht.2] using ho

/-- C74, as far as the last loop of `ApplyUniqueIndices` is right: for a mesh with one polygon set, whose first input gets the new indices.
Missing: several polygon sets, see `reset_violated`. -/
theorem reset_partial {S : MSet} {B : List Nat} (hr : Reach S.polys) (h0 : 0 < S.polys.inputs.length)
    (hB : B.length = (indexList S.polys.inputs 0).length) :
    ∃ S', resetIndices [S] B = some [S'] ∧ S'.polys.counts = S.polys.counts ∧ indexList S'.polys.inputs 0 = B.map some := by
  have hi := reach_inv hr
  have hne : S.polys.inputs ≠ [] := by intro e; rw [e] at h0; simp at h0
  have hx : S.polys.inputs[0]? = some S.polys.inputs[0] := List.getElem?_eq_getElem h0
  refine ⟨{ S with polys := { S.polys with inputs := setIndices S.polys.inputs 0 (B.map some) } }, ?_, rfl, ?_⟩
  · simp only [resetIndices]
    simp [hne, hB]
    rw [← hB, ← List.length_map (f := some) (as := B), List.take_length]
  · obtain ⟨y, hy, he⟩ := get_offset (upd_offsets S.polys.inputs 0 fun _ => B.map some) hx
    show indexList (upd S.polys.inputs 0 fun _ => B.map some) 0 = _
    rw [indexList_chan (upd_one hi.one hx _) hy, he, upd_chan hi.one hx, if_pos rfl]

/-! ## Samples -/

/-- The corners 0 and 3 share a vertex, the corners 2 and 4 do not, because their normals differ; the second set has vertices of its own. -/
example : newIndices sample.sets 0 = [[0, 1, 2, 0, 3, 4], [5, 6, 5]] ∧ vertexCount sample.sets = 7 := by decide
example : (generate sample).map (fun M => M.sources) =
    some [⟨3, [0, 0, 0, 1, 0, 0, 1, 1, 0, 1, 1, 0, 0, 1, 0, 0, 0, 0, 1, 0, 0]⟩, ⟨1, [7, 7, 7, 8, 7, 0, 0]⟩] := by decide +kernel
example : Corner sample 0 2 3 := ⟨0, _, [0, 1, 2, 0, 3, 4], 0, 4, rfl, rfl, rfl, rfl, rfl⟩
example : generateMaps sample = some (some ([[0, 1, 2, 0, 3, 4], [5, 6, 5]], [[(0, [0, 5]), (1, [1, 6]), (2, [2, 3]), (3, [4])], [(0, [0, 1, 2, 4]), (1, [3])]])) := by
  decide +kernel

/-- The hypothesis of `apply_map` that all values are used is met by the first source of the sample. -/
example : ∀ o, o < 12 / 3 → ∃ j, Corner sample 0 o j := by
  intro o ho
  have : o = 0 ∨ o = 1 ∨ o = 2 ∨ o = 3 := by omega
  rcases this with rfl | rfl | rfl | rfl
  · exact ⟨0, 0, _, [0, 1, 2, 0, 3, 4], 0, 0, rfl, rfl, rfl, rfl, rfl⟩
  · exact ⟨1, 0, _, [0, 1, 2, 0, 3, 4], 0, 1, rfl, rfl, rfl, rfl, rfl⟩
  · exact ⟨2, 0, _, [0, 1, 2, 0, 3, 4], 0, 2, rfl, rfl, rfl, rfl, rfl⟩
  · exact ⟨4, 0, _, [0, 1, 2, 0, 3, 4], 0, 5, rfl, rfl, rfl, rfl, rfl⟩

/-- Points are met too. -/
example : ∃ M : Mesh Int, (∀ S ∈ M.sets, Reach S.polys) ∧ (∀ S ∈ M.sets, ∀ i, i < S.polys.inputs.length → none ∉ indexList S.polys.inputs i) ∧
    vertexCount M.sets < 2 ^ 32 ∧ ∃ S ∈ M.sets, S.polys.prim = .points := by
  refine ⟨⟨[⟨1, [1, 2]⟩], [⟨⟨[], [], [⟨0, []⟩], .points, 0⟩, [0]⟩], []⟩, ?_, by decide, by decide, by decide⟩
  intro S hS
  simp at hS
  subst hS
  exact reach_foldlM (ops := [Op.setPrim .points, .addInput 0]) .start (by decide)

/-- `reset_partial` is met by the second set of the sample. -/
example : ∃ S ∈ sample.sets, 0 < S.polys.inputs.length ∧ [5, 6, 5].length = (indexList S.polys.inputs 0).length := by decide

/-! ## Violations -/

/-- C37 fails for a polygon set that uses a source twice, as with two sets of texture coordinates in one source: only the indices of the first of
the two inputs are followed, and what the second reached is lost. -/
theorem twice_violated : ∃ (M M' : Mesh Int) (S S' : MSet), M.sets = [S] ∧ Reach S.polys ∧ S.srcs = [0, 0] ∧ generate M = some M' ∧ M'.sets = [S'] ∧
    S'.srcs = [0, 0] ∧ (indexList S.polys.inputs 1)[0]? = some (some 3) ∧ M.sources.map (value · 3) = [[13]] ∧
    (indexList S'.polys.inputs 1)[0]? = some (some 0) ∧ M'.sources.map (value · 0) = [[10]] := by
  refine ⟨⟨[⟨1, [10, 11, 12, 13]⟩], [⟨⟨[3], [], [⟨0, [0, 1, 2].map some⟩, ⟨1, [3, 2, 1].map some⟩], .polygons, 3⟩, [0, 0]⟩], [0]⟩,
    ⟨[⟨1, [10, 11, 12]⟩], [⟨⟨[3], [], [⟨0, [0, 1, 2].map some⟩, ⟨1, [0, 1, 2].map some⟩], .polygons, 3⟩, [0, 0]⟩], [0]⟩,
    ⟨⟨[3], [], [⟨0, [0, 1, 2].map some⟩, ⟨1, [3, 2, 1].map some⟩], .polygons, 3⟩, [0, 0]⟩,
    ⟨⟨[3], [], [⟨0, [0, 1, 2].map some⟩, ⟨1, [0, 1, 2].map some⟩], .polygons, 3⟩, [0, 0]⟩, rfl, ?_, rfl, by decide +kernel, rfl, rfl, rfl, rfl, rfl, rfl⟩
  exact reach_foldlM (ops := [Op.addInput 0, .addInput 1, .addFace 3, .setIndices 0 ([0, 1, 2].map some), .setIndices 1 ([3, 2, 1].map some)]) .start (by decide)

/-- C74 fails for two polygon sets: the new indices of both are given to the first one, and the second reads behind the end of the list. -/
theorem reset_violated : ∃ (ms : List TMap) (bs : List (List Nat)), generateMaps sample = some (some (bs, ms)) ∧ resetIndices sample.sets bs.flatten = none := by
  refine ⟨[[(0, [0, 5]), (1, [1, 6]), (2, [2, 3]), (3, [4])], [(0, [0, 1, 2, 4]), (1, [3])]], [[0, 1, 2, 0, 3, 4], [5, 6, 5]], by decide +kernel, by decide⟩

/-- C74 fails if not every vertex has a value in the first source: the number of values is taken from the translation map of the first source
alone, and a value of the other source is written behind the end of its data. -/
theorem buffer_violated : ∃ (M : Mesh Int) (m0 m1 : TMap) (s : Source Int) (bs : List (List Nat)), Good M ∧ generateMaps M = some (some (bs, [m0, m1])) ∧
    M.sources[1]? = some s ∧ applySource s (bufferLen m0) m1 = none := by
  refine ⟨⟨[⟨1, [7]⟩, ⟨1, [0, 1, 2]⟩], [⟨⟨[3], [], [⟨0, [0, 1, 2].map some⟩], .polygons, 3⟩, [1]⟩], []⟩, [], [(0, [0]), (1, [1]), (2, [2])], ⟨1, [0, 1, 2]⟩, [[0, 1, 2]],
    ⟨by decide, ?_, by decide, by decide, by decide, by decide⟩, by decide +kernel, rfl, by decide +kernel⟩
  intro S hS
  simp at hS
  subst hS
  exact reach_foldlM (ops := [Op.addInput 0, .addFace 3, .setIndices 0 ([0, 1, 2].map some)]) .start (by decide)

end Verif.FUnify
