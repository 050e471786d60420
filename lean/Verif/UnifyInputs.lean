import Verif.UnifyData

/-! # Lemmas about the inputs after the generation of unique indices, and about translation maps -/

namespace Verif.FUnify

open Verif.FPoly

variable {α : Type}

/-! ## Inputs -/

/-- What making a source per-vertex keeps. -/
structure Kept (N : Nat) (S S' : MSet) : Prop where
  one : One S.polys.inputs → One S'.polys.inputs
  len : S.srcs.length = S.polys.inputs.length → S'.srcs.length = S'.polys.inputs.length
  srcs : ∀ d ∈ S.srcs, d ∈ S'.srcs
  bound : (∀ d ∈ S.srcs, d < N) → ∀ d ∈ S'.srcs, d < N
  counts : S'.polys.counts = S.polys.counts
  holes : S'.polys.holes = S.polys.holes
  prim : S'.polys.prim = S.polys.prim
  empty : (∀ x ∈ S.polys.inputs, owns x = false) → ∀ x ∈ S'.polys.inputs, owns x = false

theorem Kept.refl (N : Nat) (S : MSet) : Kept N S S := ⟨id, id, fun _ h => h, id, rfl, rfl, rfl, id⟩

theorem Kept.trans {N : Nat} {S T U : MSet} (h : Kept N S T) (k : Kept N T U) : Kept N S U :=
  ⟨fun a => k.one (h.one a), fun a => k.len (h.len a), fun d hd => k.srcs d (h.srcs d hd), fun a => k.bound (h.bound a), k.counts.trans h.counts,
   k.holes.trans h.holes, k.prim.trans h.prim, fun a => k.empty (h.empty a)⟩

theorem one_append {ins : List Input} (h : One ins) (o : Nat) : FPoly.One (ins ++ [(⟨o, []⟩ : Input)]) := by
  intro i j x y hi hj he hx hy
  have key : ∀ (k : Nat) (z : Input), (ins ++ [⟨o, []⟩])[k]? = some z → owns z = true → ins[k]? = some z := by
    intro k z hk hz
    by_cases hlt : k < ins.length
    · rwa [List.getElem?_append_left hlt] at hk
    · rw [List.getElem?_append_right (by omega)] at hk
      have := List.mem_of_getElem? hk
      simp at this
      subst this
      simp [owns] at hz
  exact h i j x y (key i x hi hx) (key j y hj hy) he hx hy

theorem one_eraseIdx {ins : List Input} (h : One ins) (n : Nat) : One (ins.eraseIdx n) := by
  intro i j x y hi hj he hx hy
  rw [List.getElem?_eraseIdx] at hi hj
  split at hi <;> split at hj
  · exact h i j x y hi hj he hx hy
  · have := h i (j + 1) x y hi hj he hx hy; omega
  · have := h (i + 1) j x y hi hj he hx hy; omega
  · have := h (i + 1) (j + 1) x y hi hj he hx hy; omega

theorem vertexInput_kept {N d : Nat} (hd : d < N) (S : MSet) : Kept N S (vertexInput d S) := by
  rw [vertexInput]
  cases hf : findInput S d with
  | none =>
    refine ⟨fun h => one_append h 0, ?_, ?_, ?_, rfl, rfl, rfl, ?_⟩
    · intro h; simp [h]
    · intro z hz; simp [hz]
    · intro h z hz
      rcases List.mem_append.mp hz with hz | hz
      · exact h z hz
      · simp at hz; omega
    · intro h x hx
      rcases List.mem_append.mp hx with hx | hx
      · exact h x hx
      · simp at hx; subst hx; rfl
  | some i =>
    have hsp := findInput_spec hf
    refine ⟨fun h => one_append (one_eraseIdx h i) 0, ?_, ?_, ?_, rfl, rfl, rfl, ?_⟩
    · intro h
      simp only [List.length_append, List.length_eraseIdx, h]
      simp
    · intro z hz
      by_cases e : z = d
      · simp [e]
      · simp only [List.mem_append]
        left
        rw [List.mem_eraseIdx_iff_getElem?]
        obtain ⟨k, hk⟩ := List.getElem?_of_mem hz
        refine ⟨k, ?_, hk⟩
        rintro rfl
        rw [hsp] at hk
        simp at hk
        exact e hk.symm
    · intro h z hz
      rcases List.mem_append.mp hz with hz | hz
      · exact h z (List.mem_of_mem_eraseIdx hz)
      · simp at hz; omega
    · intro h x hx
      rcases List.mem_append.mp hx with hx | hx
      · exact h x (List.mem_of_mem_eraseIdx hx)
      · simp at hx; subst hx; rfl

theorem vertexLoop_ok (N : Nat) : ∀ (ds : List Nat) (M : Mesh α), (∀ d ∈ ds, d < N) → ∃ f : MSet → MSet, (vertexLoop ds M).sets = M.sets.map f ∧
    (vertexLoop ds M).sources = M.sources ∧ ∀ S, Kept N S (f S) := by
  intro ds
  induction ds with
  | nil => intro M _; exact ⟨id, by simp [vertexLoop], rfl, fun S => Kept.refl N S⟩
  | cons d ds ih =>
    intro M h
    rw [vertexLoop]
    split
    · exact ih M fun d' h' => h d' (by simp [h'])
    · obtain ⟨f, f1, f2, f3⟩ := ih { M with sets := M.sets.map (vertexInput d), vertexSources := M.vertexSources ++ [d] } fun d' h' => h d' (by simp [h'])
      exact ⟨f ∘ vertexInput d, by rw [f1, List.map_map], f2, fun S => (vertexInput_kept (h d (by simp)) S).trans (f3 _)⟩

theorem enforce_ok (sources : List (Source α)) (srcs B : List Nat) (hB : B ≠ []) (hs : ∀ s ∈ sources, s.data ≠ []) : ∀ (is done : List Nat) (ins : List Input), One ins →
    (∀ i ∈ done ++ is, i < ins.length ∧ ∃ d, srcs[i]? = some d ∧ d < sources.length) →
    (∀ i ∈ done, ∀ x, ins[i]? = some x → chan ins x.offset = B.map some) →
    ∃ ins', enforceLoop sources srcs B is ins = some ins' ∧ One ins' ∧ ins'.length = ins.length ∧
      ∀ i ∈ done ++ is, ∀ x, ins'[i]? = some x → chan ins' x.offset = B.map some := by
  intro is
  induction is with
  | nil => intro done ins h1 _ h3; exact ⟨ins, rfl, h1, rfl, by simpa using h3⟩
  | cons i is ih =>
    intro done ins h1 h2 h3
    obtain ⟨hi, d, hd, hdl⟩ := h2 i (by simp)
    have hx : ins[i]? = some ins[i] := List.getElem?_eq_getElem hi
    have hlen : (upd ins i fun _ => B.map some).length = ins.length := by
      have := congrArg List.length (upd_offsets ins i fun _ => B.map some)
      simpa using this
    obtain ⟨ins', a1, a2, a3, a4⟩ := ih (done ++ [i]) (upd ins i fun _ => B.map some) (upd_one h1 hx _)
      (by intro j hj; rw [hlen]; exact h2 j (by simpa using hj))
      (by
        intro j hj y hy
        obtain ⟨y', hy', he⟩ := get_offset (upd_offsets ins i fun _ => B.map some).symm hy
        rw [upd_chan h1 hx]
        split
        · rfl
        · rename_i hne
          rcases List.mem_append.mp hj with hj | hj
          · rw [← he]; exact h3 j hj y' hy'
          · simp at hj
            subst hj
            rw [hx] at hy'
            cases hy'
            exact absurd he.symm hne)
    refine ⟨ins', ?_, a2, by rw [a3, hlen], by simpa using a4⟩
    have hne := hs _ (List.getElem_mem hdl)
    rw [enforceLoop, hd, Option.bind_some, List.getElem?_eq_getElem hdl, Option.bind_some, if_neg (by simp [hne, hB])]
    exact a1

theorem enforce_empty (sources : List (Source α)) (srcs : List Nat) : ∀ (is : List Nat) (ins : List Input),
    (∀ i ∈ is, ∃ d, srcs[i]? = some d ∧ d < sources.length) → enforceLoop sources srcs [] is ins = some ins := by
  intro is
  induction is with
  | nil => intro ins _; rfl
  | cons i is ih =>
    intro ins h
    obtain ⟨d, hd, hdl⟩ := h i (by simp)
    rw [enforceLoop, hd, Option.bind_some, List.getElem?_eq_getElem hdl, Option.bind_some, if_pos (by simp)]
    exact ih ins fun j hj => h j (by simp [hj])

/-- One polygon set at the end. -/
theorem enforceSet_ok {sources : List (Source α)} {S : MSet} {B : List Nat} (h1 : One S.polys.inputs) (h2 : S.srcs.length = S.polys.inputs.length)
    (h3 : ∀ d ∈ S.srcs, d < sources.length) (h4 : B ≠ [] → ∀ s ∈ sources, s.data ≠ []) (h5 : B = [] → ∀ x ∈ S.polys.inputs, owns x = false) :
    ∃ ins', enforceLoop sources S.srcs B (List.range S.polys.inputs.length) S.polys.inputs = some ins' ∧ ins'.length = S.polys.inputs.length ∧
      ∀ j, j < ins'.length → indexList ins' j = B.map some := by
  have hsrc : ∀ i, i < S.polys.inputs.length → ∃ d, S.srcs[i]? = some d ∧ d < sources.length := by
    intro i hi
    refine ⟨S.srcs[i], List.getElem?_eq_getElem (by omega), h3 _ (List.getElem_mem _)⟩
  by_cases hB : B = []
  · subst hB
    refine ⟨S.polys.inputs, enforce_empty _ _ _ _ (fun i hi => hsrc i (List.mem_range.mp hi)), rfl, ?_⟩
    intro j hj
    have hx : S.polys.inputs[j]? = some S.polys.inputs[j] := List.getElem?_eq_getElem hj
    rw [indexList_chan h1 hx]
    simp only [chan]
    rw [List.find?_eq_none.mpr]
    · rfl
    · intro y hy; simp [h5 rfl y hy]
  · obtain ⟨ins', a1, a2, a3, a4⟩ := enforce_ok sources S.srcs B hB (h4 hB) (List.range S.polys.inputs.length) [] S.polys.inputs h1
      (by intro i hi; simp at hi; exact ⟨hi, hsrc i hi⟩) (by simp)
    refine ⟨ins', a1, a3, ?_⟩
    intro j hj
    have hx : ins'[j]? = some ins'[j] := List.getElem?_eq_getElem hj
    rw [indexList_chan a2 hx]
    exact a4 j (by simp; omega) _ hx

theorem enforceSets_ok {sources : List (Source α)} : ∀ (l : List (MSet × List Nat)), (∀ p ∈ l, One p.1.polys.inputs ∧ p.1.srcs.length = p.1.polys.inputs.length ∧
      (∀ d ∈ p.1.srcs, d < sources.length) ∧ (p.2 ≠ [] → ∀ s ∈ sources, s.data ≠ []) ∧ (p.2 = [] → ∀ x ∈ p.1.polys.inputs, owns x = false)) →
    ∃ sets', enforceSets sources l = some sets' ∧ sets'.length = l.length ∧ ∀ (k : Nat) (p : MSet × List Nat), l[k]? = some p → ∃ S' : MSet, sets'[k]? = some S' ∧
      S'.srcs = p.1.srcs ∧ S'.polys.inputs.length = p.1.polys.inputs.length ∧ S'.polys.counts = p.1.polys.counts ∧ S'.polys.holes = p.1.polys.holes ∧
      S'.polys.prim = p.1.polys.prim ∧ ∀ j, j < S'.polys.inputs.length → indexList S'.polys.inputs j = p.2.map some := by
  intro l
  induction l with
  | nil => intro _; exact ⟨[], rfl, rfl, by simp⟩
  | cons p l ih =>
    intro h
    obtain ⟨S, B⟩ := p
    obtain ⟨h1, h2, h3, h4, h5⟩ := h (S, B) (by simp)
    obtain ⟨ins', a1, a2, a3⟩ := enforceSet_ok h1 h2 h3 h4 h5
    obtain ⟨sets', b1, b2, b3⟩ := ih fun q hq => h q (by simp [hq])
    refine ⟨{ S with polys := { S.polys with inputs := ins' } } :: sets', ?_, by simp [b2], ?_⟩
    · rw [enforceSets, a1, Option.bind_some, b1]; rfl
    · intro k q hq
      cases k with
      | zero =>
        simp at hq
        subst hq
        exact ⟨_, rfl, rfl, a2, rfl, rfl, rfl, a3⟩
      | succ k =>
        simp only [List.getElem?_cons_succ] at hq ⊢
        exact b3 k q hq

/-! ## Translation maps -/

/-- The pairs of a translation map. -/
def mapPairs (m : TMap) : List (Nat × Nat) := m.flatMap fun p => p.2.map fun j => (p.1, j)

theorem mem_mapPairs {m : TMap} {o j : Nat} : (o, j) ∈ mapPairs m ↔ ∃ l, (o, l) ∈ m ∧ j ∈ l := by
  simp only [mapPairs, List.mem_flatMap, List.mem_map]
  constructor
  · rintro ⟨⟨o', l⟩, hm, j', hj, e⟩
    simp at e
    obtain ⟨rfl, rfl⟩ := e
    exact ⟨l, hm, hj⟩
  · rintro ⟨l, hm, hj⟩
    exact ⟨(o, l), hm, j, hj, rfl⟩

/-- Translation maps are sorted by the old indices, and no new index is repeated. -/
structure MapOk (m : TMap) : Prop where
  sorted : m.Pairwise fun p q => p.1 < q.1
  nodup : ∀ p ∈ m, p.2.Nodup
  full : ∀ p ∈ m, p.2 ≠ []

theorem addPair_keys (o j : Nat) : ∀ m : TMap, ∀ p ∈ addPair o j m, p.1 = o ∨ ∃ q ∈ m, q.1 = p.1 := by
  intro m
  induction m with
  | nil => intro p hp; simp [addPair] at hp; left; rw [hp]
  | cons q m ih =>
    intro p hp
    simp only [addPair] at hp
    split at hp
    · rcases List.mem_cons.mp hp with rfl | hp
      · left; rfl
      · right; exact ⟨p, hp, rfl⟩
    · split at hp
      · rcases List.mem_cons.mp hp with rfl | hp
        · right; exact ⟨q, by simp, rfl⟩
        · right; exact ⟨p, by simp [hp], rfl⟩
      · rcases List.mem_cons.mp hp with rfl | hp
        · right; exact ⟨_, by simp, rfl⟩
        · rcases ih p hp with h | ⟨z, hz, e⟩
          · left; exact h
          · right; exact ⟨z, by simp [hz], e⟩

theorem addPair_ok (o j : Nat) : ∀ m : TMap, MapOk m → MapOk (addPair o j m) ∧ ∀ p, p ∈ mapPairs (addPair o j m) ↔ p = (o, j) ∨ p ∈ mapPairs m := by
  intro m
  induction m with
  | nil => intro _; exact ⟨⟨by simp [addPair], by simp [addPair], by simp [addPair]⟩, by intro p; simp [addPair, mapPairs]⟩
  | cons q m ih =>
    intro h
    obtain ⟨k, l⟩ := q
    have hs := List.pairwise_cons.mp h.sorted
    simp only [addPair]
    split
    · rename_i hlt
      refine ⟨⟨?_, ?_, ?_⟩, ?_⟩
      · rw [List.pairwise_cons]
        refine ⟨?_, h.sorted⟩
        intro p hp
        rcases List.mem_cons.mp hp with rfl | hp
        · exact hlt
        · have := hs.1 p hp; simp only [] at this ⊢; omega
      · intro p hp
        rcases List.mem_cons.mp hp with rfl | hp
        · simp
        · exact h.nodup p hp
      · intro p hp
        rcases List.mem_cons.mp hp with rfl | hp
        · simp
        · exact h.full p hp
      · intro p; simp [mapPairs]
    · split
      · rename_i _ e
        subst e
        refine ⟨⟨?_, ?_, ?_⟩, ?_⟩
        · rw [List.pairwise_cons]
          exact ⟨hs.1, hs.2⟩
        · intro p hp
          rcases List.mem_cons.mp hp with rfl | hp
          · have hn := h.nodup (o, l) (by simp)
            simp only at hn ⊢
            split
            · exact hn
            · rename_i hj
              rw [List.nodup_append]
              refine ⟨hn, by simp, ?_⟩
              intro a ha b hb e
              simp at hb
              subst hb
              exact hj (e ▸ ha)
          · exact h.nodup p (by simp [hp])
        · intro p hp
          rcases List.mem_cons.mp hp with rfl | hp
          · have hn := h.full (o, l) (by simp)
            simp only at hn ⊢
            split
            · exact hn
            · simp
          · exact h.full p (by simp [hp])
        · intro p
          obtain ⟨a, b⟩ := p
          simp only [mapPairs, List.flatMap_cons, List.mem_append, List.mem_map, Prod.mk.injEq]
          split
          · rename_i hj
            constructor
            · intro hp; right; exact hp
            · rintro (⟨rfl, rfl⟩ | hp)
              · left; exact ⟨_, hj, rfl, rfl⟩
              · exact hp
          · simp only [List.mem_append, List.mem_singleton]
            constructor
            · rintro (⟨c, hc | hc, rfl, rfl⟩ | hp)
              · right; left; exact ⟨_, hc, rfl, rfl⟩
              · left; exact ⟨rfl, hc⟩
              · right; right; exact hp
            · rintro (⟨rfl, rfl⟩ | ⟨c, hc, rfl, rfl⟩ | hp)
              · left; exact ⟨_, Or.inr rfl, rfl, rfl⟩
              · left; exact ⟨_, Or.inl hc, rfl, rfl⟩
              · right; exact hp
      · rename_i h1 h2
        obtain ⟨i1, i2⟩ := ih ⟨hs.2, fun p hp => h.nodup p (by simp [hp]), fun p hp => h.full p (by simp [hp])⟩
        refine ⟨⟨?_, ?_, ?_⟩, ?_⟩
        · rw [List.pairwise_cons]
          refine ⟨?_, i1.sorted⟩
          intro p hp
          rcases addPair_keys o j m p hp with e | ⟨z, hz, e⟩
          · simp only []; omega
          · have := hs.1 z hz; simp only [] at this ⊢; omega
        · intro p hp
          rcases List.mem_cons.mp hp with rfl | hp
          · exact h.nodup (k, l) (by simp)
          · exact i1.nodup p hp
        · intro p hp
          rcases List.mem_cons.mp hp with rfl | hp
          · exact h.full (k, l) (by simp)
          · exact i1.full p hp
        · intro p
          have := i2 p
          simp only [mapPairs, List.flatMap_cons, List.mem_append] at this ⊢
          rw [this]
          constructor
          · rintro (h | h | h)
            · right; left; exact h
            · left; exact h
            · right; right; exact h
          · rintro (h | h | h)
            · right; left; exact h
            · left; exact h
            · right; right; exact h

theorem pairLoop_ok (old : Source α) (h0 : 0 < old.stride) : ∀ (l : List (Nat × Nat)) (m : TMap), MapOk m → ∃ m', pairLoop old (l.map fun p => (some p.1, p.2)) m = some m' ∧
    MapOk m' ∧ ∀ p, p ∈ mapPairs m' ↔ p ∈ mapPairs m ∨ p ∈ inside (old.data.length / old.stride) l := by
  intro l
  induction l with
  | nil => intro m h; exact ⟨m, rfl, h, by simp [inside]⟩
  | cons p l ih =>
    intro m h
    obtain ⟨o, b⟩ := p
    have hv : valueCount old = some (old.data.length / old.stride) := by simp [valueCount]; omega
    by_cases hlt : o < old.data.length / old.stride
    · obtain ⟨a1, a2⟩ := addPair_ok o b m h
      obtain ⟨m', b1, b2, b3⟩ := ih _ a1
      refine ⟨m', ?_, b2, ?_⟩
      · simp only [List.map_cons, pairLoop, Option.bind_some, hv]
        rw [if_neg (by omega), b1]
      · intro p
        rw [b3, a2]
        simp only [inside, List.filter_cons, hlt, decide_true, if_true, List.mem_cons]
        constructor
        · rintro ((h | h) | h)
          · right; left; exact h
          · left; exact h
          · right; right; exact h
        · rintro (h | h | h)
          · left; right; exact h
          · left; left; exact h
          · right; exact h
    · obtain ⟨m', b1, b2, b3⟩ := ih m h
      refine ⟨m', ?_, b2, ?_⟩
      · simp only [List.map_cons, pairLoop, Option.bind_some, hv]
        rw [if_pos (by omega), b1]
      · intro p
        rw [b3]
        simp [inside, hlt]

theorem pairLoop_append (old : Source α) : ∀ (l l' : List (Option Nat × Nat)) (m : TMap), pairLoop old (l ++ l') m = (pairLoop old l m).bind (pairLoop old l') := by
  intro l
  induction l with
  | nil => intro l' m; rfl
  | cons p l ih =>
    intro l' m
    obtain ⟨o, b⟩ := p
    cases o with
    | none => rfl
    | some o =>
      cases hv : valueCount old with
      | none => simp [pairLoop, hv]
      | some n =>
        simp only [List.cons_append, pairLoop, Option.bind_some, hv]
        split
        · exact ih l' m
        · exact ih l' _

theorem pairSets_eq (old : Source α) (d : Nat) : ∀ (l : List (MSet × List Nat)) (m : TMap),
    pairSets old d l m = pairLoop old (l.flatMap fun p => indexPairs p.1 d p.2) m := by
  intro l
  induction l with
  | nil => intro m; rfl
  | cons p l ih =>
    intro m
    simp only [pairSets, List.flatMap_cons, pairLoop_append]
    congr 1
    funext b
    exact ih b

theorem mapLoop_ok {sets : List MSet} (h : ∀ S ∈ sets, (∃ n, SetOk S n) ∧ S.srcs.length = S.polys.inputs.length) : ∀ (ss : List (Source α)) (d : Nat),
    (∀ s ∈ ss, 0 < s.stride) →
    ∃ ms, mapLoop (sets.zip (newIndices sets 0)) d ss = some ms ∧ ms.length = ss.length ∧ ∀ (j : Nat) (s : Source α), ss[j]? = some s →
      ∃ m : TMap, ms[j]? = some m ∧ MapOk m ∧ ∀ p, p ∈ mapPairs m ↔ p ∈ inside (s.data.length / s.stride) (allPairs sets (d + j)) := by
  intro ss
  induction ss with
  | nil => intro d _; exact ⟨[], rfl, rfl, by simp⟩
  | cons s ss ih =>
    intro d hs
    obtain ⟨m, a1, a2, a3⟩ := pairLoop_ok s (hs s (by simp)) (allPairs sets d) [] ⟨by simp, by simp, by simp⟩
    obtain ⟨ms, b1, b2, b3⟩ := ih (d + 1) fun x hx => hs x (by simp [hx])
    refine ⟨m :: ms, ?_, by simp [b2], ?_⟩
    · rw [mapLoop, pairSets_eq, allPairs_init h, a1, Option.bind_some, b1]; rfl
    · intro j x hx
      cases j with
      | zero =>
        simp at hx
        subst hx
        refine ⟨m, by simp, a2, ?_⟩
        intro p
        rw [a3]
        simp [mapPairs]
      | succ j =>
        simp only [List.getElem?_cons_succ] at hx ⊢
        have := b3 j x hx
        rwa [show d + 1 + j = d + (j + 1) by omega] at this

/-! ## Applying translation maps -/

theorem applyList_eq (src : Source α) (o : Nat) (ho : o < src.data.length / src.stride) (h0 : 0 < src.stride) : ∀ (l : List Nat) (buf : List α),
    applyList src o l buf = copyLoop src (l.map fun j => (some o, j)) buf := by
  have hv : valueCount src = some (src.data.length / src.stride) := by simp [valueCount]; omega
  intro l
  induction l with
  | nil => intro buf; rfl
  | cons j l ih =>
    intro buf
    simp only [applyList, List.map_cons, copyLoop, Option.bind_some, hv]
    rw [if_neg (by omega)]
    congr 1
    funext b
    exact ih b

theorem applyMap_eq (src : Source α) (h0 : 0 < src.stride) : ∀ (m : TMap) (buf : List α), (∀ p ∈ m, p.1 < src.data.length / src.stride) →
    applyMap src m buf = copyLoop src ((mapPairs m).map fun p => (some p.1, p.2)) buf := by
  intro m
  induction m with
  | nil => intro buf _; rfl
  | cons p m ih =>
    intro buf h
    simp only [applyMap, mapPairs, List.flatMap_cons, List.map_append, List.map_map, copyLoop_append]
    rw [applyList_eq src p.1 (h p (by simp)) h0]
    congr 1
    funext b
    exact ih b fun q hq => h q (by simp [hq])

end Verif.FUnify
