import Verif.PolyLemmas

/-! # Lemmas about the operations on polygon sets -/

namespace Verif.FPoly

/-- The invariant of polygon sets. -/
structure Inv (P : Polys) : Prop where
  one : One P.inputs
  len : ∀ x ∈ P.inputs, (chan P.inputs x.offset).length = P.counts.sum
  pos : ∀ c ∈ P.counts, 0 < c
  sorted : P.holes.Pairwise (· < ·)
  range : ∀ h ∈ P.holes, 0 < h ∧ h < P.counts.length
  total : P.total = P.counts.sum

theorem sum_zero {l : List Nat} (h : ∀ c ∈ l, 0 < c) : l.isEmpty = true ↔ l.sum = 0 := by
  cases l with
  | nil => simp
  | cons a l =>
    have := h a (by simp)
    simp
    omega

theorem inv_repr {P : Polys} (h : Inv P) : ∃ fs, Repr P fs := by
  obtain ⟨pre, fs, e1, e2⟩ := exists_faces P.counts P.holes 0 h.sorted (by intro z hz; have := h.range z hz; omega)
  have : pre = [] := by
    cases pre with
    | nil => rfl
    | cons a pre =>
      have := h.range 0 (by rw [e2, List.length_cons, List.range'_succ]; simp)
      omega
  subst this
  refine ⟨fs, by simpa using e1, by simpa using e2⟩

theorem inv_empty : Inv empty where
  one := by intro i j x y h; simp [empty] at h
  len := by simp [empty]
  pos := by simp [empty]
  sorted := by simp [empty]
  range := by simp [empty]
  total := rfl

/-! ## Adding -/

theorem addFace_ok {P : Polys} (h : Inv P) {d : Nat} (hd : 0 < d) :
    Inv (addFace P d) ∧ (addFace P d).inputs.map Input.offset = P.inputs.map Input.offset ∧
    ∀ x ∈ P.inputs, chan (addFace P d).inputs x.offset = chan P.inputs x.offset ++ List.replicate d none := by
  obtain ⟨h1, h2, h3⟩ := addFace_inputs h.one h.len (sum_zero h.pos) hd
  refine ⟨⟨h1, ?_, ?_, h.sorted, ?_, rfl⟩, h2, h3⟩
  · intro x hx
    obtain ⟨i, hi⟩ := List.getElem?_of_mem hx
    obtain ⟨x', hx', he⟩ := get_offset h2.symm hi
    have := h3 x' (List.mem_of_getElem? hx')
    rw [he] at this
    show (chan ((List.range P.inputs.length).foldl (addFaceStep P.counts.isEmpty d) P.inputs) x.offset).length = (P.counts ++ [d]).sum
    rw [this, List.length_append, ← he, h.len x' (List.mem_of_getElem? hx')]
    simp
  · intro c hc
    rcases List.mem_append.mp (show c ∈ P.counts ++ [d] from hc) with hc | hc
    · exact h.pos c hc
    · simp at hc; omega
  · intro z hz
    have := h.range z hz
    show 0 < z ∧ z < (P.counts ++ [d]).length
    simp
    omega

theorem addHole_ok {P : Polys} (h : Inv P) {i : Nat} (h0 : 0 < i) (h1 : i < P.counts.length) : Inv (addHole P i) := by
  simp only [addHole]
  split
  · exact h
  · rename_i hn
    have hn : i ∉ P.holes := by simpa [isHole] using hn
    refine ⟨h.one, h.len, h.pos, insertHole_sorted i _ h.sorted hn, ?_, h.total⟩
    intro z hz
    rcases (insertHole_mem i _ z).mp hz with rfl | hz
    · exact ⟨h0, h1⟩
    · exact h.range z hz

theorem chan_append_empty (ins : List Input) (o off : Nat) : chan (ins ++ [⟨o, []⟩]) off = chan ins off := by
  simp [chan, List.find?_append, owns]

theorem addInput_ok {P : Polys} (h : Inv P) {o : Nat} (hl : P.counts = [] ∨ ∃ x ∈ P.inputs, x.offset = o) : Inv (addInput P o) where
  one := by
    intro i j x y hi hj he hx hy
    have key : ∀ (k : Nat) (z : Input), (P.inputs ++ [⟨o, []⟩])[k]? = some z → owns z = true → P.inputs[k]? = some z := by
      intro k z hk hz
      by_cases hlt : k < P.inputs.length
      · rwa [List.getElem?_append_left hlt] at hk
      · rw [List.getElem?_append_right (by omega)] at hk
        have := List.mem_of_getElem? hk
        simp at this
        subst this
        simp [owns] at hz
    exact h.one i j x y (key i x hi hx) (key j y hj hy) he hx hy
  len := by
    intro x hx
    show (chan (P.inputs ++ [⟨o, []⟩]) x.offset).length = P.counts.sum
    rw [chan_append_empty]
    rcases List.mem_append.mp (show x ∈ P.inputs ++ [⟨o, []⟩] from hx) with hx | hx
    · exact h.len x hx
    · simp only [List.mem_singleton] at hx
      subst hx
      by_cases hex : ∃ x ∈ P.inputs, x.offset = o
      · obtain ⟨y, hy, rfl⟩ := hex
        exact h.len y hy
      · rcases hl with hl | hl
        · rw [chan_absent fun y hy he => hex ⟨y, hy, he⟩, hl]; rfl
        · exact absurd hl hex
  pos := h.pos
  sorted := h.sorted
  range := h.range
  total := h.total

theorem setIndices_ok {P : Polys} (h : Inv P) {i : Nat} {l : List (Option Nat)} {x : Input} (hx : P.inputs[i]? = some x) (hl : l.length = P.counts.sum) :
    Inv { P with inputs := setIndices P.inputs i l } where
  one := upd_one h.one hx fun _ => l
  len := by
    intro y hy
    obtain ⟨k, hk⟩ := List.getElem?_of_mem (show y ∈ setIndices P.inputs i l from hy)
    obtain ⟨y', hy', he⟩ := get_offset (upd_offsets P.inputs i fun _ => l).symm hk
    show (chan (upd P.inputs i fun _ => l) y.offset).length = P.counts.sum
    rw [upd_chan h.one hx, ← he]
    split
    · exact hl
    · exact h.len y' (List.mem_of_getElem? hy')
  pos := h.pos
  sorted := h.sorted
  range := h.range
  total := h.total

/-! ## Queries -/

theorem repr_holesBefore {P : Polys} {fs : List Face} (h : Repr P fs) {i : Nat} (hi : i ≤ fs.length) : holeCountBefore P i = holesIn (fs.take i) := by
  have := holeLoop_faces fs 0 i 0 hi
  simp only [Nat.zero_add] at this
  rw [holeCountBefore, h.2, this]

theorem repr_faceCount {P : Polys} {fs : List Face} (h : Repr P fs) : faceCount P = fs.length := by
  simp only [faceCount, h.1, h.2, toCounts_length, toHoles_length]
  rw [if_pos (by omega)]
  omega

theorem repr_pos {fs as bs : List Face} {f : Face} {i : Nat} (e : fs = as ++ f :: bs) (hl : as.length = i) : i + holesIn (fs.take i) = (toCounts as).length := by
  subst hl
  rw [e, toCounts_length]
  simp

theorem repr_holeCount {P : Polys} {fs : List Face} (h : Repr P fs) {i : Nat} {f : Face} (hf : fs[i]? = some f) : holeCount P i = f.2.length := by
  have hi : i < fs.length := by
    by_contra hn
    rw [List.getElem?_eq_none (by omega)] at hf
    simp at hf
  obtain ⟨as, f', bs, e, hl, hf', _⟩ := split_at hi
  rw [hf] at hf'
  cases hf'
  have hp := repr_pos e hl
  have hc : toCounts (f :: bs) = f.1 :: f.2 ++ toCounts bs := by simp [toCounts]
  have hlen : P.counts.length = (toCounts as).length + (1 + f.2.length + (toCounts bs).length) := by
    rw [h.1, e, toCounts_append, hc]
    simp
    omega
  have hholes : P.holes = toHoles 0 as ++ (List.range' ((toCounts as).length + 1) f.2.length ++ toHoles ((toCounts as).length + 1 + f.2.length) bs) := by
    rw [h.2, e, toHoles_append]
    simp [toHoles]
  rw [holeCount, repr_holesBefore h (Nat.le_of_lt hi), hp]
  apply holeRun_range
  · omega
  · omega
  · intro k hk
    rw [hholes]
    simp only [List.mem_append, List.mem_range'_1]
    right; left
    omega
  · left
    rw [hholes]
    simp only [List.mem_append, List.mem_range'_1, not_or]
    refine ⟨?_, by omega, ?_⟩
    · intro hm
      have := toHoles_lt as 0 _ hm
      omega
    · intro hm
      have := toHoles_gt bs _ _ hm
      omega

theorem repr_offset {P : Polys} {fs : List Face} (h : Repr P fs) {i : Nat} (hi : i < fs.length) :
    faceVertexOffset P i = ((fs.take i).map faceSize).sum := by
  obtain ⟨as, f, bs, e, hl, hf, ht⟩ := split_at hi
  have hp := repr_pos e hl
  have hc : toCounts (f :: bs) = f.1 :: f.2 ++ toCounts bs := by simp [toCounts]
  rw [faceVertexOffset, repr_holesBefore h (Nat.le_of_lt hi), hp, h.1, ht, if_pos, ← toCounts_sum]
  · rw [e, toCounts_append, List.take_append_of_le_length (Nat.le_refl _), List.take_length]
  · rw [e, toCounts_append, hc]; simp

theorem repr_count {P : Polys} {fs : List Face} (h : Repr P fs) {i : Nat} {f : Face} (hf : fs[i]? = some f) : faceVertexCount P i = some (faceSize f) := by
  have hi : i < fs.length := by
    by_contra hn
    rw [List.getElem?_eq_none (by omega)] at hf
    simp at hf
  have hh := repr_holeCount h hf
  obtain ⟨as, f', bs, e, hl, hf', ht⟩ := split_at hi
  rw [hf] at hf'
  cases hf'
  have hp := repr_pos e hl
  have hc : toCounts (f :: bs) = f.1 :: f.2 ++ toCounts bs := by simp [toCounts]
  have hb := repr_holesBefore h (Nat.le_of_lt hi)
  rw [faceVertexCount, repr_faceCount h, if_pos hi, hh, hb, hp, h.1, e, toCounts_append, hc, if_pos (by simp; omega),
    List.drop_append_of_le_length (Nat.le_refl _), List.drop_length, List.nil_append, List.take_append_of_le_length (by simp),
    List.take_of_length_le (by simp)]
  simp [faceSize]

/-! ## Removing the first face -/

theorem removeFirst_ok {P : Polys} (h : Inv P) (hh : P.holes = []) {c : Nat} {cs : List Nat} (hc : P.counts = c :: cs) :
    ∃ P', removeFace P 0 = some P' ∧ Inv P' ∧ P'.counts = cs ∧ P'.holes = [] ∧ P'.prim = P.prim ∧
      P'.inputs.map Input.offset = P.inputs.map Input.offset ∧ ∀ x ∈ P.inputs, chan P'.inputs x.offset = (chan P.inputs x.offset).drop c := by
  have hrep : Repr P (P.counts.map fun c => (c, [])) := by
    refine ⟨?_, ?_⟩
    · simp [toCounts, List.flatMap_map]
    · rw [hh]
      have : ∀ (l : List Nat) s, toHoles s (l.map fun c => (c, [])) = [] := by
        intro l
        induction l with
        | nil => intro s; rfl
        | cons a l ih => intro s; simp [toHoles, ih]
      rw [this]
  have hf : (P.counts.map fun c => ((c, []) : Face))[0]? = some (c, []) := by simp [hc]
  have h1 : faceVertexCount P 0 = some c := by rw [repr_count hrep hf]; simp [faceSize]
  have h2 : faceVertexOffset P 0 = 0 := by rw [repr_offset hrep (by simp [hc])]; simp
  have h3 : holeCount P 0 = 0 := repr_holeCount hrep hf
  have h4 : holeCountBefore P 0 = 0 := by rw [repr_holesBefore hrep (by omega)]; simp [holesIn]
  have h5 : faceCount P = cs.length + 1 := by rw [repr_faceCount hrep]; simp [hc]
  have hsum : P.counts.sum = c + cs.sum := by rw [hc]; simp
  have hloop : (List.range P.inputs.length).foldlM (removeFaceStep 0 c) P.inputs =
      some ((List.range P.inputs.length).foldl (fun ins i => if ((ins[i]?).map owns).getD false then upd ins i (fun l => l.take 0 ++ l.drop (0 + c)) else ins) P.inputs) := by
    have key : ∀ n, n ≤ P.inputs.length → (List.range n).foldlM (removeFaceStep 0 c) P.inputs = some ((List.range n).foldl (fun ins i => if ((ins[i]?).map owns).getD false then upd ins i (fun l => l.take 0 ++ l.drop (0 + c)) else ins) P.inputs) ∧
        ∀ k, n ≤ k → ((List.range n).foldl (fun ins i => if ((ins[i]?).map owns).getD false then upd ins i (fun l => l.take 0 ++ l.drop (0 + c)) else ins) P.inputs)[k]? = P.inputs[k]? := by
      intro n
      induction n with
      | zero => intro _; exact ⟨rfl, fun _ _ => rfl⟩
      | succ n ih =>
        intro hn
        obtain ⟨i1, i2⟩ := ih (by omega)
        have hg := i2 n (Nat.le_refl _)
        have hgn : P.inputs[n]? = some P.inputs[n] := List.getElem?_eq_getElem (by omega)
        rw [hgn] at hg
        have hlen : owns P.inputs[n] = true → 0 + c ≤ (P.inputs[n]).indices.length := by
          intro ho
          have := h.len P.inputs[n] (List.getElem_mem (by omega))
          rw [chan_of_owner h.one (List.getElem?_eq_getElem (by omega)) ho] at this
          omega
        rw [List.range_succ, List.foldlM_append, List.foldl_append, i1]
        constructor
        · simp only [Option.bind_eq_bind, Option.bind_some, List.foldlM_cons, List.foldlM_nil, List.foldl_cons, List.foldl_nil]
          rw [removeStep_ok hg 0 c hlen, hg]
          rfl
        · intro k hk
          simp only [List.foldl_cons, List.foldl_nil]
          rw [hg]
          simp only [Option.map_some, Option.getD_some]
          split
          · rename_i ho
            rw [upd_get, findOwner_own hg ho, i2 k (by omega)]
            have : n ≠ k := by omega
            simp [this]
          · exact i2 k (by omega)
    exact (key _ (Nat.le_refl _)).1
  have hmap := owners_loop (fun ins i => if ((ins[i]?).map owns).getD false then upd ins i (fun l => l.take 0 ++ l.drop (0 + c)) else ins)
    (fun l => l.take 0 ++ l.drop (0 + c)) (by intro ins i x hx; simp [hx]) P.inputs
  rw [hmap] at hloop
  have hchan : ∀ x ∈ P.inputs, chan (P.inputs.map fun x => if owns x then { x with indices := x.indices.take 0 ++ x.indices.drop (0 + c) } else x) x.offset =
      (chan P.inputs x.offset).drop c := by
    intro x hx
    rw [map_owned_chan h.one (fun l => l.take 0 ++ l.drop (0 + c))]
    split
    · rename_i e; rw [e]; simp
    · simp
  have hoff := map_owned_offsets P.inputs (fun l => l.take 0 ++ l.drop (0 + c))
  refine ⟨recalculate { P with counts := cs, inputs := P.inputs.map fun x => if owns x then { x with indices := x.indices.take 0 ++ x.indices.drop (0 + c) } else x },
    ?_, ⟨map_owned_one h.one (fun l => l.take 0 ++ l.drop (0 + c)), ?_, ?_, ?_, ?_, rfl⟩, rfl, hh, rfl, hoff, hchan⟩
  · rw [removeFace, h5, if_pos (by omega), h1, h2, h3, h4, Option.bind_some, hloop, Option.bind_some, hc]
    rfl
  · intro x hx
    obtain ⟨k, hk⟩ := List.getElem?_of_mem hx
    obtain ⟨x', hx', he⟩ := get_offset hoff.symm hk
    have := hchan x' (List.mem_of_getElem? hx')
    rw [he] at this
    show (chan (P.inputs.map fun x => if owns x then { x with indices := x.indices.take 0 ++ x.indices.drop (0 + c) } else x) x.offset).length = cs.sum
    rw [this, List.length_drop, ← he, h.len x' (List.mem_of_getElem? hx')]
    omega
  · intro z hz; exact h.pos z (by rw [hc]; exact List.mem_cons_of_mem _ hz)
  · rw [show (recalculate { P with counts := cs, inputs := _ } : Polys).holes = P.holes from rfl, hh]; exact List.Pairwise.nil
  · intro z hz
    rw [show (recalculate { P with counts := cs, inputs := _ } : Polys).holes = P.holes from rfl, hh] at hz
    simp at hz

/-! ## Triangulation -/

/-- The indices at some positions. -/
def pick (l : List (Option Nat)) (ps : List Nat) : List (Option Nat) := ps.map fun p => l.getD p none

theorem triStart_ok (ins : List Input) (h : One ins) : ∃ T : List (Nat × Nat),
    (triStart (List.range ins.length) ins []).2 = T.map (fun t => (t.1, chan ins t.2)) ∧ (T.map Prod.snd).Nodup ∧
    (∀ t ∈ T, (ins[t.1]?).map Input.offset = some t.2) ∧ (∀ off, off ∈ T.map Prod.snd ↔ (∃ x ∈ ins, x.offset = off) ∧ chan ins off ≠ []) ∧
    One (triStart (List.range ins.length) ins []).1 ∧ (triStart (List.range ins.length) ins []).1.map Input.offset = ins.map Input.offset ∧
    (∀ off, chan (triStart (List.range ins.length) ins []).1 off = []) := by
  have key : ∀ (is : List Nat) (cur : List Input) (T : List (Nat × Nat)), (∀ i ∈ is, i < ins.length) → One cur →
      cur.map Input.offset = ins.map Input.offset → (T.map Prod.snd).Nodup → (∀ t ∈ T, (ins[t.1]?).map Input.offset = some t.2) →
      (∀ off, chan cur off = if off ∈ T.map Prod.snd then [] else chan ins off) → (∀ off ∈ T.map Prod.snd, chan ins off ≠ []) →
      ∃ T' : List (Nat × Nat), (triStart is cur (T.map fun t => (t.1, chan ins t.2))).2 = T'.map (fun t => (t.1, chan ins t.2)) ∧
        (T'.map Prod.snd).Nodup ∧ (∀ t ∈ T', (ins[t.1]?).map Input.offset = some t.2) ∧
        (∀ off ∈ T'.map Prod.snd, chan ins off ≠ []) ∧ One (triStart is cur (T.map fun t => (t.1, chan ins t.2))).1 ∧
        (triStart is cur (T.map fun t => (t.1, chan ins t.2))).1.map Input.offset = ins.map Input.offset ∧
        (∀ off, chan (triStart is cur (T.map fun t => (t.1, chan ins t.2))).1 off = if off ∈ T'.map Prod.snd then [] else chan ins off) ∧
        (∀ off ∈ T.map Prod.snd, off ∈ T'.map Prod.snd) ∧
        (∀ i ∈ is, ∀ x, ins[i]? = some x → chan ins x.offset ≠ [] → x.offset ∈ T'.map Prod.snd) := by
    intro is
    induction is with
    | nil =>
      intro cur T _ h1 h2 h3 h4 h5 h6
      exact ⟨T, rfl, h3, h4, h6, h1, h2, h5, fun _ h => h, by simp⟩
    | cons i is ih =>
      intro cur T hr h1 h2 h3 h4 h5 h6
      have hi := hr i (by simp)
      have hx : ins[i]? = some ins[i] := List.getElem?_eq_getElem hi
      obtain ⟨x', hx', he⟩ := get_offset h2 hx
      have hidx : indexList cur i = chan cur ins[i].offset := by rw [indexList_chan h1 hx', he]
      by_cases hz : (indexList cur i).length = 0
      · have e : triStart (i :: is) cur (T.map fun t => (t.1, chan ins t.2)) = triStart is cur (T.map fun t => (t.1, chan ins t.2)) := by
          simp [triStart, hz]
        rw [e]
        obtain ⟨T', a1, a2, a3, a4, a5, a6, a7, a8, a9⟩ := ih cur T (fun j hj => hr j (by simp [hj])) h1 h2 h3 h4 h5 h6
        refine ⟨T', a1, a2, a3, a4, a5, a6, a7, a8, ?_⟩
        intro j hj x hjx hne
        rcases List.mem_cons.mp hj with rfl | hj
        · rw [hx] at hjx
          cases hjx
          have hc := List.eq_nil_of_length_eq_zero hz
          rw [hidx, h5] at hc
          by_cases hm : ins[j].offset ∈ T.map Prod.snd
          · exact a8 _ hm
          · rw [if_neg hm] at hc
            exact absurd hc hne
        · exact a9 j hj x hjx hne
      · have hnm : ins[i].offset ∉ T.map Prod.snd := by
          intro hm
          rw [hidx, h5, if_pos hm] at hz
          simp at hz
        have hcc : indexList cur i = chan ins ins[i].offset := by rw [hidx, h5, if_neg hnm]
        have e : triStart (i :: is) cur (T.map fun t => (t.1, chan ins t.2)) =
            triStart is (setIndexCount cur i 0) ((T ++ [(i, ins[i].offset)]).map fun t => (t.1, chan ins t.2)) := by
          simp [triStart, hcc]
          rw [hcc] at hz
          simp at hz
          simp [hz]
        rw [e]
        obtain ⟨T', a1, a2, a3, a4, a5, a6, a7, a8, a9⟩ := ih (setIndexCount cur i 0) (T ++ [(i, ins[i].offset)]) (fun j hj => hr j (by simp [hj]))
          (upd_one h1 hx' _) ((upd_offsets _ _ _).trans h2)
          (by
            rw [List.map_append, List.nodup_append]
            refine ⟨h3, by simp, ?_⟩
            intro a ha b hb
            simp at hb
            subst hb
            intro e
            exact hnm (e ▸ ha))
          (by
            intro t ht
            rcases List.mem_append.mp ht with ht | ht
            · exact h4 t ht
            · simp at ht; subst ht; simp [hx])
          (by
            intro off
            simp only [setIndexCount]
            rw [upd_chan h1 hx', he, h5]
            by_cases ho : off = ins[i].offset
            · rw [if_pos ho]
              simp [ho, resize]
            · rw [if_neg ho]
              by_cases hm : off ∈ T.map Prod.snd
              · rw [if_pos hm, if_pos (by rw [List.map_append]; exact List.mem_append_left _ hm)]
              · rw [if_neg hm, if_neg]
                rw [List.map_append, List.mem_append]
                rintro (h' | h')
                · exact hm h'
                · simp at h'; exact ho h')
          (by
            intro off ho
            rw [List.map_append, List.mem_append] at ho
            rcases ho with ho | ho
            · exact h6 off ho
            · simp at ho
              subst ho
              intro e
              rw [hcc, e] at hz
              simp at hz)
        refine ⟨T', a1, a2, a3, a4, a5, a6, a7, ?_, ?_⟩
        · intro off ho
          exact a8 off (by rw [List.map_append]; exact List.mem_append_left _ ho)
        · intro j hj x hjx hne
          rcases List.mem_cons.mp hj with rfl | hj
          · rw [hx] at hjx
            cases hjx
            exact a8 _ (by simp)
          · exact a9 j hj x hjx hne
  obtain ⟨T', a1, a2, a3, a4, a5, a6, a7, a8, a9⟩ := key (List.range ins.length) ins [] (by simp) h rfl (by simp) (by simp) (by simp) (by simp)
  have hiff : ∀ off, off ∈ T'.map Prod.snd ↔ (∃ x ∈ ins, x.offset = off) ∧ chan ins off ≠ [] := by
    intro off
    constructor
    · intro ho
      refine ⟨?_, a4 off ho⟩
      obtain ⟨t, ht, rfl⟩ := List.mem_map.mp ho
      have := a3 t ht
      rw [Option.map_eq_some_iff] at this
      obtain ⟨x, hx, he⟩ := this
      exact ⟨x, List.mem_of_getElem? hx, he⟩
    · rintro ⟨⟨x, hx, rfl⟩, hne⟩
      obtain ⟨i, hi⟩ := List.getElem?_of_mem hx
      refine a9 i ?_ x hi hne
      rw [List.mem_range]
      by_contra hn
      rw [List.getElem?_eq_none (by omega)] at hi
      simp at hi
  refine ⟨T', a1, a2, a3, hiff, a5, a6, ?_⟩
  intro off
  have := a7 off
  simp only [List.map_nil] at this
  rw [this]
  split
  · rfl
  · rename_i hn
    by_contra hne
    apply hn
    rw [hiff]
    refine ⟨?_, hne⟩
    by_contra hex
    exact hne (chan_absent fun x hx he => hex ⟨x, hx, he⟩)

/-- The state of the triangulation: the lists have received the indices at the positions `ps`. -/
structure TriState (ins : List Input) (T : List (Nat × Nat)) (cur : List Input) (ps : List Nat) : Prop where
  one : One cur
  off : cur.map Input.offset = ins.map Input.offset
  chan : ∀ o, chan cur o = if o ∈ T.map Prod.snd then pick (chan ins o) ps else []

theorem addTriangle_gen {ins : List Input} (a b c s : Nat) (ha : a < s) (hb : b < s) (hc : c < s) : ∀ (T : List (Nat × Nat)) (cur : List Input),
    (T.map Prod.snd).Nodup → (∀ t ∈ T, (ins[t.1]?).map Input.offset = some t.2 ∧ (chan ins t.2).length = s) → One cur →
    cur.map Input.offset = ins.map Input.offset →
    ∃ cur', addTriangle (a, b, c) (T.map fun t => (t.1, chan ins t.2)) cur = some cur' ∧ One cur' ∧ cur'.map Input.offset = ins.map Input.offset ∧
      ∀ o, chan cur' o = chan cur o ++ if o ∈ T.map Prod.snd then pick (chan ins o) [a, b, c] else [] := by
  intro T
  induction T with
  | nil => intro cur _ _ h1 h2; exact ⟨cur, rfl, h1, h2, by simp⟩
  | cons t T ih =>
    intro cur hn ht h1 h2
    obtain ⟨i, off⟩ := t
    obtain ⟨hi, hlen⟩ := ht (i, off) (by simp)
    simp only at hi hlen
    rw [Option.map_eq_some_iff] at hi
    obtain ⟨x, hx, he⟩ := hi
    obtain ⟨y, hy, hey⟩ := get_offset h2 hx
    rw [List.map_cons, List.nodup_cons] at hn
    have hget : ∀ p, p < s → (chan ins off)[p]? = some ((chan ins off).getD p none) := by
      intro p hp
      simp [List.getD, List.getElem?_eq_getElem (show p < (chan ins off).length by omega)]
    -- three additions
    have o1 := upd_one h1 hy (· ++ [(chan ins off).getD a none])
    have f1 := (upd_offsets cur i (· ++ [(chan ins off).getD a none])).trans h2
    obtain ⟨y1, hy1, hey1⟩ := get_offset f1 hx
    have o2 := upd_one o1 hy1 (· ++ [(chan ins off).getD b none])
    have f2 := (upd_offsets (upd cur i (· ++ [(chan ins off).getD a none])) i (· ++ [(chan ins off).getD b none])).trans f1
    obtain ⟨y2, hy2, hey2⟩ := get_offset f2 hx
    have o3 := upd_one o2 hy2 (· ++ [(chan ins off).getD c none])
    have f3 := (upd_offsets _ i (· ++ [(chan ins off).getD c none])).trans f2
    obtain ⟨cur', g1, g2, g3, g4⟩ := ih _ hn.2 (fun t h => ht t (by simp [h])) o3 f3
    refine ⟨cur', ?_, g2, g3, ?_⟩
    · simp only [List.map_cons, addTriangle, hget a ha, hget b hb, hget c hc, Option.bind_some, addIndex]
      exact g1
    · intro o
      rw [g4, upd_chan o2 hy2, upd_chan o1 hy1, upd_chan h1 hy, hey2, hey1, hey, he]
      by_cases ho : o = off
      · subst ho
        rw [if_neg hn.1]
        simp [pick]
      · rw [if_neg ho, if_neg ho, if_neg ho]
        simp only [List.map_cons, List.mem_cons, ho, false_or]

theorem addTriangle_ok {ins : List Input} {T : List (Nat × Nat)} {s : Nat} (hn : (T.map Prod.snd).Nodup)
    (ht : ∀ t ∈ T, (ins[t.1]?).map Input.offset = some t.2 ∧ (chan ins t.2).length = s) {cur : List Input} {ps : List Nat} (h : TriState ins T cur ps)
    (a b c : Nat) (ha : a < s) (hb : b < s) (hc : c < s) :
    ∃ cur', addTriangle (a, b, c) (T.map fun t => (t.1, chan ins t.2)) cur = some cur' ∧ TriState ins T cur' (ps ++ [a, b, c]) := by
  obtain ⟨cur', g1, g2, g3, g4⟩ := addTriangle_gen a b c s ha hb hc T cur hn ht h.one h.off
  refine ⟨cur', g1, g2, g3, ?_⟩
  intro o
  rw [g4, h.chan]
  split
  · simp [pick]
  · rfl

/-- The corners of one triangle as a list. -/
def cornerList (prim : Prim) (off t : Nat) : List Nat := [(corners prim off t).1, (corners prim off t).2.1, (corners prim off t).2.2]

theorem corners_lt (prim : Prim) (off t : Nat) : (corners prim off t).1 < off + t + 3 ∧ (corners prim off t).2.1 < off + t + 3 ∧ (corners prim off t).2.2 < off + t + 3 := by
  simp only [corners]
  split
  · split <;> exact ⟨by simp, by simp, by simp⟩
  · exact ⟨by simp only []; omega, by simp only []; omega, by simp only []; omega⟩

theorem triFace_ok {ins : List Input} {T : List (Nat × Nat)} {s : Nat} (hn : (T.map Prod.snd).Nodup)
    (ht : ∀ t ∈ T, (ins[t.1]?).map Input.offset = some t.2 ∧ (chan ins t.2).length = s) (prim : Prim) (off : Nat) : ∀ (n t : Nat) (cur : List Input)
    (ps counts : List Nat), TriState ins T cur ps → off + t + n + 2 ≤ s →
    ∃ cur', triFace prim off (T.map fun t => (t.1, chan ins t.2)) n t (cur, counts) = some (cur', counts ++ List.replicate n 3) ∧
      TriState ins T cur' (ps ++ (List.range' t n).flatMap (cornerList prim off)) := by
  intro n
  induction n with
  | zero => intro t cur ps counts h _; exact ⟨cur, by simp [triFace], by simpa using h⟩
  | succ n ih =>
    intro t cur ps counts h hs
    obtain ⟨c1, c2, c3⟩ := corners_lt prim off t
    obtain ⟨cur1, g1, g2⟩ := addTriangle_ok hn ht h (corners prim off t).1 (corners prim off t).2.1 (corners prim off t).2.2 (by omega) (by omega) (by omega)
    obtain ⟨cur2, g3, g4⟩ := ih (t + 1) cur1 _ (counts ++ [3]) g2 (by omega)
    refine ⟨cur2, ?_, ?_⟩
    · simp only [triFace]
      rw [show corners prim off t = ((corners prim off t).1, (corners prim off t).2.1, (corners prim off t).2.2) from rfl, g1, Option.bind_some, g3]
      simp [List.replicate_succ]
    · rw [List.range'_succ, List.flatMap_cons, ← List.append_assoc]
      exact g4

/-- The triangles of a face. -/
def triOf (prim : Prim) : Nat → Nat → List Nat := if prim = .triangleStrips then strip else fan

theorem triOf_eq (prim : Prim) (off n : Nat) : triOf prim off n = (List.range' 0 (n - 2)).flatMap (cornerList prim off) := by
  rw [← List.range_eq_range']
  simp only [triOf]
  split
  · rename_i h
    simp only [strip]
    congr 1
    funext t
    simp only [cornerList, corners, h, if_true]
    split <;> simp [Nat.add_assoc]
  · rename_i h
    simp only [fan]
    congr 1
    funext t
    simp [cornerList, corners, h, Nat.add_assoc]

theorem triLoop_skip (prim : Prim) (holes : List Nat) (owners : List (Nat × List (Option Nat))) : ∀ (hs rest : List Nat) (idx off : Nat) (st : List Input × List Nat),
    (∀ k, k < hs.length → idx + k ∈ holes) →
    triLoop prim holes owners (hs ++ rest) idx off st = triLoop prim holes owners rest (idx + hs.length) (off + hs.sum) st := by
  intro hs
  induction hs with
  | nil => intro rest idx off st _; rfl
  | cons c hs ih =>
    intro rest idx off st h
    have h0 := h 0 (by simp)
    simp only [List.cons_append, triLoop]
    rw [if_neg (by simp at h0; simp [h0]), Option.bind_some, ih]
    · simp only [List.length_cons, List.sum_cons]
      congr 1 <;> omega
    · intro k hk
      have := h (k + 1) (by simp; omega)
      rwa [show idx + (k + 1) = idx + 1 + k by omega] at this

/-- The number of triangles of some faces. -/
def triCount (fs : List Face) : Nat := (fs.map fun f => f.1 - 2).sum

theorem triLoop_ok {ins : List Input} {T : List (Nat × Nat)} {s : Nat} (hn : (T.map Prod.snd).Nodup)
    (ht : ∀ t ∈ T, (ins[t.1]?).map Input.offset = some t.2 ∧ (chan ins t.2).length = s) (prim : Prim) : ∀ (fs : List Face) (pre : List Nat) (idx off : Nat)
    (cur : List Input) (ps counts : List Nat), (∀ h ∈ pre, h < idx) → TriState ins T cur ps → off + (toCounts fs).sum ≤ s →
    ∃ cur', triLoop prim (pre ++ toHoles idx fs) (T.map fun t => (t.1, chan ins t.2)) (toCounts fs) idx off (cur, counts) =
        some (cur', counts ++ List.replicate (triCount fs) 3) ∧ TriState ins T cur' (ps ++ triCorners (triOf prim) off fs) := by
  intro fs
  induction fs with
  | nil => intro pre idx off cur ps counts _ h _; exact ⟨cur, by simp [triLoop, toCounts, triCount], by simpa [triCorners] using h⟩
  | cons f fs ih =>
    intro pre idx off cur ps counts hpre h hs
    obtain ⟨c, hs'⟩ := f
    have hc : toCounts ((c, hs') :: fs) = c :: (hs' ++ toCounts fs) := by simp [toCounts]
    rw [hc] at hs ⊢
    simp only [List.sum_cons, List.sum_append] at hs
    have hnot : idx ∉ pre ++ toHoles idx ((c, hs') :: fs) := by
      rw [List.mem_append, not_or]
      refine ⟨?_, ?_⟩
      · intro hm; have := hpre idx hm; omega
      · intro hm; have := toHoles_gt _ _ _ hm; omega
    have hstep : ∃ cur1, (if ¬ (pre ++ toHoles idx ((c, hs') :: fs)).contains idx ∧ 3 ≤ c then
          triFace prim off (T.map fun t => (t.1, chan ins t.2)) (c - 2) 0 (cur, counts) else some (cur, counts)) =
        some (cur1, counts ++ List.replicate (c - 2) 3) ∧ TriState ins T cur1 (ps ++ if c < 3 then [] else triOf prim off c) := by
      by_cases h3 : 3 ≤ c
      · obtain ⟨cur1, g1, g2⟩ := triFace_ok hn ht prim off (c - 2) 0 cur ps counts h (by omega)
        refine ⟨cur1, ?_, ?_⟩
        · rw [if_pos ⟨by simpa using hnot, h3⟩, g1]
        · rw [if_neg (by omega), triOf_eq]; exact g2
      · refine ⟨cur, ?_, ?_⟩
        · rw [if_neg (by omega), show c - 2 = 0 by omega]; simp
        · rw [if_pos (by omega)]; simpa using h
    obtain ⟨cur1, g1, g2⟩ := hstep
    obtain ⟨cur2, g3, g4⟩ := ih (pre ++ List.range' (idx + 1) hs'.length) (idx + 1 + hs'.length) (off + c + hs'.sum) cur1 _
      (counts ++ List.replicate (c - 2) 3) (by
        intro z hz
        rcases List.mem_append.mp hz with hz | hz
        · have := hpre z hz; omega
        · rw [List.mem_range'_1] at hz; omega) g2 (by omega)
    refine ⟨cur2, ?_, ?_⟩
    · have : pre ++ toHoles idx ((c, hs') :: fs) = pre ++ List.range' (idx + 1) hs'.length ++ toHoles (idx + 1 + hs'.length) fs := by
        simp [toHoles]
      rw [triLoop, g1, Option.bind_some, triLoop_skip, this, g3]
      · simp [triCount, List.append_assoc]
      · intro k hk
        rw [this]
        simp only [List.mem_append, List.mem_range'_1]
        left; right; omega
    · have e : triCorners (triOf prim) off ((c, hs') :: fs) = (if c < 3 then [] else triOf prim off c) ++ triCorners (triOf prim) (off + c + hs'.sum) fs := by
        simp [triCorners, faceSize, Nat.add_assoc]
      rw [e, ← List.append_assoc]
      exact g4

theorem triCorners_length (prim : Prim) : ∀ (fs : List Face) (off : Nat), (triCorners (triOf prim) off fs).length = 3 * triCount fs := by
  intro fs
  induction fs with
  | nil => intro off; rfl
  | cons f fs ih =>
    intro off
    simp only [triCorners, List.length_append, ih, triCount, List.map_cons, List.sum_cons]
    have : ∀ n, ((List.range' 0 n).flatMap (cornerList prim off)).length = 3 * n := by
      intro n
      simp [List.length_flatMap, cornerList]
      omega
    split
    · simp; omega
    · rw [triOf_eq, this]; omega

theorem triCorners_lt (prim : Prim) : ∀ (fs : List Face) (off : Nat), ∀ p ∈ triCorners (triOf prim) off fs, p < off + (toCounts fs).sum := by
  intro fs
  induction fs with
  | nil => intro off p hp; simp [triCorners] at hp
  | cons f fs ih =>
    intro off p hp
    have hc : (toCounts (f :: fs)).sum = faceSize f + (toCounts fs).sum := by rw [toCounts_sum, toCounts_sum]; simp
    rw [hc]
    simp only [triCorners, List.mem_append] at hp
    rcases hp with hp | hp
    · split at hp
      · simp at hp
      · rw [triOf_eq] at hp
        simp only [List.mem_flatMap, List.mem_range'_1] at hp
        obtain ⟨t, ht, hp⟩ := hp
        obtain ⟨c1, c2, c3⟩ := corners_lt prim off t
        simp only [cornerList, List.mem_cons, List.not_mem_nil, or_false] at hp
        simp only [faceSize]
        omega
    · have := ih _ p hp; omega

theorem triangulate_ok {P : Polys} (h : Inv P) {fs : List Face} (hr : Repr P fs) (hp : P.prim = .polygons ∨ P.prim = .triangleFans ∨ P.prim = .triangleStrips) :
    ∃ P', triangulate P = some P' ∧ Inv P' ∧ P'.counts = List.replicate (triCount fs) 3 ∧ P'.holes = [] ∧ P'.prim = .polygons ∧
      P'.inputs.map Input.offset = P.inputs.map Input.offset ∧
      ∀ x ∈ P.inputs, chan P'.inputs x.offset = pick (chan P.inputs x.offset) (triCorners (triOf P.prim) 0 fs) := by
  obtain ⟨T, t1, t2, t3, t4, t5, t6, t7⟩ := triStart_ok P.inputs h.one
  have ht : ∀ t ∈ T, (P.inputs[t.1]?).map Input.offset = some t.2 ∧ (chan P.inputs t.2).length = P.counts.sum := by
    intro t htm
    obtain ⟨⟨x, hx, he⟩, _⟩ := (t4 t.2).mp (List.mem_map_of_mem htm)
    refine ⟨t3 t htm, ?_⟩
    rw [← he]; exact h.len x hx
  obtain ⟨cur, g1, g2⟩ := triLoop_ok t2 ht P.prim fs [] 0 0 _ [] [] (by simp) ⟨t5, t6, by intro o; rw [t7]; split <;> rfl⟩ (by rw [hr.1]; omega)
  have hch : ∀ x ∈ P.inputs, chan cur x.offset = pick (chan P.inputs x.offset) (triCorners (triOf P.prim) 0 fs) := by
    intro x hx
    rw [g2.chan]
    simp only [List.nil_append]
    by_cases hne : chan P.inputs x.offset = []
    · rw [if_neg (by rw [t4]; simp [hne])]
      have h0 := h.len x hx
      rw [hne] at h0
      have hemp := (sum_zero h.pos).mpr h0.symm
      rw [List.isEmpty_iff, hr.1] at hemp
      have : fs = [] := by
        have := congrArg List.length hemp
        rw [toCounts_length] at this
        exact List.eq_nil_of_length_eq_zero (by simp only [List.length_nil] at this; omega)
      subst this
      rfl
    · rw [if_pos ((t4 _).mpr ⟨⟨x, hx, rfl⟩, hne⟩)]
  refine ⟨recalculate { P with counts := List.replicate (triCount fs) 3, inputs := cur, prim := .polygons, holes := [] }, ?_,
    ⟨g2.one, ?_, ?_, List.Pairwise.nil, by intro z hz; simp [recalculate] at hz, rfl⟩, rfl, rfl, rfl, g2.off, hch⟩
  · rw [triangulate, if_neg (by rcases hp with e | e | e <;> simp [e]), t1]
    simp only [List.nil_append] at g1
    rw [hr.1, hr.2, g1]
    rfl
  · intro x hx
    obtain ⟨k, hk⟩ := List.getElem?_of_mem hx
    obtain ⟨x', hx', he⟩ := get_offset g2.off.symm hk
    have := hch x' (List.mem_of_getElem? hx')
    rw [he] at this
    show (chan cur x.offset).length = (List.replicate (triCount fs) 3).sum
    rw [this]
    simp only [pick, List.length_map, triCorners_length]
    simp
    omega
  · intro c hc
    have := List.eq_of_mem_replicate (show c ∈ List.replicate (triCount fs) 3 from hc)
    omega

theorem run_ok {P : Polys} (h : Inv P) {op : Op} (hl : Legal P op) : ∃ P', run P op = some P' ∧ Inv P' := by
  cases op with
  | addInput o => exact ⟨_, rfl, addInput_ok h hl⟩
  | addFace d => exact ⟨_, rfl, (addFace_ok h hl).1⟩
  | addHole i => exact ⟨_, rfl, addHole_ok h hl.1 hl.2⟩
  | setIndices i l => exact ⟨_, rfl, setIndices_ok h (List.getElem?_eq_getElem hl.1) hl.2⟩
  | setPrim p => exact ⟨_, rfl, h.one, h.len, h.pos, h.sorted, h.range, h.total⟩
  | removeFace i =>
    obtain ⟨rfl, hh⟩ := hl
    cases hc : P.counts with
    | nil =>
      refine ⟨P, ?_, h⟩
      simp [run, removeFace, faceCount, hc, hh]
    | cons c cs =>
      obtain ⟨P', h1, h2, _⟩ := removeFirst_ok h hh hc
      exact ⟨P', h1, h2⟩
  | triangulate =>
    obtain ⟨fs, hr⟩ := inv_repr h
    by_cases hp : P.prim = .polygons ∨ P.prim = .triangleFans ∨ P.prim = .triangleStrips
    · obtain ⟨P', h1, h2, _⟩ := triangulate_ok h hr hp
      exact ⟨P', h1, h2⟩
    · refine ⟨P, ?_, h⟩
      rw [run, triangulate, if_pos]
      cases hq : P.prim <;> simp [hq] at hp ⊢

theorem reach_inv {P : Polys} (h : Reach P) : Inv P := by
  induction h with
  | start => exact inv_empty
  | step _ hl hr ih =>
    obtain ⟨P', h1, h2⟩ := run_ok ih hl
    rw [hr] at h1
    cases h1
    exact h2

/-- The list an input reaches, in terms of its offset, before and after an operation that keeps the offsets. -/
theorem indexList_keep {P P' : Polys} (h : Inv P) (h' : Inv P') (ho : P'.inputs.map Input.offset = P.inputs.map Input.offset) {j : Nat} (hj : j < P.inputs.length) :
    ∃ x ∈ P.inputs, indexList P.inputs j = chan P.inputs x.offset ∧ indexList P'.inputs j = chan P'.inputs x.offset := by
  have hx : P.inputs[j]? = some P.inputs[j] := List.getElem?_eq_getElem hj
  obtain ⟨y, hy, he⟩ := get_offset ho hx
  exact ⟨_, List.getElem_mem hj, indexList_chan h.one hx, by rw [indexList_chan h'.one hy, he]⟩

end Verif.FPoly
