import Verif.UnifyLemmas

/-! # Lemmas about the data of the sources after the generation of unique indices -/

namespace Verif.FUnify

open Verif.FPoly

variable {α : Type}

/-! ## Copies of values -/

theorem copyValue_ok (old : Source α) (o b : Nat) (hold : old.stride * (o + 1) ≤ old.data.length) (h32 : old.data.length ≤ 2 ^ 32) (hb32 : old.stride * (b + 1) ≤ 2 ^ 32) :
    ∀ (n j : Nat) (buf : List α), j + n = old.stride → old.stride * (b + 1) ≤ buf.length →
    ∃ buf', copyValue old o b (List.range' j n) buf = some buf' ∧ buf'.length = buf.length ∧
      ∀ q, buf'[q]? = if old.stride * b + j ≤ q ∧ q < old.stride * (b + 1) then old.data[old.stride * o + (q - old.stride * b)]? else buf[q]? := by
  intro n
  induction n with
  | zero =>
    intro j buf hj _
    refine ⟨buf, rfl, rfl, ?_⟩
    intro q
    rw [if_neg]
    rw [Nat.mul_succ]
    omega
  | succ n ih =>
    intro j buf hj hlen
    have hold' := hold
    have hb32' := hb32
    have hlen' := hlen
    rw [Nat.mul_succ] at hold' hb32' hlen'
    have e1 : (old.stride * o + j) % 2 ^ 32 = old.stride * o + j := Nat.mod_eq_of_lt (by omega)
    have e2 : (old.stride * b + j) % 2 ^ 32 = old.stride * b + j := Nat.mod_eq_of_lt (by omega)
    have hg : old.data[old.stride * o + j]? = some (old.data[old.stride * o + j]'(by omega)) := List.getElem?_eq_getElem _
    obtain ⟨buf', h1, h2, h3⟩ := ih (j + 1) (buf.set (old.stride * b + j) (old.data[old.stride * o + j]'(by omega))) (by omega) (by simpa using hlen)
    refine ⟨buf', ?_, by simpa using h2, ?_⟩
    · rw [List.range'_succ, copyValue, e1, e2, hg, Option.bind_some, if_pos (by omega), h1]
    · intro q
      rw [h3]
      by_cases hq : q = old.stride * b + j
      · subst hq
        rw [if_neg (by omega), if_pos (by rw [Nat.mul_succ]; omega), List.getElem?_set_self (by omega), ← hg]
        congr 1
        omega
      · by_cases hq2 : old.stride * b + (j + 1) ≤ q ∧ q < old.stride * (b + 1)
        · rw [if_pos hq2, if_pos (by omega)]
        · rw [if_neg hq2, if_neg (by omega), List.getElem?_set_ne (by omega)]

/-- The values of the corners in `done` have been copied. -/
def Copied (old : Source α) (done : List (Nat × Nat)) (buf : List α) : Prop :=
  ∀ p ∈ done, ∀ s, s < old.stride → buf[old.stride * p.2 + s]? = old.data[old.stride * p.1 + s]?

/-- The corners of which the old index is inside the source. -/
def inside (n : Nat) (l : List (Nat × Nat)) : List (Nat × Nat) := l.filter fun p => p.1 < n

theorem copied_step {old : Source α} {done : List (Nat × Nat)} {buf buf' : List α} {o b : Nat} (hc : Copied old done buf)
    (hf : ∀ p ∈ done, p.2 = b → p.1 = o)
    (h3 : ∀ q, buf'[q]? = if old.stride * b + 0 ≤ q ∧ q < old.stride * (b + 1) then old.data[old.stride * o + (q - old.stride * b)]? else buf[q]?) :
    Copied old (done ++ [(o, b)]) buf' := by
  intro p hp s hs
  rcases List.mem_append.mp hp with hp | hp
  · rw [h3]
    by_cases hb : p.2 = b
    · have ho := hf p hp hb
      rw [if_pos (by rw [hb, Nat.mul_succ]; omega), hb, ho]
      congr 1
      omega
    · rw [if_neg, hc p hp s hs]
      intro ⟨g1, g2⟩
      rcases Nat.lt_or_gt_of_ne hb with g | g
      · have : old.stride * (p.2 + 1) ≤ old.stride * b := Nat.mul_le_mul_left _ g
        rw [Nat.mul_succ] at this
        omega
      · have : old.stride * (b + 1) ≤ old.stride * p.2 := Nat.mul_le_mul_left _ g
        omega
  · simp at hp
    subst hp
    rw [h3, if_pos (by simp only []; rw [Nat.mul_succ]; omega)]
    congr 1
    simp

theorem copyLoop_ok (old : Source α) (h0 : 0 < old.stride) (h32 : old.data.length ≤ 2 ^ 32) (total : Nat) (ht : old.stride * total ≤ 2 ^ 32) :
    ∀ (l : List (Nat × Nat)) (done : List (Nat × Nat)) (buf : List α), (∀ p ∈ l, p.2 < total) → buf.length = old.stride * total → Copied old done buf →
    (∀ p ∈ done ++ l, ∀ q ∈ done ++ l, p.2 = q.2 → p.1 = q.1) →
    ∃ buf', copyLoop old (l.map fun p => (some p.1, p.2)) buf = some buf' ∧ buf'.length = old.stride * total ∧
      Copied old (done ++ inside (old.data.length / old.stride) l) buf' := by
  intro l
  induction l with
  | nil => intro done buf _ hb hc _; exact ⟨buf, rfl, hb, by simpa [inside] using hc⟩
  | cons p l ih =>
    intro done buf hl hb hc hf
    obtain ⟨o, b⟩ := p
    have hbt : b < total := hl (o, b) (by simp)
    have hv : valueCount old = some (old.data.length / old.stride) := by simp [valueCount]; omega
    have hble : old.stride * (b + 1) ≤ old.stride * total := Nat.mul_le_mul_left _ hbt
    by_cases hlt : o < old.data.length / old.stride
    · have hold : old.stride * (o + 1) ≤ old.data.length := by
        have : old.stride * (o + 1) ≤ old.stride * (old.data.length / old.stride) := Nat.mul_le_mul_left old.stride hlt
        have := Nat.mul_div_le old.data.length old.stride
        omega
      obtain ⟨buf1, g1, g2, g3⟩ := copyValue_ok old o b hold h32 (by omega) old.stride 0 buf (by omega) (by omega)
      have hc1 := copied_step hc (by
        intro p hp hpb
        exact hf p (by simp [hp]) (o, b) (by simp) hpb) g3
      obtain ⟨buf2, k1, k2, k3⟩ := ih (done ++ [(o, b)]) buf1 (fun p hp => hl p (by simp [hp])) (by omega) hc1 (by simpa using hf)
      refine ⟨buf2, ?_, k2, ?_⟩
      · simp only [List.map_cons, copyLoop, Option.bind_some, hv]
        rw [if_neg (by omega), List.range_eq_range', g1, Option.bind_some, k1]
      · simpa [inside, hlt] using k3
    · obtain ⟨buf2, k1, k2, k3⟩ := ih done buf (fun p hp => hl p (by simp [hp])) hb hc (by
        intro p hp q hq
        refine hf p ?_ q ?_
        · rcases List.mem_append.mp hp with hp | hp <;> simp [hp]
        · rcases List.mem_append.mp hq with hp | hp <;> simp [hp])
      refine ⟨buf2, ?_, k2, ?_⟩
      · simp only [List.map_cons, copyLoop, Option.bind_some, hv]
        rw [if_pos (by omega), k1]
      · simpa [inside, hlt] using k3

theorem copyLoop_append (old : Source α) : ∀ (l l' : List (Option Nat × Nat)) (buf : List α), copyLoop old (l ++ l') buf = (copyLoop old l buf).bind (copyLoop old l') := by
  intro l
  induction l with
  | nil => intro l' buf; rfl
  | cons p l ih =>
    intro l' buf
    obtain ⟨o, b⟩ := p
    cases o with
    | none => rfl
    | some o =>
      cases hv : valueCount old with
      | none => simp [copyLoop, hv]
      | some n =>
        simp only [List.cons_append, copyLoop, Option.bind_some, hv]
        split
        · exact ih l' buf
        · cases copyValue old o b (List.range old.stride) buf with
          | none => rfl
          | some buf' => simp only [Option.bind_some]; exact ih l' buf'

theorem copySets_eq (old : Source α) (d : Nat) : ∀ (l : List (MSet × List Nat)) (buf : List α),
    copySets old d l buf = copyLoop old (l.flatMap fun p => indexPairs p.1 d p.2) buf := by
  intro l
  induction l with
  | nil => intro buf; rfl
  | cons p l ih =>
    intro buf
    simp only [copySets, List.flatMap_cons, copyLoop_append]
    congr 1
    funext b
    exact ih b

/-! ## The corners of a source -/

/-- The initialised old indices and the new ones. -/
def numPairs (S : MSet) (d : Nat) (buffer : List Nat) : List (Nat × Nat) := (indexPairs S d buffer).map fun p => (p.1.getD 0, p.2)

theorem findInput_spec {S : MSet} {d i : Nat} (h : findInput S d = some i) : S.srcs[i]? = some d := by
  rw [findInput, List.findIdx?_eq_some_iff_getElem] at h
  obtain ⟨hlt, h1, _⟩ := h
  rw [List.getElem?_eq_getElem hlt]
  simpa using h1

theorem findInput_of {S : MSet} {d i : Nat} (hn : S.srcs.Nodup) (h : S.srcs[i]? = some d) : findInput S d = some i := by
  cases hf : findInput S d with
  | none =>
    rw [findInput, List.findIdx?_eq_none_iff] at hf
    have := hf d (List.mem_of_getElem? h)
    simp at this
  | some j =>
    have := findInput_spec hf
    have hi : i < S.srcs.length := by
      by_contra hc
      rw [List.getElem?_eq_none (by omega)] at h
      simp at h
    rw [← h] at this
    rw [(List.getElem?_inj hi hn).mp this.symm]

theorem pairs_init {S : MSet} {n : Nat} (hS : SetOk S n) (hlen : S.srcs.length = S.polys.inputs.length) (d : Nat) (B : List Nat) :
    indexPairs S d B = (numPairs S d B).map fun p => (some p.1, p.2) := by
  rw [numPairs, List.map_map]
  conv_lhs => rw [← List.map_id (indexPairs S d B)]
  apply List.map_congr_left
  intro p hp
  rw [indexPairs] at hp
  cases hf : findInput S d with
  | none => rw [hf] at hp; simp at hp
  | some i =>
    rw [hf] at hp
    have hi : i < S.polys.inputs.length := by
      have := findInput_spec hf
      by_contra hc
      rw [List.getElem?_eq_none (by omega)] at this
      simp at this
    have hmem : p.1 ∈ indexList S.polys.inputs i := (List.of_mem_zip (show (p.1, p.2) ∈ _ from hp)).1
    have hne : p.1 ≠ none := fun e => hS.init i hi (e ▸ hmem)
    obtain ⟨o, b⟩ := p
    cases o with
    | none => exact absurd rfl hne
    | some o => rfl

/-- The new indices of one set, and the pairs with the old ones. -/
theorem pairs_mem {S : MSet} {n : Nat} (hS : SetOk S n) (hlen : S.srcs.length = S.polys.inputs.length) {d base : Nat} {p : Nat × Nat}
    (hp : p ∈ numPairs S d ((cornerKeys S).map fun x => base + (cornerKeys S).eraseDups.idxOf x)) :
    ∃ i k, findInput S d = some i ∧ i < S.polys.inputs.length ∧ k < n ∧ (indexList S.polys.inputs i)[k]? = some (some p.1) ∧
      p.2 = base + (cornerKeys S).eraseDups.idxOf (cornerKey S k) ∧ p.2 < base + (cornerKeys S).eraseDups.length := by
  obtain ⟨q, hq, rfl⟩ := List.mem_map.mp hp
  rw [indexPairs] at hq
  cases hf : findInput S d with
  | none => rw [hf] at hq; simp at hq
  | some i =>
    rw [hf] at hq
    have hi : i < S.polys.inputs.length := by
      have := findInput_spec hf
      by_contra hc
      rw [List.getElem?_eq_none (by omega)] at this
      simp at this
    simp only at hq
    obtain ⟨k, hk⟩ := List.getElem?_of_mem hq
    rw [List.getElem?_zip_eq_some] at hk
    obtain ⟨k1, k2⟩ := hk
    have hkn : k < n := by
      by_contra hc
      rw [List.getElem?_eq_none (by rw [hS.len i hi]; omega)] at k1
      simp at k1
    have hkey : (cornerKeys S)[k]? = some (cornerKey S k) := by
      rw [cornerKeys, hS.len 0 (by omega)]
      simp [hkn]
    rw [List.getElem?_map, hkey, Option.map_some, Option.some_inj] at k2
    have hmem : cornerKey S k ∈ (cornerKeys S).eraseDups := (mem_eraseDups' _ _).mpr (List.mem_of_getElem? hkey)
    have hlt := List.idxOf_lt_length_of_mem hmem
    refine ⟨i, k, rfl, hi, hkn, ?_, k2.symm, by rw [← k2]; simpa using hlt⟩
    obtain ⟨o, b⟩ := q
    cases o with
    | none => exact absurd (List.mem_of_getElem? k1) (hS.init i hi)
    | some o => exact k1

theorem idxOf_inj' {β : Type} [BEq β] [LawfulBEq β] {l : List β} {x y : β} (hx : x ∈ l) (h : l.idxOf x = l.idxOf y) : x = y := by
  have h1 := List.getElem_idxOf (List.idxOf_lt_length_of_mem hx)
  have hy : l.idxOf y < l.length := h ▸ List.idxOf_lt_length_of_mem hx
  have h2 := List.getElem_idxOf hy
  rw [← h1, ← h2]
  congr 1

/-- Within all polygon sets, the new index determines the old one. -/
theorem pairs_fun (d : Nat) : ∀ (sets : List MSet) (base : Nat), (∀ S ∈ sets, (∃ n, SetOk S n) ∧ S.srcs.length = S.polys.inputs.length) →
    (∀ p ∈ (sets.zip (newIndices sets base)).flatMap (fun p => numPairs p.1 d p.2), base ≤ p.2 ∧ p.2 < base + vertexCount sets) ∧
    (∀ p ∈ (sets.zip (newIndices sets base)).flatMap (fun p => numPairs p.1 d p.2),
      ∀ q ∈ (sets.zip (newIndices sets base)).flatMap (fun p => numPairs p.1 d p.2), p.2 = q.2 → p.1 = q.1) := by
  intro sets
  induction sets with
  | nil => intro base _; simp
  | cons S sets ih =>
    intro base h
    obtain ⟨⟨n, hS⟩, hlen⟩ := h S (by simp)
    obtain ⟨i1, i2⟩ := ih (base + (cornerKeys S).eraseDups.length) fun S' h' => h S' (by simp [h'])
    have hv : vertexCount (S :: sets) = (cornerKeys S).eraseDups.length + vertexCount sets := by simp [vertexCount]
    simp only [newIndices, List.zip_cons_cons, List.flatMap_cons]
    have hfirst : ∀ p ∈ numPairs S d ((cornerKeys S).map fun x => base + (cornerKeys S).eraseDups.idxOf x), base ≤ p.2 ∧ p.2 < base + (cornerKeys S).eraseDups.length := by
      intro p hp
      obtain ⟨i, k, _, _, _, _, h1, h2⟩ := pairs_mem hS hlen hp
      exact ⟨by omega, h2⟩
    refine ⟨?_, ?_⟩
    · intro p hp
      rcases List.mem_append.mp hp with hp | hp
      · have := hfirst p hp; omega
      · have := i1 p hp; omega
    · intro p hp q hq e
      rcases List.mem_append.mp hp with hp | hp <;> rcases List.mem_append.mp hq with hq | hq
      · obtain ⟨i, k, f1, hi, hk, l1, b1, _⟩ := pairs_mem hS hlen hp
        obtain ⟨j, k', f2, hj, hk', l2, b2, _⟩ := pairs_mem hS hlen hq
        rw [f1] at f2
        cases f2
        have hmem : ∀ k, k < n → cornerKey S k ∈ (cornerKeys S).eraseDups := by
          intro k hk
          rw [mem_eraseDups', cornerKeys, hS.len 0 (by omega)]
          exact List.mem_map_of_mem (List.mem_range.mpr hk)
        have hkey := idxOf_inj' (hmem k hk) (show (cornerKeys S).eraseDups.idxOf (cornerKey S k) = (cornerKeys S).eraseDups.idxOf (cornerKey S k') by omega)
        have := (List.map_inj_left.mp hkey) i (List.mem_range.mpr hi)
        rw [l1, l2] at this
        simpa using this
      · have h1 := hfirst p hp
        have h2 := i1 q hq
        omega
      · have h1 := hfirst q hq
        have h2 := i1 p hp
        omega
      · exact i2 p hp q hq e

/-- All corners that use the source `d`. -/
def allPairs (sets : List MSet) (d : Nat) : List (Nat × Nat) := (sets.zip (newIndices sets 0)).flatMap fun p => numPairs p.1 d p.2

theorem allPairs_init {sets : List MSet} (h : ∀ S ∈ sets, (∃ n, SetOk S n) ∧ S.srcs.length = S.polys.inputs.length) (d : Nat) :
    (sets.zip (newIndices sets 0)).flatMap (fun p => indexPairs p.1 d p.2) = (allPairs sets d).map fun p => (some p.1, p.2) := by
  rw [allPairs, List.map_flatMap]
  apply List.flatMap_congr
  intro p hp
  have := (List.of_mem_zip (show (p.1, p.2) ∈ _ from hp)).1
  obtain ⟨⟨n, hS⟩, hlen⟩ := h _ this
  exact pairs_init hS hlen d p.2

theorem newSource_ok [Zero α] {sets : List MSet} (h : ∀ S ∈ sets, (∃ n, SetOk S n) ∧ S.srcs.length = S.polys.inputs.length) (old : Source α) (h0 : 0 < old.stride)
    (h32 : old.data.length ≤ 2 ^ 32) (ht : old.stride * vertexCount sets ≤ 2 ^ 32) (d : Nat) :
    ∃ s', newSource old d (vertexCount sets) (sets.zip (newIndices sets 0)) = some s' ∧ s'.stride = old.stride ∧
      (0 < vertexCount sets → s'.data.length = old.stride * vertexCount sets) ∧ Copied old (inside (old.data.length / old.stride) (allPairs sets d)) s'.data := by
  obtain ⟨f1, f2⟩ := pairs_fun d sets 0 h
  obtain ⟨buf, b1, b2, b3⟩ := copyLoop_ok old h0 h32 (vertexCount sets) ht (allPairs sets d) [] (List.replicate (old.stride * vertexCount sets) 0)
    (fun p hp => by have := (f1 p hp).2; omega) (by simp) (by intro p hp; simp at hp) (by rw [List.nil_append]; exact f2)
  rw [List.nil_append] at b3
  refine ⟨if buf = [] ∧ old.data ≠ [] then old else { old with data := buf }, ?_, ?_, ?_, ?_⟩
  · rw [newSource, copySets_eq, allPairs_init h, b1]; rfl
  · split <;> rfl
  · intro hpos
    have : 0 < buf.length := by rw [b2]; exact Nat.mul_pos h0 hpos
    rw [if_neg (by rintro ⟨e, _⟩; rw [e] at this; simp at this)]
    exact b2
  · split
    · rename_i hc
      have hz : vertexCount sets = 0 := by
        by_contra hne
        have : 0 < buf.length := by rw [b2]; exact Nat.mul_pos h0 (by omega)
        rw [hc.1] at this
        simp at this
      intro p hp
      have := (f1 p (List.mem_of_mem_filter hp)).2
      omega
    · exact b3

theorem sourceLoop_ok [Zero α] {sets : List MSet} (h : ∀ S ∈ sets, (∃ n, SetOk S n) ∧ S.srcs.length = S.polys.inputs.length) : ∀ (ss : List (Source α)) (d : Nat),
    (∀ s ∈ ss, 0 < s.stride ∧ s.data.length ≤ 2 ^ 32 ∧ s.stride * vertexCount sets ≤ 2 ^ 32) →
    ∃ ss', sourceLoop (vertexCount sets) (sets.zip (newIndices sets 0)) d ss = some ss' ∧ ss'.length = ss.length ∧
      ∀ (j : Nat) (s : Source α), ss[j]? = some s → ∃ s' : Source α, ss'[j]? = some s' ∧ s'.stride = s.stride ∧
        (0 < vertexCount sets → s'.data.length = s.stride * vertexCount sets) ∧ Copied s (inside (s.data.length / s.stride) (allPairs sets (d + j))) s'.data := by
  intro ss
  induction ss with
  | nil => intro d _; exact ⟨[], rfl, rfl, by simp⟩
  | cons s ss ih =>
    intro d hs
    obtain ⟨h1, h2, h3⟩ := hs s (by simp)
    obtain ⟨s', a1, a2, a3, a4⟩ := newSource_ok h s h1 h2 h3 d
    obtain ⟨ss', b1, b2, b3⟩ := ih (d + 1) fun x hx => hs x (by simp [hx])
    refine ⟨s' :: ss', by rw [sourceLoop, a1, Option.bind_some, b1]; rfl, by simp [b2], ?_⟩
    intro j x hx
    cases j with
    | zero =>
      simp at hx
      subst hx
      exact ⟨s', by simp, a2, a3, a4⟩
    | succ j =>
      simp only [List.getElem?_cons_succ] at hx ⊢
      have := b3 j x hx
      rwa [show d + 1 + j = d + (j + 1) by omega] at this

end Verif.FUnify
