import Verif.FitSpec
import Verif.PolyOps

/-!
# Lemmas about the splitting of polygon sets
-/

namespace Verif.FFit

open Verif.FPoly Verif.FUnify
open scoped Classical

/-! ## Pieces -/

theorem pieces_append {α : Type} : ∀ (a b : List Nat) (l : List α), pieces (a ++ b) l = pieces a (l.take a.sum) ++ pieces b (l.drop a.sum) := by
  intro a
  induction a with
  | nil => intro b l; simp [pieces]
  | cons c a ih =>
    intro b l
    simp only [List.cons_append, pieces, ih, List.sum_cons, List.take_take, List.cons_append]
    rw [Nat.min_eq_left (Nat.le_add_right _ _), List.drop_drop, List.drop_take, Nat.add_sub_cancel_left]

/-! ## The faces that fit -/

theorem fits_spec (maximum : Nat) : ∀ (cs : List Nat) (acc : Nat), acc + cs.sum < 2 ^ 32 → acc ≤ maximum →
    (fits maximum cs acc).1 ≤ cs.length ∧ (fits maximum cs acc).2 = acc + (cs.take (fits maximum cs acc).1).sum ∧ (fits maximum cs acc).2 ≤ maximum ∧
      ((fits maximum cs acc).1 = cs.length ∨ ∃ c, cs[(fits maximum cs acc).1]? = some c ∧ maximum < (fits maximum cs acc).2 + c) := by
  intro cs
  induction cs with
  | nil => intro acc _ h; simp [fits, h]
  | cons c cs ih =>
    intro acc hs ha
    rw [List.sum_cons] at hs
    unfold fits
    rw [Nat.mod_eq_of_lt (by omega : acc + c < 2 ^ 32)]
    split
    · rename_i h
      exact ⟨by simp, by simp, ha, .inr ⟨c, by simp, h⟩⟩
    · rename_i h
      obtain ⟨h1, h2, h3, h4⟩ := ih (acc + c) (by omega) (by omega)
      refine ⟨by simp; omega, by simp; omega, h3, ?_⟩
      rcases h4 with h4 | ⟨c', h4, h5⟩
      · exact .inl (by simp [h4])
      · exact .inr ⟨c', by simpa using h4, h5⟩

theorem fits_pos {maximum : Nat} {cs : List Nat} (hs : cs.sum < 2 ^ 32) (hc : ∀ c ∈ cs, c ≤ maximum) (hne : cs ≠ []) : 0 < (fits maximum cs 0).1 := by
  cases cs with
  | nil => simp at hne
  | cons c cs =>
    unfold fits
    rw [List.sum_cons] at hs
    have := hc c (by simp)
    rw [Nat.mod_eq_of_lt (by omega : 0 + c < 2 ^ 32), if_neg (by omega)]
    simp

/-! ## The inputs of a new set -/

/-- The part of a list that is copied. -/
def slice (start len : Nat) (l : List (Option Nat)) : List (Option Nat) := (l.drop start).take len

theorem copyIndices_ok {S C : MSet} {j i start len : Nat} {x y : Input} (hS : FPoly.One S.polys.inputs) (hC : FPoly.One C.polys.inputs) (hx : S.polys.inputs[j]? = some x)
    (hy : C.polys.inputs[i]? = some y) (he : y.offset = x.offset) (hl : start + len ≤ (chan S.polys.inputs x.offset).length)
    (hc : chan C.polys.inputs x.offset = [] ∨ chan C.polys.inputs x.offset = slice start len (chan S.polys.inputs x.offset)) :
    ∃ ins, copyIndices S j start len C i = some { C with polys := { C.polys with inputs := ins } } ∧ FPoly.One ins ∧
      ins.map Input.offset = C.polys.inputs.map Input.offset ∧
      ∀ o, chan ins o = if o = x.offset then slice start len (chan S.polys.inputs o) else chan C.polys.inputs o := by
  unfold copyIndices
  rw [indexList_chan hC hy, indexList_chan hS hx, he]
  by_cases h0 : (chan C.polys.inputs x.offset).length = 0
  · rw [if_pos h0, if_pos hl]
    refine ⟨_, rfl, upd_one hC hy _, upd_offsets _ _ _, fun o => ?_⟩
    unfold setIndices
    rw [upd_chan hC hy, he]
    by_cases ho : o = x.offset
    · subst ho
      rw [if_pos rfl, if_pos rfl]
      rfl
    · rw [if_neg ho, if_neg ho]
  · rw [if_neg h0]
    refine ⟨C.polys.inputs, rfl, hC, rfl, fun o => ?_⟩
    by_cases ho : o = x.offset
    · subst ho
      rw [if_pos rfl]
      rcases hc with hc | hc
      · rw [hc] at h0
        simp at h0
      · exact hc
    · rw [if_neg ho]

theorem one_snoc {ins : List Input} (h : FPoly.One ins) (o : Nat) : FPoly.One (ins ++ [⟨o, []⟩]) := by
  have key : ∀ (i : Nat) (x : Input), (ins ++ [⟨o, []⟩])[i]? = some x → owns x = true → ins[i]? = some x := by
    intro i x hi ho
    by_cases hlt : i < ins.length
    · rwa [List.getElem?_append_left hlt] at hi
    · rw [List.getElem?_append_right (by omega)] at hi
      obtain ⟨_, e⟩ := List.getElem?_eq_some_iff.1 hi
      simp only [List.getElem_singleton] at e
      subst e
      simp [owns] at ho
  intro i j x y hi hj he hx hy
  exact h i j x y (key i x hi hx) (key j y hj hy) he hx hy

/-- The new set after `k` inputs. -/
structure CInv (vs : List Nat) (S : MSet) (start len k : Nat) (C : MSet) : Prop where
  one : FPoly.One C.polys.inputs
  slen : C.srcs.length = C.polys.inputs.length
  off : ∀ (i d : Nat) (y : Input), C.srcs[i]? = some d → C.polys.inputs[i]? = some y → ∀ (j : Nat) (x : Input), S.srcs[j]? = some d → S.polys.inputs[j]? = some x →
    y.offset = x.offset
  sub : ∀ d ∈ vs, d ∈ C.srcs
  done : ∀ j, j < k → ∀ d, S.srcs[j]? = some d → d ∈ C.srcs
  chans : ∀ o, chan C.polys.inputs o = if ∃ j x, j < k ∧ S.polys.inputs[j]? = some x ∧ x.offset = o then slice start len (chan S.polys.inputs o) else []
  rest : C.polys = { empty with inputs := C.polys.inputs }

theorem newSet_inv {vs : List Nat} {S : MSet} (start len : Nat)
    (hz : ∀ (j d : Nat) (x : Input), S.srcs[j]? = some d → S.polys.inputs[j]? = some x → (x.offset = 0 ↔ d ∈ vs)) : CInv vs S start len 0 (newSet vs) := by
  have key : ∀ (i : Nat) (y : Input), (newSet vs).polys.inputs[i]? = some y → y = ⟨0, []⟩ := by
    intro i y hi
    simp only [newSet, List.getElem?_map, Option.map_eq_some_iff] at hi
    obtain ⟨_, _, h⟩ := hi
    exact h.symm
  refine ⟨?_, by simp [newSet], ?_, fun d hd => hd, fun j hj => by omega, ?_, rfl⟩
  · intro i j x y hi _ _ hx _
    rw [key i x hi] at hx
    simp [owns] at hx
  · intro i d y hi hy j x hj hx
    rw [key i y hy]
    exact ((hz j d x hj hx).2 (List.mem_of_getElem? hi)).symm
  · intro o
    rw [if_neg (by rintro ⟨j, _, hj, _⟩; omega)]
    refine chan_none fun k z hk _ => ?_
    rw [key k z hk]
    rfl

theorem copyInput_inv {vs : List Nat} {S : MSet} {start len k : Nat} (hS : FPoly.One S.polys.inputs) (hlen : S.srcs.length = S.polys.inputs.length) (hnd : S.srcs.Nodup)
    (hl : ∀ x ∈ S.polys.inputs, start + len ≤ (chan S.polys.inputs x.offset).length) (hk : k < S.polys.inputs.length) {C : MSet} (h : CInv vs S start len k C) : ∃ C', copyInput vs S start len C k = some C' ∧ CInv vs S start len (k + 1) C' := by
  obtain ⟨x, hx⟩ : ∃ x, S.polys.inputs[k]? = some x := ⟨_, List.getElem?_eq_getElem hk⟩
  obtain ⟨d, hd⟩ : ∃ d, S.srcs[k]? = some d := ⟨_, List.getElem?_eq_getElem (by omega)⟩
  have hlx := hl x (List.mem_of_getElem? hx)
  have hchan : chan C.polys.inputs x.offset = [] ∨ chan C.polys.inputs x.offset = slice start len (chan S.polys.inputs x.offset) := by
    rw [h.chans]
    split
    · exact .inr rfl
    · exact .inl rfl
  have hfinal : ∀ (f : Nat → List (Option Nat)), (∀ o, f o = if o = x.offset then slice start len (chan S.polys.inputs o) else chan C.polys.inputs o) →
      ∀ o, f o = if ∃ j x, j < k + 1 ∧ S.polys.inputs[j]? = some x ∧ x.offset = o then slice start len (chan S.polys.inputs o) else [] := by
    intro f hf o
    rw [hf o, h.chans]
    by_cases ho : o = x.offset
    · subst ho
      rw [if_pos rfl, if_pos ⟨k, x, by omega, hx, rfl⟩]
    · rw [if_neg ho]
      by_cases hex : ∃ j x, j < k ∧ S.polys.inputs[j]? = some x ∧ x.offset = o
      · rw [if_pos hex]
        obtain ⟨j, z, h1, h2, h3⟩ := hex
        rw [if_pos ⟨j, z, by omega, h2, h3⟩]
      · rw [if_neg hex, if_neg]
        rintro ⟨j, z, h1, h2, h3⟩
        by_cases hjk : j = k
        · subst hjk
          rw [hx] at h2
          obtain rfl := Option.some.inj h2
          exact ho h3.symm
        · exact hex ⟨j, z, by omega, h2, h3⟩
  unfold copyInput
  simp only [hd, hx]
  by_cases hv : d ∈ vs
  · rw [if_pos hv]
    have hmem := h.sub d hv
    obtain ⟨i, hi⟩ : ∃ i, C.srcs.idxOf? d = some i := by
      cases hq : C.srcs.idxOf? d with
      | some i => exact ⟨i, rfl⟩
      | none => exact absurd hmem (List.idxOf?_eq_none_iff.1 hq)
    have hget : C.srcs[i]? = some d := by
      rw [List.idxOf?, List.findIdx?_eq_some_iff_getElem] at hi
      obtain ⟨h1, h2, _⟩ := hi
      rw [List.getElem?_eq_getElem h1]
      simpa using h2
    have hi' : i < C.polys.inputs.length := by
      rw [← h.slen]
      exact (List.getElem?_eq_some_iff.1 hget).1
    obtain ⟨y, hy⟩ : ∃ y, C.polys.inputs[i]? = some y := ⟨_, List.getElem?_eq_getElem hi'⟩
    have he := h.off i d y hget hy k x hd hx
    obtain ⟨ins, c1, c2, c3, c4⟩ := copyIndices_ok hS h.one hx hy he hlx hchan
    simp only [hi]
    refine ⟨_, c1, c2, ?_, ?_, h.sub, ?_, hfinal _ c4, ?_⟩
    · show C.srcs.length = ins.length
      rw [h.slen, ← List.length_map (f := Input.offset) (as := ins), c3, List.length_map]
    · intro a e z ha hz' j u hj hu
      obtain ⟨z0, hz0, hoff⟩ := get_offset c3.symm (show ins[a]? = some z from hz')
      rw [← hoff]
      exact h.off a e z0 ha hz0 j u hj hu
    · intro j hj e he
      by_cases hjk : j = k
      · subst hjk
        rw [hd] at he
        obtain rfl := Option.some.inj he
        exact hmem
      · exact h.done j (by omega) e he
    · show ({ C.polys with inputs := ins } : Polys) = _
      rw [h.rest]
  · rw [if_neg hv]
    have hone : FPoly.One (addInput C.polys x.offset).inputs := one_snoc h.one _
    have hy : (addInput C.polys x.offset).inputs[C.srcs.length]? = some ⟨x.offset, []⟩ := by
      rw [h.slen]
      simp [addInput]
    have hch : ∀ o, chan (addInput C.polys x.offset).inputs o = chan C.polys.inputs o := fun o => chan_append_empty _ _ _
    obtain ⟨ins, c1, c2, c3, c4⟩ := copyIndices_ok (C := ⟨addInput C.polys x.offset, C.srcs ++ [d]⟩) (start := start) (len := len) hS hone hx hy rfl hlx
      (by rw [hch]; exact hchan)
    have hcl : ins.length = C.polys.inputs.length + 1 := by
      rw [← List.length_map (f := Input.offset) (as := ins), c3, List.length_map]
      simp [addInput]
    refine ⟨_, c1, c2, ?_, ?_, fun e he => by simp [h.sub e he], ?_, hfinal _ (fun o => (c4 o).trans (by rw [hch])), ?_⟩
    · show (C.srcs ++ [d]).length = ins.length
      rw [hcl, List.length_append, h.slen]
      rfl
    · intro a e z ha hz' j u hj hu
      have ha : (C.srcs ++ [d])[a]? = some e := ha
      obtain ⟨z0, hz0, hoff⟩ := get_offset c3.symm (show ins[a]? = some z from hz')
      rw [← hoff]
      by_cases hlt : a < C.srcs.length
      · rw [List.getElem?_append_left hlt] at ha
        refine h.off a e z0 ha ?_ j u hj hu
        have hz0 : (C.polys.inputs ++ [⟨x.offset, []⟩])[a]? = some z0 := hz0
        rwa [List.getElem?_append_left (by rw [← h.slen]; exact hlt)] at hz0
      · have hal : a = C.srcs.length := by
          have := (List.getElem?_eq_some_iff.1 ha).1
          simp at this
          omega
        subst hal
        rw [hy] at hz0
        obtain rfl := Option.some.inj hz0
        simp at ha
        subst ha
        have : j = k := (List.getElem?_inj (List.getElem?_eq_some_iff.1 hj).1 hnd).1 (hj.trans hd.symm)
        subst this
        rw [hx] at hu
        obtain rfl := Option.some.inj hu
        rfl
    · intro j hj e he
      show e ∈ C.srcs ++ [d]
      by_cases hjk : j = k
      · subst hjk
        rw [hd] at he
        obtain rfl := Option.some.inj he
        simp
      · simp [h.done j (by omega) e he]
    · show ({ addInput C.polys x.offset with inputs := ins } : Polys) = _
      unfold addInput
      rw [h.rest]

theorem copyAll_ok {vs : List Nat} {S : MSet} {start len : Nat} (hS : FPoly.One S.polys.inputs) (hlen : S.srcs.length = S.polys.inputs.length) (hnd : S.srcs.Nodup)
    (hl : ∀ x ∈ S.polys.inputs, start + len ≤ (chan S.polys.inputs x.offset).length)
    (hz : ∀ (j d : Nat) (x : Input), S.srcs[j]? = some d → S.polys.inputs[j]? = some x → (x.offset = 0 ↔ d ∈ vs)) :
    ∃ C, (List.range S.polys.inputs.length).foldlM (copyInput vs S start len) (newSet vs) = some C ∧ CInv vs S start len S.polys.inputs.length C := by
  have key : ∀ n, n ≤ S.polys.inputs.length → ∃ C, (List.range n).foldlM (copyInput vs S start len) (newSet vs) = some C ∧ CInv vs S start len n C := by
    intro n
    induction n with
    | zero => intro _; exact ⟨_, rfl, newSet_inv start len hz⟩
    | succ n ih =>
      intro hn
      obtain ⟨C, h1, h2⟩ := ih (by omega)
      obtain ⟨C', h3, h4⟩ := copyInput_inv hS hlen hnd hl (by omega) h2
      refine ⟨C', ?_, h4⟩
      rw [List.range_succ, List.foldlM_append, h1]
      simp [h3]
  exact key _ (Nat.le_refl _)

/-! ## The new sets -/

theorem pieces_step {α : Type} (counts : List Nat) (l : List α) {a b : Nat} (hab : a ≤ b) :
    pieces (counts.take b) (l.take (counts.take b).sum) =
      pieces (counts.take a) (l.take (counts.take a).sum) ++
        pieces ((counts.drop a).take (b - a)) ((l.drop (counts.take a).sum).take ((counts.take b).sum - (counts.take a).sum)) := by
  have e : counts.take b = counts.take a ++ (counts.drop a).take (b - a) := by
    rw [← List.take_append_drop a (counts.take b), List.take_take, Nat.min_eq_left hab, List.drop_take]
  have hs : (counts.take b).sum = (counts.take a).sum + ((counts.drop a).take (b - a)).sum := by rw [e, List.sum_append]
  conv_lhs => rw [hs, e]
  rw [pieces_append, List.take_take, Nat.min_eq_left (Nat.le_add_right _ _), List.drop_take, hs]

theorem part_of_inv {vs : List Nat} {maximum : Nat} {S : PSet} (h : Splittable vs maximum S) {start len : Nat} {C : MSet}
    (hC : CInv vs S.set start len S.set.polys.inputs.length C) (hlen : len ≤ maximum) {counts : List Nat} (hc : counts.sum = len) :
    Part maximum S ⟨{ C with polys := { C.polys with counts := counts } }, S.material⟩ ∧
      (∀ d ∈ S.set.srcs, polygons ⟨{ C with polys := { C.polys with counts := counts } }, S.material⟩ d =
        pieces counts (slice start len (indexList S.set.polys.inputs (S.set.srcs.idxOf d)))) ∧
      C.polys.prim = .polygons ∧ C.polys.holes = [] := by
  have hi := reach_inv h.reach
  have hsub : ∀ d ∈ S.set.srcs, d ∈ C.srcs := by
    intro d hd
    obtain ⟨j, hj⟩ := List.getElem?_of_mem hd
    refine hC.done j ?_ d hj
    rw [← h.srcs]
    exact (List.getElem?_eq_some_iff.1 hj).1
  refine ⟨⟨rfl, by show counts.sum ≤ maximum; omega, ?_, hsub⟩, ?_, by rw [hC.rest]; rfl, by rw [hC.rest]; rfl⟩
  · intro i hlt
    have hlt : i < C.polys.inputs.length := hlt
    show (indexList C.polys.inputs i).length ≤ maximum
    rw [indexList_chan hC.one (List.getElem?_eq_getElem hlt), hC.chans]
    split
    · unfold slice
      rw [List.length_take]
      omega
    · simp
  · intro d hd
    unfold polygons
    show pieces counts (indexList C.polys.inputs (C.srcs.idxOf d)) = _
    congr 1
    have h1 : C.srcs[C.srcs.idxOf d]? = some d := by
      rw [List.getElem?_eq_getElem (List.idxOf_lt_length_iff.2 (hsub d hd))]
      simp
    have h2 : S.set.srcs[S.set.srcs.idxOf d]? = some d := by
      rw [List.getElem?_eq_getElem (List.idxOf_lt_length_iff.2 hd)]
      simp
    obtain ⟨y, hy⟩ : ∃ y, C.polys.inputs[C.srcs.idxOf d]? = some y :=
      ⟨_, List.getElem?_eq_getElem (by rw [← hC.slen]; exact List.idxOf_lt_length_iff.2 (hsub d hd))⟩
    have hjl : S.set.srcs.idxOf d < S.set.polys.inputs.length := by rw [← h.srcs]; exact List.idxOf_lt_length_iff.2 hd
    obtain ⟨x, hx⟩ : ∃ x, S.set.polys.inputs[S.set.srcs.idxOf d]? = some x := ⟨_, List.getElem?_eq_getElem hjl⟩
    rw [indexList_chan hC.one hy, indexList_chan hi.one hx, hC.off _ d y h1 hy _ x h2 hx, hC.chans, if_pos ⟨_, x, hjl, hx, rfl⟩]

/-- The state of the loop, when the first set keeps `f` faces. -/
structure LInv (vs : List Nat) (maximum : Nat) (S : PSet) (f : Nat) (t : State) : Prop where
  faces : t.faceStart = t.faceEnd
  le : t.faceEnd ≤ S.set.polys.counts.length
  start : t.start = (S.set.polys.counts.take t.faceEnd).sum
  stop : t.stop = t.start
  parts : ∀ T ∈ t.copies, Part maximum S T ∧ T.set.polys.prim = .polygons ∧ T.set.polys.holes = []
  polys : ∀ d ∈ S.set.srcs, ∀ l, l = indexList S.set.polys.inputs (S.set.srcs.idxOf d) →
    pieces (S.set.polys.counts.take f) (l.take (S.set.polys.counts.take f).sum) ++ t.copies.flatMap (polygons · d) =
      pieces (S.set.polys.counts.take t.faceEnd) (l.take (S.set.polys.counts.take t.faceEnd).sum)

theorem sum_pos {l : List Nat} (h : ∀ c ∈ l, 0 < c) (hne : l ≠ []) : 0 < l.sum := by
  cases l with
  | nil => simp at hne
  | cons c l =>
    have := h c (by simp)
    simp
    omega

theorem round_ok {vs : List Nat} {maximum : Nat} {S : PSet} (h : Splittable vs maximum S) {f : Nat} {t : State} (ht : LInv vs maximum S f t)
    (hlt : t.faceEnd < S.set.polys.counts.length) : ∃ t', round vs maximum S t = some t' ∧ LInv vs maximum S f t' ∧ t.faceEnd < t'.faceEnd := by
  have hi := reach_inv h.reach
  have hsum : (S.set.polys.counts.take t.faceEnd).sum + (S.set.polys.counts.drop t.faceEnd).sum = S.set.polys.counts.sum := by
    rw [← List.sum_append, List.take_append_drop]
  have hne : S.set.polys.counts.drop t.faceEnd ≠ [] := by
    intro h0
    have := congrArg List.length h0
    simp at this
    omega
  have hdm : ∀ c ∈ S.set.polys.counts.drop t.faceEnd, c ∈ S.set.polys.counts := fun c hc => List.mem_of_mem_drop hc
  have htot := h.total
  obtain ⟨r1, r2, r3, _⟩ := fits_spec maximum (S.set.polys.counts.drop t.faceEnd) 0 (by omega) (by omega)
  have rp := fits_pos (cs := S.set.polys.counts.drop t.faceEnd) (by omega) (fun c hc => h.small c (hdm c hc)) hne
  unfold round
  simp only
  generalize fits maximum (S.set.polys.counts.drop t.faceEnd) 0 = r at *
  rw [List.length_drop] at r1
  have hpos : 0 < r.2 := by
    rw [r2]
    have := sum_pos (l := (S.set.polys.counts.drop t.faceEnd).take r.1) (fun c hc => hi.pos c (hdm c (List.mem_of_mem_take hc))) (by
      intro h0
      have := congrArg List.length h0
      simp at this
      omega)
    omega
  have hst := ht.start
  have hsp := ht.stop
  have hfc := ht.faces
  have htake : S.set.polys.counts.take (t.faceEnd + r.1) = S.set.polys.counts.take t.faceEnd ++ (S.set.polys.counts.drop t.faceEnd).take r.1 := List.take_add
  have hsum2 : (S.set.polys.counts.take (t.faceEnd + r.1)).sum = t.start + r.2 := by
    rw [htake, List.sum_append, ← hst, r2]
    omega
  have htot2 : t.start + r.2 ≤ S.set.polys.counts.sum := by
    have : (S.set.polys.counts.take (t.faceEnd + r.1)).sum + (S.set.polys.counts.drop (t.faceEnd + r.1)).sum = S.set.polys.counts.sum := by
      rw [← List.sum_append, List.take_append_drop]
    omega
  rw [if_pos (by omega)]
  obtain ⟨C, c1, c2⟩ := copyAll_ok (vs := vs) (S := S.set) (start := t.start) (len := t.stop + r.2 - t.start) hi.one h.srcs h.nodup
    (fun x hx => by rw [hi.len x hx]; omega) h.zero
  rw [c1]
  have hchunk : t.faceEnd + r.1 - t.faceStart = r.1 := by omega
  obtain ⟨p1, p2, p3, p4⟩ := part_of_inv h c2 (by omega) (counts := (S.set.polys.counts.drop t.faceStart).take (t.faceEnd + r.1 - t.faceStart)) (by
    rw [hchunk, hfc]
    omega)
  refine ⟨_, rfl, ⟨rfl, by show t.faceEnd + r.1 ≤ _; omega, by show t.stop + r.2 = _; rw [hsum2]; omega, rfl, ?_, ?_⟩, by show _ < t.faceEnd + r.1; omega⟩
  · intro T hT
    rcases List.mem_append.1 (show T ∈ t.copies ++ [_] from hT) with hT | hT
    · exact ht.parts T hT
    · rw [List.mem_singleton] at hT
      subst hT
      exact ⟨p1, p3, p4⟩
  · intro d hd l hl
    show _ ++ (t.copies ++ [_]).flatMap _ = pieces (S.set.polys.counts.take (t.faceEnd + r.1)) _
    rw [List.flatMap_append, ← List.append_assoc, ht.polys d hd l hl, pieces_step S.set.polys.counts l (Nat.le_add_right t.faceEnd r.1)]
    congr 1
    simp only [List.flatMap_cons, List.flatMap_nil, List.append_nil]
    rw [p2 d hd, hl, hsum2, ← hst, hfc]
    unfold slice
    rw [hsp]

theorem loop_ok {vs : List Nat} {maximum : Nat} {S : PSet} (h : Splittable vs maximum S) {f : Nat} : ∀ (k : Nat) (t : State), LInv vs maximum S f t →
    S.set.polys.counts.length ≤ t.faceEnd + k →
    ∃ t', LInv vs maximum S f t' ∧ t'.faceEnd = S.set.polys.counts.length ∧ ∀ n, k < n → loop vs maximum S n t = some t' := by
  intro k
  induction k with
  | zero =>
    intro t ht hk
    have := ht.le
    refine ⟨t, ht, by omega, fun n hn => ?_⟩
    obtain ⟨n, rfl⟩ : ∃ m, n = m + 1 := ⟨n - 1, by omega⟩
    rw [loop, if_neg (by omega)]
  | succ k ih =>
    intro t ht hk
    by_cases hlt : t.faceEnd < S.set.polys.counts.length
    · obtain ⟨t1, h1, h2, h3⟩ := round_ok h ht hlt
      obtain ⟨t', e1, e2, e3⟩ := ih t1 h2 (by omega)
      refine ⟨t', e1, e2, fun n hn => ?_⟩
      obtain ⟨n, rfl⟩ : ∃ m, n = m + 1 := ⟨n - 1, by omega⟩
      rw [loop, if_pos hlt, h1, Option.bind_some, e3 n (by omega)]
    · have := ht.le
      refine ⟨t, ht, by omega, fun n hn => ?_⟩
      obtain ⟨n, rfl⟩ : ∃ m, n = m + 1 := ⟨n - 1, by omega⟩
      rw [loop, if_neg hlt]

/-! ## The first set -/

theorem cutStep_eq (count : Nat) (ins : List Input) (i : Nat) (x : Input) (hx : ins[i]? = some x) :
    cutStep count ins i = if owns x then upd ins i (resize count) else ins := by
  unfold cutStep setIndexCount
  rw [hx]
  simp

theorem cut_ok {vs : List Nat} {maximum : Nat} {S : PSet} (h : Splittable vs maximum S) {f c : Nat} (hc : c = (S.set.polys.counts.take f).sum) (hm : c ≤ maximum) :
    Part maximum S (cutSet f c S) ∧
      ∀ d ∈ S.set.srcs, polygons (cutSet f c S) d = pieces (S.set.polys.counts.take f) ((indexList S.set.polys.inputs (S.set.srcs.idxOf d)).take c) := by
  have hi := reach_inv h.reach
  have hins : (cutSet f c S).set.polys.inputs = S.set.polys.inputs.map fun x => if owns x then { x with indices := resize c x.indices } else x :=
    owners_loop _ _ (fun ins i x hx => cutStep_eq c ins i x hx) _
  have hcl : c ≤ S.set.polys.counts.sum := by
    rw [hc]
    have : (S.set.polys.counts.take f).sum + (S.set.polys.counts.drop f).sum = S.set.polys.counts.sum := by rw [← List.sum_append, List.take_append_drop]
    omega
  have hidx : ∀ (i : Nat) (x : Input), S.set.polys.inputs[i]? = some x → indexList (cutSet f c S).set.polys.inputs i = (indexList S.set.polys.inputs i).take c := by
    intro i x hx
    rw [hins]
    obtain ⟨x', hx', he⟩ := get_offset (map_owned_offsets S.set.polys.inputs (resize c)) hx
    rw [indexList_chan (map_owned_one hi.one _) hx', indexList_chan hi.one hx, he, map_owned_chan hi.one]
    have hl := hi.len x (List.mem_of_getElem? hx)
    split
    · rename_i h0
      simp [h0]
    · unfold resize
      rw [show c - (chan S.set.polys.inputs x.offset).length = 0 by omega]
      simp
  refine ⟨⟨rfl, by show (S.set.polys.counts.take f).sum ≤ _; omega, ?_, fun d hd => hd⟩, ?_⟩
  · intro i hlt
    have hlt' : i < S.set.polys.inputs.length := by
      rw [hins] at hlt
      simpa using hlt
    rw [hidx i _ (List.getElem?_eq_getElem hlt'), List.length_take]
    omega
  · intro d hd
    have hjl : S.set.srcs.idxOf d < S.set.polys.inputs.length := by rw [← h.srcs]; exact List.idxOf_lt_length_iff.2 hd
    show pieces (S.set.polys.counts.take f) (indexList (cutSet f c S).set.polys.inputs (S.set.srcs.idxOf d)) = _
    rw [hidx _ _ (List.getElem?_eq_getElem hjl)]

theorem fitSet_ok {vs : List Nat} {maximum : Nat} {S : PSet} (h : Splittable vs maximum S) (hp : S.set.polys.prim ≠ .points) :
    ∃ H Cs, Split maximum S H Cs ∧ ∀ n, S.set.polys.counts.length < n → fitSet vs maximum n S = some (H, Cs) := by
  have hi := reach_inv h.reach
  have hwhole : size S ≤ maximum → Split maximum S S [] := by
    intro hs
    refine ⟨?_, fun d _ => by simp, ⟨rfl, rfl, rfl⟩, by simp, fun _ => ⟨rfl, rfl⟩⟩
    intro T hT
    rw [List.mem_singleton] at hT
    subst hT
    refine ⟨rfl, hs, fun i hlt => ?_, fun d hd => hd⟩
    rw [indexList_chan hi.one (List.getElem?_eq_getElem hlt), hi.len _ (List.getElem_mem hlt)]
    exact hs
  have htot := h.total
  obtain ⟨r1, r2, r3, r4⟩ := fits_spec maximum S.set.polys.counts 0 (by omega) (by omega)
  by_cases h0 : S.set.polys.counts.length = 0
  · refine ⟨S, [], hwhole ?_, fun n _ => by rw [fitSet, if_neg hp, if_pos h0]⟩
    unfold size
    rw [List.length_eq_zero_iff.1 h0]
    simp
  by_cases hall : (fits maximum S.set.polys.counts 0).1 = S.set.polys.counts.length
  · refine ⟨S, [], hwhole ?_, fun n _ => by rw [fitSet, if_neg hp, if_neg h0]; simp only; rw [if_pos hall]⟩
    rw [hall, List.take_length] at r2
    unfold size
    omega
  · have hnf : ¬ size S ≤ maximum := by
      intro hs
      rcases r4 with r4 | ⟨c, h1, h2⟩
      · exact hall r4
      · rw [r2] at h2
        have : (S.set.polys.counts.take ((fits maximum S.set.polys.counts 0).1 + 1)).sum ≤ S.set.polys.counts.sum := by
          have : (S.set.polys.counts.take ((fits maximum S.set.polys.counts 0).1 + 1)).sum + (S.set.polys.counts.drop ((fits maximum S.set.polys.counts 0).1 + 1)).sum =
            S.set.polys.counts.sum := by rw [← List.sum_append, List.take_append_drop]
          omega
        obtain ⟨hlt, he⟩ := List.getElem?_eq_some_iff.1 h1
        rw [List.take_succ_eq_append_getElem hlt, List.sum_append, he] at this
        simp at this
        unfold size at hs
        omega
    obtain ⟨t, t1, t2, t3⟩ := loop_ok h (f := (fits maximum S.set.polys.counts 0).1) S.set.polys.counts.length
      ⟨[], (fits maximum S.set.polys.counts 0).1, (fits maximum S.set.polys.counts 0).1, (fits maximum S.set.polys.counts 0).2, (fits maximum S.set.polys.counts 0).2⟩
      ⟨rfl, r1, by show (fits maximum S.set.polys.counts 0).2 = (S.set.polys.counts.take (fits maximum S.set.polys.counts 0).1).sum; omega, rfl, by simp, fun d _ l _ => by simp⟩ (by show _ ≤ (fits maximum S.set.polys.counts 0).1 + _; omega)
    obtain ⟨p1, p2⟩ := cut_ok h (f := (fits maximum S.set.polys.counts 0).1) (c := (fits maximum S.set.polys.counts 0).2) (by omega) r3
    refine ⟨cutSet (fits maximum S.set.polys.counts 0).1 (fits maximum S.set.polys.counts 0).2 S, t.copies, ⟨?_, ?_, ⟨rfl, rfl, rfl⟩, fun T hT => (t1.parts T hT).2, fun hs => absurd hs hnf⟩, fun n hn => ?_⟩
    · intro T hT
      rcases List.mem_cons.1 hT with rfl | hT
      · exact p1
      · exact (t1.parts T hT).1
    · intro d hd
      have hjl : S.set.srcs.idxOf d < S.set.polys.inputs.length := by rw [← h.srcs]; exact List.idxOf_lt_length_iff.2 hd
      have := t1.polys d hd _ rfl
      rw [t2, List.take_length] at this
      rw [List.flatMap_cons, p2 d hd, r2, Nat.zero_add, this]
      unfold polygons
      rw [List.take_of_length_le]
      rw [indexList_chan hi.one (List.getElem?_eq_getElem hjl), hi.len _ (List.getElem_mem hjl)]
      exact Nat.le_refl _
    · rw [fitSet, if_neg hp, if_neg h0]
      simp only
      rw [if_neg hall, t3 n hn]
      rfl

/-! ## All sets -/

theorem recalc_eq {S : PSet} (h : Reach S.set.polys) : recalc S = S := by
  have := (reach_inv h).total
  obtain ⟨⟨⟨counts, holes, inputs, prim, total⟩, srcs⟩, material⟩ := S
  simp only at this
  simp [recalc, recalculate, this]

theorem part_recalc {maximum : Nat} {S T : PSet} (h : Part maximum S T) : Part maximum S (recalc T) := ⟨h.material, h.size, h.lists, h.srcs⟩

theorem fitAll_ok {vs : List Nat} {maximum : Nat} : ∀ (sets : List PSet), (∀ S ∈ sets, S.set.polys.prim ≠ .points → Splittable vs maximum S) →
    ∃ (heads : List PSet) (copies : List (List PSet)) (N : Nat), (∀ n, N ≤ n → fitAll vs maximum n sets = some (heads, copies.flatten)) ∧
      heads.length = sets.length ∧ copies.length = sets.length ∧
      ∀ (k : Nat) (S H : PSet) (Cs : List PSet), sets[k]? = some S → heads[k]? = some H → copies[k]? = some Cs →
        (S.set.polys.prim = .points → H = S ∧ Cs = []) ∧ (S.set.polys.prim ≠ .points → Split maximum S H Cs) := by
  intro sets
  induction sets with
  | nil => intro _; exact ⟨[], [], 0, fun _ _ => rfl, rfl, rfl, by simp⟩
  | cons S sets ih =>
    intro h
    obtain ⟨heads, copies, N, h1, h2, h3, h4⟩ := ih fun T hT => h T (by simp [hT])
    obtain ⟨H, Cs, N', e1, e2⟩ : ∃ H Cs N', (∀ n, N' ≤ n → fitSet vs maximum n S = some (H, Cs)) ∧
        (S.set.polys.prim = .points → H = S ∧ Cs = []) ∧ (S.set.polys.prim ≠ .points → Split maximum S H Cs) := by
      by_cases hp : S.set.polys.prim = .points
      · exact ⟨S, [], 0, fun n _ => by rw [fitSet, if_pos hp], fun _ => ⟨rfl, rfl⟩, fun h => absurd hp h⟩
      · obtain ⟨H, Cs, q1, q2⟩ := fitSet_ok (h S (by simp) hp) hp
        exact ⟨H, Cs, S.set.polys.counts.length + 1, fun n hn => q2 n (by omega), fun h => absurd h hp, fun _ => q1⟩
    refine ⟨H :: heads, Cs :: copies, max N N', fun n hn => ?_, by simp [h2], by simp [h3], ?_⟩
    · rw [fitAll, e1 n (by omega), Option.bind_some, h1 n (by omega)]
      rfl
    · intro k S' H' Cs' a b c
      cases k with
      | zero =>
        simp only [List.getElem?_cons_zero, Option.some.injEq] at a b c
        subst a b c
        exact e2
      | succ k => exact h4 k S' H' Cs' a b c

end Verif.FFit
