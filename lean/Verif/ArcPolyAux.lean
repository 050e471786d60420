import Verif.ArcPolyLemmas

/-! # Lemmas for polygon sets: the indices pushed to the inputs -/

namespace Verif.FArc

open Verif.FEff (Text text)

theorem indicesOf_owner {ins : List GInput} {i j : Nat} {x y : GInput} (hx : ins[j]? = some x) (hy : ins[i]? = some y) (ho : y.offset = x.offset)
    (hu : ∀ k z, ins[k]? = some z → z.offset = x.offset → z.indices ≠ [] → k = i) : indicesOf ins j = y.indices := by
  unfold indicesOf ownerOf
  rw [hx]
  simp only
  by_cases hw : x.indices = []
  · have : x.owns = false := by simp [GInput.owns, hw]
    rw [this, if_neg (by simp)]
    cases hf : ins.findIdx? (fun y => decide (y.offset = x.offset) && y.owns) with
    | none =>
      simp only [Option.getD_none, hx, Option.map_some, Option.getD_some, hw]
      by_contra hne
      have hm := List.mem_of_getElem? hy
      have := List.findIdx?_eq_none_iff.1 hf y hm
      simp [ho, GInput.owns] at this
      exact hne this.symm
    | some k =>
      obtain ⟨hk, hp, -⟩ := List.findIdx?_eq_some_iff_getElem.1 hf
      simp only [Bool.and_eq_true, decide_eq_true_eq, GInput.owns, Bool.not_eq_true', List.isEmpty_eq_false_iff] at hp
      have := hu k _ (List.getElem?_eq_getElem hk) hp.1 hp.2
      subst this
      simp [hy]
  · have : x.owns = true := by simp [GInput.owns, hw]
    have e := hu j x hx rfl hw
    subst e
    rw [this, if_pos rfl, hy]
    rfl

theorem ownerOf_self {ins : List GInput} {i : Nat} {x : GInput} (hx : ins[i]? = some x)
    (hu : ∀ k z, ins[k]? = some z → z.offset = x.offset → z.indices ≠ [] → k = i) : ownerOf ins i = i := by
  unfold ownerOf
  rw [hx]
  simp only
  split
  · rfl
  · cases hf : ins.findIdx? (fun y => decide (y.offset = x.offset) && y.owns) with
    | none => rfl
    | some k =>
      obtain ⟨hk, hp, -⟩ := List.findIdx?_eq_some_iff_getElem.1 hf
      simp only [Bool.and_eq_true, decide_eq_true_eq, GInput.owns, Bool.not_eq_true', List.isEmpty_eq_false_iff] at hp
      exact hu k _ (List.getElem?_eq_getElem hk) hp.1 hp.2

/-- The inputs of which the owners have the lists given by their offset and the others none. -/
def lent (ins : List GInput) (owners : List (Option Nat)) (f : Nat → List Nat) : List GInput :=
  ins.mapIdx fun j x => { x with indices := if owners[x.offset]? = some (some j) then f x.offset else [] }

theorem lent_get {ins : List GInput} {owners : List (Option Nat)} {f : Nat → List Nat} {j : Nat} :
    (lent ins owners f)[j]? = (ins[j]?).map fun x => { x with indices := if owners[x.offset]? = some (some j) then f x.offset else [] } := by
  simp [lent, List.getElem?_mapIdx]

/-- Each owner has the offset it owns. -/
def OwnInv (ins : List GInput) (owners : List (Option Nat)) : Prop := ∀ k j : Nat, owners[k]? = some (some j) → ∃ x, ins[j]? = some x ∧ x.offset = k

theorem lent_unique {ins : List GInput} {owners : List (Option Nat)} {f : Nat → List Nat} {i o : Nat} (ho : owners[o]? = some (some i)) :
    ∀ k z, (lent ins owners f)[k]? = some z → z.offset = o → z.indices ≠ [] → k = i := by
  intro k z hz e hne
  rw [lent_get, Option.map_eq_some_iff] at hz
  obtain ⟨x, _, rfl⟩ := hz
  simp only at e hne
  rw [e, ho] at hne
  by_contra hk
  exact hne (if_neg fun h => hk (by simpa using h.symm))

theorem addIndices_lent {ins : List GInput} {owners : List (Option Nat)} (h : OwnInv ins owners) (f : Nat → List Nat) {k i : Nat} (hk : owners[k]? = some (some i)) (l : List Nat) :
    addIndices (lent ins owners f) i l = lent ins owners (fun o => if o = k then f o ++ l else f o) := by
  obtain ⟨x, hx, ho⟩ := h k i hk
  unfold addIndices
  rw [ownerOf_self (x := { x with indices := if owners[x.offset]? = some (some i) then f x.offset else [] }) (by rw [lent_get, hx]; rfl)
    (by simpa only [ho] using lent_unique (f := f) (ins := ins) hk)]
  apply List.ext_getElem?
  intro j
  rw [List.getElem?_modify, lent_get, lent_get]
  cases hj : ins[j]? with
  | none => simp
  | some y =>
    simp only [Option.map_some, Option.map_eq_map]
    by_cases hij : i = j
    · subst hij
      rw [hx] at hj
      obtain rfl := Option.some.inj hj
      simp only [ho, hk, if_true]
    · simp only [if_neg hij]
      simp only [Option.some.injEq]
      by_cases hyo : owners[y.offset]? = some (some j)
      · rw [if_pos hyo, if_pos hyo, if_neg]
        intro e
        rw [e, hk] at hyo
        exact hij (by simpa using hyo)
      · simp [if_neg hyo]

/-- The lists of indices read for corners `off` to `off + c`. -/
def slices (owners : List (Option Nat)) (cols : Nat → List Nat) (off c : Nat) : List (Option (List Nat)) := owners.mapIdx fun k o => o.map fun _ => ((cols k).drop off).take c

theorem slices_length (owners : List (Option Nat)) (cols : Nat → List Nat) (off c : Nat) : (slices owners cols off c).length = owners.length := by simp [slices]

theorem push_from {ins : List GInput} {owners : List (Option Nat)} (h : OwnInv ins owners) (cols : Nat → List Nat) (off c : Nat) : ∀ (n k : Nat), owners.length - k = n →
    ((owners.drop k).zip ((slices owners cols off c).drop k)).foldl pushOne (lent ins owners fun o => if o < k then (cols o).take (off + c) else (cols o).take off) = lent ins owners fun o => (cols o).take (off + c)
  | 0, k, hn => by
    rw [List.drop_eq_nil_of_le (by omega)]
    simp only [List.zip_nil_left, List.foldl_nil]
    unfold lent
    congr 1
    funext j x
    congr 1
    by_cases ho : owners[x.offset]? = some (some j)
    · rw [if_pos ho, if_pos ho]
      refine if_pos ?_
      have := (List.getElem?_eq_some_iff.1 ho).1
      omega
    · rw [if_neg ho, if_neg ho]
  | n + 1, k, hn => by
    have hk : k < owners.length := by omega
    have hk' : k < (slices owners cols off c).length := by rw [slices_length]; exact hk
    rw [List.drop_eq_getElem_cons hk, List.drop_eq_getElem_cons hk', List.zip_cons_cons, List.foldl_cons]
    have ih := push_from h cols off c n (k + 1) (by omega)
    have hs : (slices owners cols off c)[k] = owners[k].map fun _ => ((cols k).drop off).take c := by simp [slices]
    rw [hs]
    cases hw : owners[k] with
    | none =>
      rw [pushOne]
      simp only
      rw [← ih]
      congr 1
      unfold lent
      congr 1
      funext j x
      congr 1
      by_cases ho : owners[x.offset]? = some (some j)
      · rw [if_pos ho, if_pos ho]
        beta_reduce
        have : x.offset ≠ k := by
          intro e
          rw [e, List.getElem?_eq_getElem hk, hw] at ho
          simp at ho
        by_cases hl : x.offset < k
        · rw [if_pos hl, if_pos (by omega)]
        · rw [if_neg hl, if_neg (by omega)]
      · rw [if_neg ho, if_neg ho]
    | some i =>
      rw [pushOne]
      simp only [Option.map_some, Option.getD_some]
      rw [addIndices_lent h _ (k := k) (by rw [List.getElem?_eq_getElem hk, hw]), ← ih]
      congr 2
      funext o
      by_cases ho : o = k
      · subst ho
        rw [if_pos rfl, if_neg (by omega), if_pos (by omega), List.take_add]
      · rw [if_neg ho]
        by_cases hl : o < k
        · rw [if_pos hl, if_pos (by omega)]
        · rw [if_neg hl, if_neg (by omega)]

theorem push_lent {ins : List GInput} {owners : List (Option Nat)} (h : OwnInv ins owners) (cols : Nat → List Nat) (off c : Nat) :
    pushIndices owners (slices owners cols off c) (lent ins owners fun o => (cols o).take off) = lent ins owners fun o => (cols o).take (off + c) := by
  have := push_from h cols off c _ 0 rfl
  simpa [pushIndices] using this

theorem indicesOf_lent {ins : List GInput} {owners : List (Option Nat)} (h : OwnInv ins owners) (f : Nat → List Nat) {j : Nat} {x : GInput} (hx : ins[j]? = some x)
    (hc : ∃ i, owners[x.offset]? = some (some i)) : indicesOf (lent ins owners f) j = f x.offset := by
  obtain ⟨i, hi⟩ := hc
  obtain ⟨y, hy, ho⟩ := h _ _ hi
  have hy' : (lent ins owners f)[i]? = some { y with indices := f x.offset } := by
    rw [lent_get, hy]
    simp [ho, hi]
  have hx' : (lent ins owners f)[j]? = some { x with indices := if owners[x.offset]? = some (some j) then f x.offset else [] } := by rw [lent_get, hx]; rfl
  exact indicesOf_owner hx' hy' ho (lent_unique hi)

theorem lent_zero {ins : List GInput} {owners : List (Option Nat)} (h : ∀ x ∈ ins, x.indices = []) (cols : Nat → List Nat) : lent ins owners (fun o => (cols o).take 0) = ins := by
  apply List.ext_getElem?
  intro j
  rw [lent_get]
  cases hj : ins[j]? with
  | none => rfl
  | some x =>
    have := h x (List.mem_of_getElem? hj)
    obtain ⟨a, b, c, d⟩ := x
    simp only at this
    subst this
    simp

end Verif.FArc
