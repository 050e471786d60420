import Mathlib.Data.List.Basic

/-!
# Model of `fm::comparator` sorting (FMath/FMSort.h)

The array is a list; indices outside it yield `none`. `cmp` is the virtual `compare`, any function of the two elements.
Indices are `intptr_t`, here naturals: the code never forms a negative one (`--l` starts from `l >= beg + 1`).
The depth of the recursion (up to the number of elements) is not modelled.
-/

namespace Verif.FSort

variable {T : Type}

/-- FMSort.h 20-26: `swap(data[i], data[j])`. -/
def swap (data : List T) (i j : Nat) : Option (List T) :=
  (data[i]?).bind fun a => (data[j]?).bind fun b => some ((data.set i b).set j a)

/-- FMSort.h 62-68: the partition loop; the result is the array and the common final value of `l` and `r`.
`pivot` is a reference to `data[beg]`, read again at each turn. -/
def partition (cmp : T → T → Bool) (data : List T) (beg l r : Nat) : Option (List T × Nat) :=
  if l < r then
    (data[l]?).bind fun x => (data[beg]?).bind fun p =>
      if cmp x p then partition cmp data beg (l + 1) r
      else (swap data l (r - 1)).bind fun d => partition cmp d beg l (r - 1)
  else some (data, l)
termination_by r - l

theorem partition_range (cmp : T → T → Bool) (data : List T) (beg l r : Nat) {d m} (hl : l ≤ r)
    (h : partition cmp data beg l r = some (d, m)) : l ≤ m ∧ m ≤ r := by
  fun_induction partition cmp data beg l r with
  | case1 data l r hlr ih1 ih2 =>
    simp only [Option.bind_eq_some_iff] at h
    obtain ⟨x, hx, p, hp, h⟩ := h
    split at h
    · have := ih1 (by omega) h; omega
    · simp only [Option.bind_eq_some_iff] at h
      obtain ⟨d', -, h⟩ := h
      have := ih2 d' (by omega) h; omega
  | case2 data l r hlr => simp at h; omega

/-- FMSort.h 56-73: `quicksort`. -/
def quicksort (cmp : T → T → Bool) (data : List T) (beg fin : Nat) : Option (List T) :=
  if _hlt : fin > beg + 1 then
    match _h : partition cmp data beg (beg + 1) fin with
    | none => none
    | some (d, l) =>
      (swap d (l - 1) beg).bind fun d1 =>
      (quicksort cmp d1 beg (l - 1)).bind fun d2 => quicksort cmp d2 l fin
  else some data
termination_by fin - beg
decreasing_by
  · have := partition_range cmp data beg (beg + 1) fin (by omega) _h; omega
  · have := partition_range cmp data beg (beg + 1) fin (by omega) _h; omega

/-- FMSort.h 49-53: `sort(data, count)`. -/
def sort (cmp : T → T → Bool) (data : List T) (count : Nat) : Option (List T) := quicksort cmp data 0 count

/-- FMSort.h 41-44 and 89-92: the two comparators over `operator<`. -/
def ascending (lt : T → T → Bool) (a b : T) : Bool := lt a b
def descending (lt : T → T → Bool) (a b : T) : Bool := lt b a

end Verif.FSort
