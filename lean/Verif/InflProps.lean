import Verif.InflSpec

/-!
# C188: the influences of packed vertices
-/

namespace Verif.FInfl

theorem largest_go (packing : List Nat) : ∀ l, l ≤ packing.foldl (fun l p => if p > l ∧ p ≠ unused then p else l) l ∧
    (∀ p ∈ packing, p ≠ unused → p ≤ packing.foldl (fun l p => if p > l ∧ p ≠ unused then p else l) l) ∧
    (packing.foldl (fun l p => if p > l ∧ p ≠ unused then p else l) l = l ∨ (packing.foldl (fun l p => if p > l ∧ p ≠ unused then p else l) l ∈ packing ∧ packing.foldl (fun l p => if p > l ∧ p ≠ unused then p else l) l ≠ unused)) := by
  induction packing with
  | nil => intro l; exact ⟨Nat.le_refl l, fun p hp => absurd hp List.not_mem_nil, .inl rfl⟩
  | cons q packing ih =>
    intro l
    rw [List.foldl_cons]
    obtain ⟨h1, h2, h3⟩ := ih (if q > l ∧ q ≠ unused then q else l)
    refine ⟨?_, ?_, ?_⟩
    · refine Nat.le_trans ?_ h1
      split
      · next h => exact Nat.le_of_lt h.1
      · exact Nat.le_refl l
    · intro p hp hu
      rcases List.mem_cons.1 hp with rfl | hp
      · refine Nat.le_trans ?_ h1
        split
        · exact Nat.le_refl p
        · next h => exact Nat.le_of_not_lt fun c => h ⟨c, hu⟩
      · exact h2 p hp hu
    · rcases h3 with h3 | h3
      · rw [h3]
        split
        · next h => exact .inr ⟨List.mem_cons_self, h.2⟩
        · exact .inl rfl
      · exact .inr ⟨List.mem_cons_of_mem q h3.1, h3.2⟩

/-- All packed indices are at most the largest one. -/
theorem le_largest {packing : List Nat} {p : Nat} (h : p ∈ packing) (hu : p ≠ unused) : p ≤ largest packing := (largest_go packing 0).2.1 p h hu

theorem resized_length (n : Nat) (old : List (Option Nat)) : (resized n old).length = n := by
  unfold resized
  rw [List.length_append, List.length_take, List.length_replicate]
  omega

/-- What a step does to a place: the packed places of the vertex get it. -/
def Step (map : Nat → Option (List Nat)) (packing : List Nat) (is : List Nat) (a b : List (Option Nat)) : Prop :=
  b.length = a.length ∧ ∀ p, p < a.length → ((∃ i ∈ is, At map packing i p ∧ b[p]? = some (some i)) ∨ ((¬ ∃ i ∈ is, At map packing i p) ∧ b[p]? = a[p]?))

theorem places (packing : List Nat) (i : Nat) : ∀ (us : List Nat) (slots : List (Option Nat)), slots.length = largest packing + 1 → (∀ u ∈ us, u < packing.length) →
    ∃ r, us.foldlM (place packing i) slots = some r ∧ r.length = slots.length ∧ ∀ p, ((∃ u ∈ us, packing[u]? = some p ∧ p ≠ unused) → r[p]? = some (some i)) ∧ ((¬ ∃ u ∈ us, packing[u]? = some p ∧ p ≠ unused) → r[p]? = slots[p]?)
  | [], slots, _, _ => ⟨slots, rfl, rfl, fun p => ⟨fun ⟨u, hu, _⟩ => absurd hu List.not_mem_nil, fun _ => rfl⟩⟩
  | u :: us, slots, hl, hu => by
    have hlt := hu u List.mem_cons_self
    have hg : packing[u]? = some packing[u] := List.getElem?_eq_getElem hlt
    by_cases hp : packing[u] = unused
    · have e : place packing i slots u = some slots := by
        unfold place
        rw [hg]
        simp only [hp, ne_eq, not_true_eq_false, if_false]
      obtain ⟨r, h1, h2, h3⟩ := places packing i us slots hl fun v hv => hu v (List.mem_cons_of_mem u hv)
      refine ⟨r, by rw [List.foldlM_cons, e]; exact h1, h2, fun p => ⟨?_, ?_⟩⟩
      · rintro ⟨v, hv, e', hne⟩
        rcases List.mem_cons.1 hv with rfl | hv
        · rw [hg] at e'
          exact absurd (hp.symm.trans (Option.some.inj e')).symm hne
        · exact (h3 p).1 ⟨v, hv, e', hne⟩
      · intro hn
        exact (h3 p).2 fun ⟨v, hv, e⟩ => hn ⟨v, List.mem_cons_of_mem u hv, e⟩
    · have hle : packing[u] < slots.length := by rw [hl]; exact Nat.lt_succ_of_le (le_largest (List.getElem_mem hlt) hp)
      have e : place packing i slots u = some (slots.set packing[u] (some i)) := by
        unfold place
        rw [hg]
        simp only [ne_eq, hp, not_false_eq_true, if_true, hle]
      obtain ⟨r, h1, h2, h3⟩ := places packing i us (slots.set packing[u] (some i)) (by rw [List.length_set]; exact hl) fun v hv => hu v (List.mem_cons_of_mem u hv)
      refine ⟨r, by rw [List.foldlM_cons, e]; exact h1, by rw [h2, List.length_set], fun p => ⟨?_, ?_⟩⟩
      · rintro ⟨v, hv, e', hne⟩
        by_cases hin : ∃ v ∈ us, packing[v]? = some p ∧ p ≠ unused
        · exact (h3 p).1 hin
        · rcases List.mem_cons.1 hv with rfl | hv
          · rw [hg] at e'
            obtain rfl := Option.some.inj e'
            rw [(h3 _).2 hin, List.getElem?_set_self hle]
          · exact absurd ⟨v, hv, e', hne⟩ hin
      · intro hn
        rw [(h3 p).2 fun ⟨v, hv, e⟩ => hn ⟨v, List.mem_cons_of_mem u hv, e⟩, List.getElem?_set_ne]
        rintro rfl
        exact hn ⟨u, List.mem_cons_self, hg, hp⟩

theorem steps {n : Nat} {map : Nat → Option (List Nat)} {packing : List Nat} (hc : Complete n map packing) : ∀ (is : List Nat) (slots : List (Option Nat)), slots.length = largest packing + 1 → (∀ i ∈ is, i < n) →
    ∃ r, is.foldlM (placeAll map packing) slots = some r ∧ Step map packing is slots r
  | [], slots, _, _ => ⟨slots, rfl, rfl, fun p _ => .inr ⟨fun ⟨_, h, _⟩ => absurd h List.not_mem_nil, rfl⟩⟩
  | i :: is, slots, hl, hi => by
    obtain ⟨us, hm, hus⟩ := hc i (hi i List.mem_cons_self)
    obtain ⟨r, h1, h2, h3⟩ := places packing i us slots hl hus
    obtain ⟨q, g1, g2, g3⟩ := steps hc is r (by rw [h2, hl]) fun j hj => hi j (List.mem_cons_of_mem i hj)
    have e : placeAll map packing slots i = some r := by
      unfold placeAll
      rw [hm]
      exact h1
    refine ⟨q, by rw [List.foldlM_cons, e]; exact g1, by rw [g2, h2], fun p hp => ?_⟩
    rcases g3 p (by rw [h2]; exact hp) with ⟨j, hj, ha, hq⟩ | ⟨hn, hq⟩
    · exact .inl ⟨j, List.mem_cons_of_mem i hj, ha, hq⟩
    · by_cases ha : At map packing i p
      · obtain ⟨us', u, e', hu, hpk⟩ := ha
        rw [hm] at e'
        obtain rfl := Option.some.inj e'
        exact .inl ⟨i, List.mem_cons_self, ⟨us, u, hm, hu, hpk⟩, by rw [hq, (h3 p).1 ⟨u, hu, hpk⟩]⟩
      · refine .inr ⟨?_, ?_⟩
        · rintro ⟨j, hj, h⟩
          rcases List.mem_cons.1 hj with rfl | hj
          · exact ha h
          · exact hn ⟨j, hj, h⟩
        · rw [hq, (h3 p).2 fun ⟨u, hu, hpk⟩ => ha ⟨us, u, hm, hu, hpk⟩]

/-- **C188, partial.** If the map has all vertices with influences, and the packing all new vertices, the mapping stays inside of the arrays, and there is one place for each packed index up to the largest one. Missing: vertices that no
polygon uses (`unused_vertex_violated`). -/
theorem apply_defined_partial (n : Nat) (map : Nat → Option (List Nat)) (packing : List Nat) (old : List (Option Nat)) (hc : Complete n map packing) :
    ∃ r, apply n map packing old = some r ∧ (∀ p ∈ packing, p ≠ unused → p < r.length) ∧ (0 < r.length - 1 → r.length - 1 ∈ packing) := by
  obtain ⟨r, h1, h2, _⟩ := steps hc (List.range n) (resized (largest packing + 1) old) (resized_length _ _) fun i hi => List.mem_range.1 hi
  rw [resized_length] at h2
  refine ⟨r, h1, fun p hp hu => by rw [h2]; exact Nat.lt_succ_of_le (le_largest hp hu), fun h => ?_⟩
  rw [h2, Nat.add_sub_cancel] at h ⊢
  rcases (largest_go packing 0).2.2 with e | e
  · exact absurd e (Nat.ne_of_gt h)
  · exact e.1

/-- **C188.** Each packed vertex gets the influences of the old vertex that it comes from, if it comes from only one. -/
theorem apply_influence (n : Nat) (map : Nat → Option (List Nat)) (packing : List Nat) (old r : List (Option Nat)) (hc : Complete n map packing) (h : apply n map packing old = some r) (i p : Nat) (hi : i < n) (ha : At map packing i p)
    (hone : ∀ j < n, At map packing j p → j = i) : r[p]? = some (some i) := by
  obtain ⟨r', h1, h2, h3⟩ := steps hc (List.range n) (resized (largest packing + 1) old) (resized_length _ _) fun i hi => List.mem_range.1 hi
  obtain rfl := Option.some.inj (h1.symm.trans h)
  have hp : p < (resized (largest packing + 1) old).length := by
    obtain ⟨us, u, _, _, hg, hu⟩ := ha
    rw [resized_length]
    exact Nat.lt_succ_of_le (le_largest (List.mem_of_getElem? hg) hu)
  rcases h3 p hp with ⟨j, hj, hja, e⟩ | ⟨hn, _⟩
  · rw [e, hone j (List.mem_range.1 hj) hja]
  · exact absurd ⟨i, List.mem_range.2 hi, ha⟩ hn

/-- **C188.** A place that no vertex has is left as it was: in a new array its pointer is not set. -/
theorem apply_other (n : Nat) (map : Nat → Option (List Nat)) (packing : List Nat) (r : List (Option Nat)) (hc : Complete n map packing) (h : apply n map packing [] = some r) (p : Nat) (hp : p < r.length)
    (hn : ¬ ∃ i < n, At map packing i p) : r[p]? = some none := by
  obtain ⟨r', h1, h2, h3⟩ := steps hc (List.range n) (resized (largest packing + 1) []) (resized_length _ _) fun i hi => List.mem_range.1 hi
  obtain rfl := Option.some.inj (h1.symm.trans h)
  rw [h2] at hp
  rcases h3 p hp with ⟨j, hj, hja, _⟩ | ⟨_, e⟩
  · exact absurd ⟨j, List.mem_range.1 hj, hja⟩ hn
  · rw [e]
    rw [resized_length] at hp
    unfold resized
    rw [List.take_nil, List.nil_append, List.getElem?_replicate, if_pos (by simpa using hp)]

/-! ## What does not hold -/

/-- **C188, violated.** A vertex with influences that is not in the map is read behind the end of the map. The map that the library makes has only the vertices that a polygon uses. -/
theorem unused_vertex_violated (n : Nat) (map : Nat → Option (List Nat)) (packing : List Nat) (old : List (Option Nat)) (i : Nat) (hi : i < n) (h : map i = none) : apply n map packing old = none := by
  unfold apply
  obtain ⟨a, b, e⟩ := List.append_of_mem (List.mem_range.2 hi)
  rw [e, List.foldlM_append]
  cases a.foldlM (placeAll map packing) (resized (largest packing + 1) old) with
  | none => rfl
  | some s =>
    show (i :: b).foldlM (placeAll map packing) s = none
    rw [List.foldlM_cons]
    unfold placeAll
    rw [h]
    rfl

/-- **C188, violated.** If no vertex is packed, there is still one place, and its pointer is not set. -/
theorem nothing_packed_violated : apply 2 (fun _ => some [0]) [unused] [] = some [none] := by decide +kernel

/-- A map with two new vertices for the second vertex; the packing leaves one of four out. -/
def exMap (i : Nat) : Option (List Nat) := [[0], [1, 3], [2]][i]?

example : apply 3 exMap [0, 2, unused, 1] [] = some [some 0, some 1, some 1] := by decide +kernel
example : Complete 3 exMap [0, 2, unused, 1] := by
  intro i hi
  match i, hi with
  | 0, _ => exact ⟨[0], rfl, by decide⟩
  | 1, _ => exact ⟨[1, 3], rfl, by decide⟩
  | 2, _ => exact ⟨[2], rfl, by decide⟩
example : At exMap [0, 2, unused, 1] 1 2 := ⟨[1, 3], 1, rfl, by decide, rfl, by decide⟩

end Verif.FInfl
