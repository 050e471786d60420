import Verif.HullSpec

/-! Lemmas for `HullProps.lean`. -/

namespace Verif.FHull

open Verif.FEff (Text)

variable {D : Type}

theorem find_ids {a b : List (Geo D)} (h : a.map (·.1) = b.map (·.1)) (id : Text) : findGeo a id = findGeo b id := by
  have e : ∀ l : List (Geo D), findGeo l id = (l.map (·.1)).findIdx? fun t => decide (t = id) := by
    intro l
    unfold findGeo
    rw [List.findIdx?_map]
    rfl
  rw [e, e, h]

theorem mesh_entry {lib : List (Geo D)} {i : Nat} {m : HMesh D} (h : meshAt lib i = some m) : ∃ id, lib[i]? = some (id, some m) := by
  unfold meshAt at h
  obtain ⟨⟨id, o⟩, h1, h2⟩ := Option.bind_eq_some_iff.1 h
  exact ⟨id, by rw [h1, show o = some m from h2]⟩

theorem mesh_of_entry {lib : List (Geo D)} {i : Nat} {id : Text} {m : HMesh D} (h : lib[i]? = some (id, some m)) : meshAt lib i = some m := by
  unfold meshAt
  rw [h]
  rfl

/-- What a step does: it changes only the mesh at its place. -/
theorem link_step {lib lib' : List (Geo D)} {i : Nat} {e : Bool} (h : linkMesh lib i = some (lib', e)) : lib'.map (·.1) = lib.map (·.1) ∧ ∀ k, k ≠ i → lib'[k]? = lib[k]? := by
  unfold linkMesh at h
  split at h
  · rename_i id m hi
    split at h
    · cases h; exact ⟨rfl, fun _ _ => rfl⟩
    · split at h
      · cases h; exact ⟨rfl, fun _ _ => rfl⟩
      · split at h
        · cases h; exact ⟨rfl, fun _ _ => rfl⟩
        · obtain ⟨c, -, hc⟩ := Option.map_eq_some_iff.1 h
          obtain ⟨rfl, -⟩ := Prod.mk.inj hc
          refine ⟨?_, fun k hk => by rw [List.getElem?_set_ne (Ne.symm hk)]⟩
          rw [List.map_set]
          apply List.ext_getElem?
          intro k
          by_cases hk : k = i
          · subst hk
            rw [List.getElem?_set_self (by rw [List.length_map]; exact (List.getElem?_eq_some_iff.1 hi).1), List.getElem?_map, hi]
            rfl
          · rw [List.getElem?_set_ne (Ne.symm hk)]
  · cases h; exact ⟨rfl, fun _ _ => rfl⟩

/-- A mesh that is not made from another is left as it is. -/
theorem link_plain {lib lib' : List (Geo D)} {i j : Nat} {e : Bool} {o : HMesh D} (h : linkMesh lib i = some (lib', e)) (hj : meshAt lib j = some o) (ho : o.convex = false ∨ o.hull = []) : meshAt lib' j = some o := by
  by_cases hk : j = i
  · subst hk
    obtain ⟨id, hid⟩ := mesh_entry hj
    unfold linkMesh at h
    rw [hid] at h
    simp only [if_pos ho] at h
    cases h
    exact hj
  · unfold meshAt
    rw [(link_step h).2 j hk]
    exact hj

theorem from_step {i n : Nat} {lib lib' : List (Geo D)} {e : Nat} (h : linkFrom i (n + 1) lib = some (lib', e)) : ∃ l b q, linkMesh lib i = some (l, b) ∧ linkFrom (i + 1) n l = some (lib', q) ∧ e = q + if b then 1 else 0 := by
  unfold linkFrom at h
  obtain ⟨⟨l, b⟩, h1, h2⟩ := Option.bind_eq_some_iff.1 h
  obtain ⟨⟨l', q⟩, h3, h4⟩ := Option.map_eq_some_iff.1 h2
  obtain ⟨rfl, rfl⟩ := Prod.mk.inj h4
  exact ⟨l, b, q, h1, h3, rfl⟩

theorem from_before : ∀ (n i : Nat) {lib lib' : List (Geo D)} {e : Nat}, linkFrom i n lib = some (lib', e) → ∀ k < i, lib'[k]? = lib[k]?
  | 0, i, lib, lib', e, h, k, _ => by cases h; rfl
  | n + 1, i, lib, lib', e, h, k, hk => by
    obtain ⟨l, b, q, h1, h2, -⟩ := from_step h
    rw [from_before n (i + 1) h2 k (by omega), (link_step h1).2 k (by omega)]

theorem from_plain : ∀ (n i : Nat) {lib lib' : List (Geo D)} {e j : Nat} {o : HMesh D}, linkFrom i n lib = some (lib', e) → meshAt lib j = some o → (o.convex = false ∨ o.hull = []) → meshAt lib' j = some o
  | 0, i, lib, lib', e, j, o, h, hj, _ => by cases h; exact hj
  | n + 1, i, lib, lib', e, j, o, h, hj, ho => by
    obtain ⟨l, b, q, h1, h2, -⟩ := from_step h
    exact from_plain n (i + 1) h2 (link_plain h1 hj ho) ho

theorem from_ids : ∀ (n i : Nat) {lib lib' : List (Geo D)} {e : Nat}, linkFrom i n lib = some (lib', e) → lib'.map (·.1) = lib.map (·.1)
  | 0, i, lib, lib', e, h => by cases h; rfl
  | n + 1, i, lib, lib', e, h => by
    obtain ⟨l, b, q, h1, h2, -⟩ := from_step h
    rw [from_ids n (i + 1) h2, (link_step h1).1]

/-- One mesh is made from one that is plain. -/
theorem link_made {lib lib' : List (Geo D)} {i j : Nat} {e : Bool} {m o : HMesh D} (h : linkMesh lib i = some (lib', e)) (hm : meshAt lib i = some m) (hc : m.convex = true) (hh : m.hull ≠ [])
    (hf : findGeo lib m.hull = some j) (ho : meshAt lib j = some o) : meshAt lib' i = some ⟨o.hull, true, true, m.data ++ o.data⟩ ∧ e = false := by
  obtain ⟨id, hid⟩ := mesh_entry hm
  unfold linkMesh at h
  rw [hid] at h
  simp only [if_neg (show ¬ (m.convex = false ∨ m.hull = []) by rw [hc]; simpa using hh), hf, ho] at h
  obtain ⟨c, h1, h2⟩ := Option.map_eq_some_iff.1 h
  obtain ⟨rfl, rfl⟩ := Prod.mk.inj h2
  unfold cloneInto at h1
  split at h1
  · cases h1
  · cases h1
    refine ⟨?_, rfl⟩
    unfold meshAt
    rw [List.getElem?_set_self (List.getElem?_eq_some_iff.1 hid).1]
    rfl

theorem from_made : ∀ (n k : Nat) {lib lib' : List (Geo D)} {e i j : Nat} {m o : HMesh D}, linkFrom k n lib = some (lib', e) → k ≤ i → i < k + n → meshAt lib i = some m → m.convex = true → m.hull ≠ [] →
    findGeo lib m.hull = some j → meshAt lib j = some o → o.hull = [] → meshAt lib' i = some ⟨[], true, true, m.data ++ o.data⟩
  | 0, k, lib, lib', e, i, j, m, o, h, h1, h2, hm, hc, hh, hf, ho, h0 => by omega
  | n + 1, k, lib, lib', e, i, j, m, o, h, h1, h2, hm, hc, hh, hf, ho, h0 => by
    obtain ⟨l, b, q, a1, a2, -⟩ := from_step h
    by_cases hk : k = i
    · subst hk
      have r := (link_made a1 hm hc hh hf ho).1
      rw [h0] at r
      exact from_plain n (k + 1) a2 r (Or.inr rfl)
    · refine from_made n (k + 1) a2 (by omega) (by omega) (m := m) ?_ hc hh ?_ (link_plain a1 ho (Or.inr h0)) h0
      · unfold meshAt
        rw [(link_step a1).2 i (by omega)]
        exact hm
      · rw [find_ids (link_step a1).1]
        exact hf

theorem link_some {lib : List (Geo D)} {i : Nat} (h : ∀ m, meshAt lib i = some m → m.hull ≠ [] → m.convex = true → m.data = []) : ∃ l b, linkMesh lib i = some (l, b) := by
  unfold linkMesh
  split
  · rename_i id m hi
    split
    · exact ⟨_, _, rfl⟩
    · rename_i hc
      split
      · exact ⟨_, _, rfl⟩
      · rename_i j hj
        split
        · exact ⟨_, _, rfl⟩
        · rename_i o ho
          unfold cloneInto
          by_cases hs : decide (j = i) = true ∧ o.data ≠ []
          · exfalso
            obtain rfl := of_decide_eq_true hs.1
            have e := mesh_of_entry hi
            obtain rfl := Option.some.inj (e.symm.trans ho)
            rw [not_or] at hc
            exact hs.2 (h m e hc.2 (by simpa using hc.1))
          · rw [if_neg hs]
            exact ⟨_, _, rfl⟩
  · exact ⟨_, _, rfl⟩

theorem from_some : ∀ (n k : Nat) {lib : List (Geo D)}, (∀ i, k ≤ i → ∀ m, meshAt lib i = some m → m.hull ≠ [] → m.convex = true → m.data = []) → ∃ lib' e, linkFrom k n lib = some (lib', e)
  | 0, k, lib, h => ⟨_, _, rfl⟩
  | n + 1, k, lib, h => by
    obtain ⟨l, b, h1⟩ := link_some (h k (Nat.le_refl _))
    obtain ⟨l', e, h2⟩ := from_some n (k + 1) (lib := l) (by
      intro i hi m hm
      unfold meshAt at hm
      rw [(link_step h1).2 i (by omega)] at hm
      exact h i (by omega) m hm)
    unfold linkFrom
    rw [h1, Option.bind_some, h2]
    exact ⟨_, _, rfl⟩

end Verif.FHull
