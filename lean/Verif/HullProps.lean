import Verif.HullLemmas

/-!
# C180: convex hulls are made from the mesh they name

Wanted: after loading, a convex mesh that names another geometry has what that geometry's mesh has, and remembers which it is; the search for the mesh a hull is made of finds it.
-/

namespace Verif.FHull

open Verif.FEff (Text text)

variable {D : Type}

/-- **C180.** Linking is defined for every library in which convex meshes that name a geometry are empty, as they are after loading (C147). -/
theorem hull_link_defined (lib : List (Geo D)) (h : ∀ i m, meshAt lib i = some m → m.hull ≠ [] → m.convex = true → m.data = []) : ∃ lib' e, linkAll lib = some (lib', e) :=
  from_some _ 0 fun i _ => h i

/-- **C180.** A mesh that is not convex, or names no geometry, is left as it is, and no geometry changes its id or place. -/
theorem hull_others_kept (lib lib' : List (Geo D)) (e : Nat) (h : linkAll lib = some (lib', e)) :
    lib'.map (·.1) = lib.map (·.1) ∧ ∀ i o, meshAt lib i = some o → (o.convex = false ∨ o.hull = []) → meshAt lib' i = some o :=
  ⟨from_ids _ _ h, fun _ _ hi ho => from_plain _ _ h hi ho⟩

/-- **C180, partial.** A convex mesh that names a geometry with a plain mesh has, after linking, what that mesh has, is convex and flagged to be made convex, wherever the two are in the library. Missing: that it still names the
geometry (`hull_forgotten_violated`), hulls of hulls (`hull_order_violated`), names with `#` (`hull_hash_violated`). -/
theorem hull_linked_partial (lib lib' : List (Geo D)) (e i j : Nat) (m o : HMesh D) (h : linkAll lib = some (lib', e)) (hm : meshAt lib i = some m) (hc : m.convex = true) (hh : m.hull ≠ []) (h0 : m.data = [])
    (hf : findGeo lib m.hull = some j) (ho : meshAt lib j = some o) (hp : o.hull = []) :
    ∃ r, meshAt lib' i = some r ∧ r.data = o.data ∧ r.convex = true ∧ r.convexify = true ∧ meshAt lib' j = some o := by
  obtain ⟨id, hid⟩ := mesh_entry hm
  refine ⟨_, from_made lib.length 0 h (Nat.zero_le _) (by have := (List.getElem?_eq_some_iff.1 hid).1; omega) hm hc hh hf ho hp, ?_, rfl, rfl, from_plain _ _ h ho (Or.inr hp)⟩
  rw [h0]
  rfl

/-- **C180.** The search gives the origin of a hull, if there is one. -/
theorem hull_found (lib : List (Geo D)) (i : Nat) (r : Option (HMesh D)) (h : Origin lib i r) : ∃ N, ∀ n ≥ N, findHull lib n (meshAt lib i) = some r := by
  induction h with
  | @plain i m h1 h2 =>
    refine ⟨1, fun n hn => ?_⟩
    obtain ⟨k, rfl⟩ : ∃ k, n = k + 1 := ⟨n - 1, by omega⟩
    rw [h1, findHull, if_pos h2]
  | @unknown i m h1 h2 h3 =>
    refine ⟨1, fun n hn => ?_⟩
    obtain ⟨k, rfl⟩ : ∃ k, n = k + 1 := ⟨n - 1, by omega⟩
    rw [h1, findHull, if_neg h2, h3]
  | @noMesh i h1 =>
    refine ⟨1, fun n hn => ?_⟩
    obtain ⟨k, rfl⟩ : ∃ k, n = k + 1 := ⟨n - 1, by omega⟩
    rw [h1, findHull]
  | @step i j r h1 h2 ih =>
    obtain ⟨N, hN⟩ := ih
    obtain ⟨m, a1, a2, a3⟩ := h1
    refine ⟨N + 1, fun n hn => ?_⟩
    obtain ⟨k, rfl⟩ : ∃ k, n = k + 1 := ⟨n - 1, by omega⟩
    rw [a1, findHull, if_neg a2, a3]
    exact hN k (by omega)

/-- **C180.** There is an origin, if no mesh is made from itself through others: `rk` decreases from each to the one it is made from. The origin is a plain mesh, or none. -/
theorem hull_origin (lib : List (Geo D)) (rk : Nat → Nat) (h : ∀ i j, Needs lib i j → rk j < rk i) (i : Nat) : ∃ r, Origin lib i r ∧ ∀ m, r = some m → m.hull = [] := by
  generalize hk : rk i = k
  induction k using Nat.strongRecOn generalizing i with
  | _ k ih =>
    cases hm : meshAt lib i with
    | none => exact ⟨none, .noMesh hm, fun _ e => by cases e⟩
    | some m =>
      by_cases h0 : m.hull = []
      · exact ⟨some m, .plain hm h0, fun _ e => by cases e; exact h0⟩
      · cases hf : findGeo lib m.hull with
        | none => exact ⟨none, .unknown hm h0 hf, fun _ e => by cases e⟩
        | some j =>
          have hn : Needs lib i j := ⟨m, hm, h0, hf⟩
          obtain ⟨r, h1, h2⟩ := ih (rk j) (by rw [← hk]; exact h i j hn) j rfl
          exact ⟨r, .step hn h1, h2⟩

/-- Three geometries: a plain mesh, its hull, and the hull of that. -/
def hullSample : List (Geo Nat) := [(text "h", some { hull := text "g", convex := true }), (text "g", some { data := [7, 8] }), (text "k", some { hull := text "h", convex := true })]

example : (∀ i m, meshAt hullSample i = some m → m.hull ≠ [] → m.convex = true → m.data = []) ∧ findGeo hullSample (text "g") = some 1 ∧ (∀ i j, Needs hullSample i j → ([1, 0, 2][j]?).getD 0 < ([1, 0, 2][i]?).getD 0) := by
  refine ⟨?_, by decide +kernel, ?_⟩
  · intro i m h
    match i, h with
    | 0, h => cases h; decide +kernel
    | 1, h => cases h; decide +kernel
    | 2, h => cases h; decide +kernel
    | _ + 3, h => cases h
  · rintro i j ⟨m, h, h0, hf⟩
    match i, h with
    | 0, h => cases h; cases (show findGeo hullSample (text "g") = some 1 by decide +kernel).symm.trans hf; decide
    | 1, h => cases h; exact absurd rfl h0
    | 2, h => cases h; cases (show findGeo hullSample (text "h") = some 0 by decide +kernel).symm.trans hf; decide
    | _ + 3, h => cases h

/-! ## What does not hold -/

/-- **C180, violated.** After linking, a hull no longer names the geometry it is made from: it is written as a plain mesh (C147), and the search gives the hull itself. -/
theorem hull_forgotten_violated (lib lib' : List (Geo D)) (e i j : Nat) (m o : HMesh D) (h : linkAll lib = some (lib', e)) (hm : meshAt lib i = some m) (hc : m.convex = true) (hh : m.hull ≠ [])
    (hf : findGeo lib m.hull = some j) (ho : meshAt lib j = some o) (hp : o.hull = []) : ∃ r, meshAt lib' i = some r ∧ r.hull = [] ∧ ∀ n, findHull lib' (n + 1) (meshAt lib' i) = some (some r) := by
  obtain ⟨id, hid⟩ := mesh_entry hm
  have a := from_made lib.length 0 h (Nat.zero_le _) (by have := (List.getElem?_eq_some_iff.1 hid).1; omega) hm hc hh hf ho hp
  refine ⟨_, a, rfl, fun n => ?_⟩
  rw [a, findHull, if_pos rfl]

/-- What the meshes of a library have after linking. -/
def linkedData (lib : List (Geo Nat)) : Option (List (List Nat)) := (linkAll lib).map fun r => r.1.map fun g => (g.2.map (·.data)).getD []

/-- **C180, violated.** The hull of a hull has what it should only if it comes after it in the library. -/
theorem hull_order_violated : linkedData [(text "g", some { data := [7, 8] }), (text "h", some { hull := text "g", convex := true }), (text "k", some { hull := text "h", convex := true })] = some [[7, 8], [7, 8], [7, 8]] ∧
    linkedData [(text "g", some { data := [7, 8] }), (text "k", some { hull := text "h", convex := true }), (text "h", some { hull := text "g", convex := true })] = some [[7, 8], [], [7, 8]] := by decide +kernel

/-- **C180, violated.** A name that begins with `#`, as references in files do, is not found: the hull stays empty, and the error does not make the loading fail. -/
theorem hull_hash_violated (lib lib' : List (Geo D)) (i : Nat) (m : HMesh D) (b : Bool) (g : Text) (hm : meshAt lib i = some m) (hc : m.convex = true) (hh : m.hull = 35 :: g) (hi : ∀ x ∈ lib, x.1.head? ≠ some 35)
    (h : linkMesh lib i = some (lib', b)) : lib' = lib ∧ b = true := by
  obtain ⟨id, hid⟩ := mesh_entry hm
  have hf : findGeo lib m.hull = none := by
    unfold findGeo
    rw [List.findIdx?_eq_none_iff]
    intro x hx
    simp only [decide_eq_false_iff_not]
    intro e
    exact hi x hx (by rw [e, hh]; rfl)
  unfold linkMesh at h
  rw [hid] at h
  simp only [if_neg (show ¬ (m.convex = false ∨ m.hull = []) by rw [hc, hh]; simp), hf] at h
  obtain ⟨rfl, rfl⟩ := Prod.mk.inj (Option.some.inj h)
  exact ⟨rfl, rfl⟩

example : (linkMesh [(text "g", some { data := [7] }), (text "h", some { hull := text "#g", convex := true })] 1).map (·.2) = some true := by decide +kernel

/-- **C180, violated.** The search does not end for meshes that are made from each other in a circle: `S` are the places of such. -/
theorem hull_circle_violated (lib : List (Geo D)) (S : Nat → Prop) (h : ∀ i, S i → ∃ j, Needs lib i j ∧ S j) (i : Nat) (hi : S i) : ∀ n, findHull lib n (meshAt lib i) = none := by
  intro n
  induction n generalizing i with
  | zero => rfl
  | succ n ih =>
    obtain ⟨j, ⟨m, h1, h2, h3⟩, hj⟩ := h i hi
    rw [h1, findHull, if_neg h2, h3]
    exact ih j hj

example : Needs [((text "g", some { hull := text "h" }) : Geo Nat), (text "h", some { hull := text "g" })] 0 1 ∧ Needs [((text "g", some { hull := text "h" }) : Geo Nat), (text "h", some { hull := text "g" })] 1 0 :=
  ⟨⟨_, rfl, by decide +kernel, by decide +kernel⟩, ⟨_, rfl, by decide +kernel, by decide +kernel⟩⟩

end Verif.FHull
