import Verif.UniqueAux
import Verif.UniqueLemmas

/-! # C21 and C22: unique names -/

namespace Verif.FUniq

open Verif.FStr (Ch)
open Verif.FConv (digit decVal IsDigit)

/-- The histories of a map used as the library does: `held` are the names handed out and not given back. A name is erased only by whoever
holds it. The second argument of `insert` records the hypothesis under which C21 is proved: nobody holds a name that ends in the number
2^32 - 2 (see `unique_names_violated`). -/
inductive Reach : Names → List (List Ch) → Prop
  | empty : Reach FTree.Map.empty []
  | insert {m held} (s : List Ch) {m' s'} : Reach m held → (∀ y ∈ held, number y ≠ 2 ^ 32 - 2) → insert m s = some (m', s') →
      Reach m' (s' :: held)
  | erase {m held} (s : List Ch) {m'} : Reach m held → s ∈ held → erase m s = some m' → Reach m' (held.erase s)

theorem reach_keeps {m : Names} {held : List (List Ch)} (h : Reach m held) :
    Keeps m (fun k => k ∈ held.map key) ∧ (held.map key).Nodup := by
  induction h with
  | empty => exact ⟨keeps_congr keeps_empty (by simp), by simp⟩
  | @insert m held s m' s' _ hno e ih =>
    obtain ⟨hk, hnd⟩ := ih
    obtain ⟨m2, s2, e2, hk2, hbase, h1, h2⟩ := insert_keeps hk (by
      intro k hm
      obtain ⟨y, _, rfl⟩ := List.mem_map.1 hm
      exact number_lt y) s
    rw [e] at e2
    simp only [Option.some.injEq, Prod.mk.injEq] at e2
    obtain ⟨rfl, rfl⟩ := e2
    refine ⟨keeps_congr hk2 (by simp), ?_⟩
    rw [List.map_cons, List.nodup_cons]
    refine ⟨?_, hnd⟩
    by_cases hs : key s ∈ held.map key
    · obtain ⟨n, hn, rfl, hmax, hlast⟩ := h2 hs
      rw [key_decimal _ (base_base s) n hn]
      intro hm
      rcases hmax n hm with rfl | h
      · rcases hlast with h | h
        · exact absurd h (by decide)
        · obtain ⟨y, hy, hk⟩ := List.mem_map.1 h
          exact hno y hy (congrArg Prod.snd hk)
      · omega
    · rw [h1 hs]; exact hs
  | @erase m held s m' _ hmem e ih =>
    obtain ⟨hk, hnd⟩ := ih
    obtain ⟨m2, e2, hk2⟩ := erase_keeps hk s
    rw [e] at e2
    obtain rfl := Option.some.inj e2
    have hnd' : held.Nodup := List.Nodup.of_map key hnd
    have hsub : ((held.erase s).map key).Nodup := hnd.sublist ((List.erase_sublist (a := s) (l := held)).map key)
    refine ⟨keeps_congr hk2 fun k => ?_, hsub⟩
    constructor
    · rintro ⟨hne, hk⟩
      obtain ⟨y, hy, rfl⟩ := List.mem_map.1 hk
      refine List.mem_map.2 ⟨y, (List.mem_erase_of_ne ?_).2 hy, rfl⟩
      rintro rfl; exact hne rfl
    · intro hk
      obtain ⟨y, hy, rfl⟩ := List.mem_map.1 hk
      have hy' := List.mem_of_mem_erase hy
      refine ⟨?_, List.mem_map.2 ⟨y, hy', rfl⟩⟩
      intro hkey
      have : y = s := List.inj_on_of_nodup_map hnd hy' hmem hkey
      subst this
      exact (List.Nodup.not_mem_erase hnd') hy

/-- **C21, partial.** In every history in which nobody comes to hold a name ending in the number 4294967294, the names held are pairwise
distinct; the next `insert` succeeds, gives the wanted name back unchanged if no held name has its key, keeps its base, and the name given
differs from every name held. Missing: histories with such a name, see `unique_names_violated`. -/
theorem unique_names_partial {m : Names} {held : List (List Ch)} (h : Reach m held) (hno : ∀ y ∈ held, number y ≠ 2 ^ 32 - 2)
    (s : List Ch) : held.Nodup ∧ ∃ m' s', insert m s = some (m', s') ∧ s' ∉ held ∧ base s' = base s ∧
      ((∀ y ∈ held, key y ≠ key s) → s' = s) ∧
      ((∃ y ∈ held, key y = key s) → ∃ n, n < 2 ^ 32 ∧ s' = base s ++ FBld.decimal n) := by
  obtain ⟨hk, hnd⟩ := reach_keeps h
  obtain ⟨m', s', e, _, hb, h1, h2⟩ := insert_keeps hk (by
    intro k hm
    obtain ⟨y, _, rfl⟩ := List.mem_map.1 hm
    exact number_lt y) s
  have := (reach_keeps (Reach.insert s h hno e)).2
  refine ⟨List.Nodup.of_map key hnd, m', s', e, ?_, hb, ?_, ?_⟩
  · intro hm
    rw [List.map_cons, List.nodup_cons] at this
    exact this.1 (List.mem_map.2 ⟨s', hm, rfl⟩)
  · intro hx
    apply h1
    intro hm
    obtain ⟨y, hy, hk⟩ := List.mem_map.1 hm
    exact hx y hy hk
  · rintro ⟨y, hy, hk⟩
    obtain ⟨n, hn, e, _⟩ := h2 (List.mem_map.2 ⟨y, hy, hk⟩)
    exact ⟨n, hn, e⟩

/-- `insert` of several names in a row, with the names given. -/
def inserts (m : Names) : List (List Ch) → Option (Names × List (List Ch))
  | [] => some (m, [])
  | s :: rest => (insert m s).bind fun r => (inserts r.1 rest).map fun q => (q.1, r.2 :: q.2)

-- "a", "a", "a", "a7", "a" become "a", "a1", "a2", "a7", "a8"
example : (inserts FTree.Map.empty [[97], [97], [97], [97, 55], [97]]).map Prod.snd =
    some [[97], [97, 49], [97, 50], [97, 55], [97, 56]] := by decide +kernel

/-- **C21, violated.** After "a4294967294" and "a", wanting "a" twice more gives "a4294967295" both times. -/
theorem unique_names_violated :
    (inserts FTree.Map.empty [[97] ++ FBld.decimal 4294967294, [97], [97], [97]]).map Prod.snd =
      some [[97] ++ FBld.decimal 4294967294, [97], [97] ++ FBld.decimal 4294967295, [97] ++ FBld.decimal 4294967295] := by decide +kernel

/-! ## C22 -/

/-- **C22, partial.** Whatever the history, `contains(x)` tells whether some held name has the key of `x` (same base, same number); so for
canonical names (no leading zeros, numbers below 2^32 - 1) it tells whether `x` is held, and after a holder gives back `x`, `x` is not
contained while every other held name still is. Missing: other names, see `contains_violated`. -/
theorem contains_erase_partial {m : Names} {held : List (List Ch)} (h : Reach m held) :
    (∀ x, ∃ b, contains m x = some b ∧ (b = true ↔ ∃ y ∈ held, key y = key x)) ∧
    ((∀ y ∈ held, Canonical y) → ∀ x, Canonical x → ∃ b, contains m x = some b ∧ (b = true ↔ x ∈ held)) ∧
    (∀ x ∈ held, ∃ m', erase m x = some m' ∧ contains m' x = some false ∧ ∀ y ∈ held, y ≠ x → contains m' y = some true) := by
  obtain ⟨hk, hnd⟩ := reach_keeps h
  have h1 : ∀ x, ∃ b, contains m x = some b ∧ (b = true ↔ ∃ y ∈ held, key y = key x) := by
    intro x
    obtain ⟨b, e, hb⟩ := contains_keeps hk x
    exact ⟨b, e, by rw [hb, List.mem_map]⟩
  refine ⟨h1, fun hc x hx => ?_, fun x hx => ?_⟩
  · obtain ⟨b, e, hb⟩ := h1 x
    refine ⟨b, e, hb.trans ⟨?_, fun h => ⟨x, h, rfl⟩⟩⟩
    rintro ⟨y, hy, hk⟩
    rwa [← key_injective (hc y hy) hx hk]
  · obtain ⟨m', e, hk'⟩ := erase_keeps hk x
    refine ⟨m', e, ?_, fun y hy hne => ?_⟩
    · obtain ⟨b, e, hb⟩ := contains_keeps hk' x
      rw [e]
      cases b
      · rfl
      · exact absurd rfl (hb.1 rfl).1
    · obtain ⟨b, e, hb⟩ := contains_keeps hk' y
      rw [e, hb.2 ⟨fun he => hne (List.inj_on_of_nodup_map hnd hy hx he), List.mem_map.2 ⟨y, hy, rfl⟩⟩]

-- "a", then "a" again which becomes "a1"; "a" is given back
example : ∃ m m', Reach m [[97, 49], [97]] ∧ Reach m' [[97, 49]] ∧ contains m' [97] = some false := by
  have h : ((inserts FTree.Map.empty [[97], [97]]).map Prod.snd) = some [[97], [97, 49]] := by decide +kernel
  cases e1 : insert FTree.Map.empty [97] with
  | none => simp [inserts, e1] at h
  | some r1 =>
    cases e2 : insert r1.1 [97] with
    | none => simp [inserts, e1, e2] at h
    | some r2 =>
      simp [inserts, e1, e2] at h
      obtain ⟨m1, s1⟩ := r1
      obtain ⟨m2, s2⟩ := r2
      simp only at h e2
      obtain ⟨rfl, rfl⟩ := h
      have r1 := Reach.insert [97] Reach.empty (by simp) e1
      have r2 := Reach.insert [97] r1 (by intro y hy; simp at hy; subst hy; decide +kernel) e2
      obtain ⟨m', e, hc, _⟩ := (contains_erase_partial r2).2.2 [97] (by simp)
      exact ⟨m2, m', r2, Reach.erase [97] r2 (by simp) e, hc⟩

/-- **C22, violated.** Names are identified by the value of their digits: with only "a01" in the map, "a1" and "a4294967297" are said to
be contained, and erasing "a1" removes "a01". -/
theorem contains_violated :
    (inserts FTree.Map.empty [[97, 48, 49]]).map Prod.snd = some [[97, 48, 49]] ∧
    (inserts FTree.Map.empty [[97, 48, 49]]).bind (fun r => contains r.1 [97, 49]) = some true ∧
    (inserts FTree.Map.empty [[97, 48, 49]]).bind (fun r => contains r.1 ([97] ++ FBld.decimal 4294967297)) = some true ∧
    (inserts FTree.Map.empty [[97, 48, 49]]).bind (fun r => (erase r.1 [97, 49]).bind fun m' => contains m' [97, 48, 49]) =
      some false := by decide +kernel

end Verif.FUniq
