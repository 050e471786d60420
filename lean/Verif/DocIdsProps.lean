import Verif.DocIdsAux
import Verif.DocIds
import Verif.UniqueProps
import Verif.XmlTextProps

/-!
# Object id properties (C28)
-/

namespace Verif.FIds

open Verif.FStr (Ch)
open Verif.FUniq (key number Keeps base)

/-- **C28, partial.** In every reachable document two different live objects that have been given ids hold different ids. Missing: ids
ending in 4294967294, and cloning into an object that has been given an id; see `ids_violated` and `unique_names_violated`. -/
theorem ids_unique_partial {d : Doc} (h : Reach d) {i j : Nat} {s t : List Ch} (hi : Holds d i s) (hj : Holds d j t) (hij : i ≠ j) : s ≠ t := by
  rintro rfl
  exact hij ((reach_inv h).inj i j s s hi hj rfl)

/-- **C28, partial.** Asking for the id of a live object, and setting it, always succeeds, gives it an id no other object holds, and
changes no other object. -/
theorem ids_given_partial {d : Doc} (h : Reach d) (hc : Calm d) (i : Nat) (o : Obj) (ho : d.obj i = some o) :
    (∃ d' s, getDaeId d i = some (d', s) ∧ Holds d' i s ∧ (o.unique = true → s = o.id) ∧ (∀ j, j ≠ i → d'.obj j = d.obj j) ∧
      ∀ j t, j ≠ i → Holds d' j t → t ≠ s) ∧
    ∀ id, 0 ∉ id → ∃ d' s, setDaeId d i id = some d' ∧ Holds d' i s ∧ (∀ j, j ≠ i → d'.obj j = d.obj j) ∧ ∀ j t, j ≠ i → Holds d' j t → t ≠ s := by
  constructor
  · obtain ⟨d', s, e, hi, hs, hoth, _⟩ := inv_get (reach_inv h) hc i o ho
    refine ⟨d', s, e, hs, fun hu => ?_, hoth, fun j t hj ht => ?_⟩
    · unfold getDaeId at e
      rw [ho, Option.bind_some, if_pos hu] at e
      simp only [Option.some.injEq, Prod.mk.injEq] at e
      exact e.2.symm
    · rintro rfl
      exact hj (hi.inj j i t t ht hs rfl)
  · intro id h0
    obtain ⟨d', s, e, hi, hs, hoth, _⟩ := inv_set (reach_inv h) hc i o ho id h0
    exact ⟨d', s, e, hs, hoth, fun j t hj ht => by rintro rfl; exact hj (hi.inj j i t t ht hs rfl)⟩

/-- **C28, C27.** The id given by `SetDaeId` to a non-empty wish is a valid identifier (but for its length). -/
theorem ids_valid {d : Doc} (h : Reach d) (hc : Calm d) (i : Nat) (o : Obj) (ho : d.obj i = some o) (id : List Ch) (h0 : 0 ∉ id) (hne : id ≠ []) :
    ∃ d' c s, setDaeId d i id = some d' ∧ Holds d' i (c :: s) ∧ FXml.startChar c = true ∧ ∀ x ∈ s, FXml.nameChar true x = true := by
  obtain ⟨d', s, e, _, hs, _, hf⟩ := inv_set (reach_inv h) hc i o ho id h0
  obtain ⟨c0, t0, rfl⟩ := List.exists_cons_of_ne_nil hne
  have hv := (FXml.clean_valid true (c0 :: t0)).1
  obtain ⟨c, r, hcr⟩ : ∃ c r, FXml.cleaned true (c0 :: t0) = c :: r := ⟨_, _, rfl⟩
  rw [hcr] at hf hv
  obtain ⟨hv1, hv2, _⟩ := hv
  rcases hf with rfl | ⟨n, rfl⟩
  · exact ⟨d', c, r, e, hs, hv1, hv2⟩
  · have hbase : ∃ q, base (c :: r) = c :: q ∧ ∀ x ∈ q, x ∈ r := by
      have hp : base (c :: r) <+: c :: r := List.rdropWhile_prefix _ _
      cases hb : base (c :: r) with
      | nil =>
        exfalso
        have hall := of_decide_eq_true (List.rdropWhile_eq_nil_iff.1 hb c (by simp))
        exact start_not_digit c hv1 hall
      | cons b q =>
        rw [hb] at hp
        obtain ⟨z, hz⟩ := hp
        rw [List.cons_append] at hz
        injection hz with h1 h2
        exact ⟨q, by rw [h1], fun x hx => by rw [← h2]; simp [hx]⟩
    obtain ⟨q, hq, hqr⟩ := hbase
    rw [hq] at hs
    refine ⟨d', c, q ++ FBld.decimal n, e, hs, hv1, fun x hx => ?_⟩
    rcases List.mem_append.1 hx with hx | hx
    · exact hv2 x (hqr x hx)
    · have hd := FConv.decimal_digits n x hx
      simp only [FConv.digit, Bool.and_eq_true, decide_eq_true_eq] at hd
      have h1 : (48 : Int) ≤ x := hd.1
      have h2 : (x : Int) ≤ 57 := hd.2
      simp only [FXml.nameChar, h1, h2, decide_true, Bool.and_self, Bool.or_true, Bool.true_or]

/-- An id given back can be taken again: after one object was destroyed, an object that asks for its id gets it. -/
theorem ids_reusable {d : Doc} (h : Reach d) {i k : Nat} {s : List Ch} (hi : Holds d i s) (o : Obj) (hk : d.obj k = some o) (hki : k ≠ i)
    (hu : o.unique = false) (ho : o.id = s) (hs : s ≠ []) :
    ∃ d1 d2, destroy d i = some d1 ∧ getDaeId d1 k = some (d2, s) := by
  have hinv := reach_inv h
  obtain ⟨d1, e1, hi1, hn, hoth⟩ := inv_destroy hinv i _ hi
  have hk1 : d1.obj k = some o := by rw [hoth k hki, hk]
  refine ⟨d1, ?_⟩
  obtain ⟨m', s', e, hkeep, hb, h1, _⟩ := FUniq.insert_keeps hi1.keeps inv_bound o.id
  have : s' = o.id := h1 (by
    rintro ⟨j, t, ht, hkey⟩
    have hj : j ≠ i := by rintro rfl; unfold Holds at ht; rw [hn] at ht; exact absurd ht (by simp)
    unfold Holds at ht
    rw [hoth j hj] at ht
    rw [ho] at hkey
    exact hj (hinv.inj j i t s ht hi hkey))
  refine ⟨⟨m', d1.put k (some ⟨s', true⟩)⟩, e1, ?_⟩
  unfold getDaeId
  rw [hk1, Option.bind_some, if_neg (by simp [hu]), if_neg (by rw [ho]; exact hs), e, Option.map_some, this, ho]

/-- Three objects asking for the same id, in a reachable document. -/
example : ((getDaeId (create (create ⟨FTree.Map.empty, []⟩ [97]) [97]) 0).bind fun r => (getDaeId r.1 1).map fun q => (r.2, q.2)) =
    some ([97], [97, 49]) := by decide +kernel

example : Reach (create (create ⟨FTree.Map.empty, []⟩ [97]) [97]) ∧ Calm (create (create ⟨FTree.Map.empty, []⟩ [97]) [97]) := by
  refine ⟨.create _ (.create _ .empty), ?_⟩
  intro i s h
  unfold Holds at h
  rw [obj_create, obj_create] at h
  split at h
  · simp at h
  · split at h
    · simp at h
    · simp [Doc.obj] at h

/-- **C28, violated.** An object cloned into one that has an id: the clone keeps its flag, takes the original's id, and the id is then
dropped from the name map, so the original is given the same id again. -/
theorem ids_violated :
    ((getDaeId (create (create ⟨FTree.Map.empty, []⟩ [97]) [98]) 0).bind fun r => (getDaeId r.1 1).bind fun q => (clone q.1 0 1).bind fun d =>
      (getDaeId d 0).bind fun x => (getDaeId x.1 1).map fun y => (x.2, y.2)) = some ([97], [97]) := by decide +kernel

/-- A second empty id is given the id "1", which is not a valid identifier. -/
theorem empty_id_violated :
    ((setDaeId (create (create ⟨FTree.Map.empty, []⟩ [97]) [98]) 0 []).bind fun d => (setDaeId d 1 []).bind fun d => d.obj 1) =
      some ⟨[49], true⟩ ∧ FXml.startChar 49 = false := by decide +kernel

end Verif.FIds
