import Verif.UnifyTerms
import Verif.UnifyInputs
import Verif.PolyProps

/-! # Lemmas for the properties in UnifyProps -/

namespace Verif.FUnify

open Verif.FPoly

variable {α : Type}

theorem good_sets {M : Mesh α} (h : Good M) : ∀ S ∈ M.sets, (∃ n, SetOk S n) ∧ S.srcs.length = S.polys.inputs.length := fun S hS =>
  ⟨⟨_, setOk_of (reach_inv (h.reach S hS)) (h.init S hS)⟩, (h.srcs S hS).1⟩

theorem newIndices_length : ∀ (sets : List MSet) (base : Nat), (newIndices sets base).length = sets.length := by
  intro sets
  induction sets with
  | nil => intro base; rfl
  | cons S sets ih => intro base; simp [newIndices, ih]

theorem newIndices_get : ∀ (sets : List MSet) (base p : Nat) (S : MSet), sets[p]? = some S →
    (newIndices sets base)[p]? = some ((cornerKeys S).map fun x => base + vertexCount (sets.take p) + (cornerKeys S).eraseDups.idxOf x) := by
  intro sets
  induction sets with
  | nil => intro base p S h; simp at h
  | cons T sets ih =>
    intro base p S h
    cases p with
    | zero =>
      simp at h
      subst h
      simp [newIndices, vertexCount]
    | succ p =>
      simp only [List.getElem?_cons_succ] at h
      simp only [newIndices, List.getElem?_cons_succ]
      rw [ih _ p S h]
      simp [vertexCount, Nat.add_assoc]

theorem vertexCount_lt : ∀ (sets : List MSet) (p : Nat) (S : MSet), sets[p]? = some S → vertexCount (sets.take p) + (cornerKeys S).eraseDups.length ≤ vertexCount sets := by
  intro sets
  induction sets with
  | nil => intro p S h; simp at h
  | cons T sets ih =>
    intro p S h
    cases p with
    | zero => simp at h; subst h; simp [vertexCount]
    | succ p =>
      have := ih p S (by simpa using h)
      simp only [vertexCount, List.take_succ_cons, List.map_cons, List.sum_cons] at this ⊢
      omega

theorem corner_pairs {M : Mesh α} (h : Good M) {d o j : Nat} : (o, j) ∈ allPairs M.sets d ↔ Corner M d o j := by
  constructor
  · intro hm
    obtain ⟨⟨S, B⟩, hz, hp⟩ := List.mem_flatMap.mp hm
    obtain ⟨p, hpz⟩ := List.getElem?_of_mem hz
    rw [List.getElem?_zip_eq_some] at hpz
    obtain ⟨z1, z2⟩ := hpz
    have hS := List.mem_of_getElem? z1
    obtain ⟨⟨n, hok⟩, hlen⟩ := good_sets h S hS
    rw [numPairs, pairs_init hok hlen d B] at hp
    obtain ⟨q, hq, e⟩ := List.mem_map.mp hp
    obtain ⟨r, hr, rfl⟩ := List.mem_map.mp hq
    have e : r = (o, j) := Prod.ext_iff.mpr (by simpa using e)
    subst e
    have hq' : (some o, j) ∈ indexPairs S d B := by rw [pairs_init hok hlen d B]; exact hq
    rw [indexPairs] at hq'
    cases hf : findInput S d with
    | none => rw [hf] at hq'; simp at hq'
    | some i =>
      rw [hf] at hq'
      obtain ⟨k, hk⟩ := List.getElem?_of_mem hq'
      rw [List.getElem?_zip_eq_some] at hk
      exact ⟨p, S, B, i, k, z1, z2, findInput_spec hf, hk.1, hk.2⟩
  · rintro ⟨p, S, B, i, k, h1, h2, h3, h4, h5⟩
    have hS := List.mem_of_getElem? h1
    refine List.mem_flatMap.mpr ⟨(S, B), List.mem_of_getElem? (i := p) (List.getElem?_zip_eq_some.mpr ⟨h1, h2⟩), ?_⟩
    rw [numPairs]
    refine List.mem_map.mpr ⟨(some o, j), ?_, rfl⟩
    rw [indexPairs, findInput_of (h.srcs S hS).2.1 h3]
    exact List.mem_of_getElem? (i := k) (List.getElem?_zip_eq_some.mpr ⟨h4, h5⟩)

theorem value_copied {s s' : Source α} (he : s'.stride = s.stride) {o j : Nat} (h : ∀ q, q < s.stride → s'.data[s.stride * j + q]? = s.data[s.stride * o + q]?) :
    value s' j = value s o := by
  apply List.ext_getElem?
  intro q
  simp only [value, List.getElem?_take, List.getElem?_drop, he]
  split
  · rename_i hq; exact h q hq
  · rfl

theorem sample_good : Good sample where
  prim := by decide
  reach := by
    intro S hS
    simp [sample] at hS
    rcases hS with rfl | rfl
    · exact reach_foldlM (ops := [Op.addInput 0, .addInput 1, .addFace 3, .addFace 3, .setIndices 0 ([0, 1, 2, 0, 2, 3].map some),
        .setIndices 1 ([0, 0, 0, 0, 1, 0].map some)]) .start (by decide)
    · exact reach_foldlM (ops := [Op.addInput 0, .addFace 3, .setIndices 0 ([0, 1, 0].map some)]) .start (by decide)
  init := by decide
  srcs := by decide
  stride := by decide
  count := by decide

end Verif.FUnify
