import Verif.PenumbraSpec
import Verif.CurveMultiProps
import Verif.CurveConvProps
import Mathlib.Algebra.Order.Archimedean.Basic

/-! # Lemmas on the penumbra of a light -/

namespace Verif.Penumbra

open Verif.Curve

variable {K : Type} [Field K] [LinearOrder K]

theorem setAngles_cone [IsStrictOrderedRing K] (l : Light K) (p : K) : setAngles l p = { l with fallOff := innerCone l.fallOff p, outer := outerCone l.fallOff p } := by
  rw [setAngles, innerCone, outerCone]
  by_cases h : p < 0
  · rw [if_pos h, min_eq_right (by linarith), max_eq_left (by linarith)]
    congr 1 <;> ring
  · rw [if_neg h, min_eq_left (by linarith), max_eq_right (by linarith)]

/-! ## Converted curves -/

omit [Field K] [LinearOrder K] in
theorem convertAll_spec (fs : List (K → K)) : ∀ (ids : List Nat) (heap : List (CurveData K)), ids.Nodup → (∀ i ∈ ids, i < heap.length) →
    ∃ h, convertAll fs heap ids = some h ∧ h.length = heap.length ∧ (∀ i ∉ ids, h[i]? = heap[i]?) ∧
      ∀ i ∈ ids, h[i]? = (heap[i]?).map fun c => { c with keys := fs.foldl (fun ks f => convertValues (some f) (some f) ks) c.keys } := by
  intro ids
  induction ids with
  | nil => intro heap _ _; exact ⟨heap, rfl, rfl, fun _ _ => rfl, fun _ h => nomatch h⟩
  | cons i is ih =>
    intro heap hd hb
    obtain ⟨h1, h2⟩ := List.nodup_cons.1 hd
    have hi := hb i (by simp)
    obtain ⟨h, e1, e2, e3, e4⟩ := ih (heap.set i { heap[i] with keys := fs.foldl (fun ks f => convertValues (some f) (some f) ks) heap[i].keys }) h2
      (fun j hj => by rw [List.length_set]; exact hb j (by simp [hj]))
    refine ⟨h, by rw [convertAll, List.getElem?_eq_getElem hi, Option.bind_some, e1], by rw [e2, List.length_set], ?_, ?_⟩
    · intro j hj
      rw [List.mem_cons, not_or] at hj
      rw [e3 j hj.2, List.getElem?_set_ne (Ne.symm hj.1)]
    · intro j hj
      rcases List.mem_cons.1 hj with rfl | hj
      · rw [e3 j h1, List.getElem?_set_self hi, List.getElem?_eq_getElem hi, Option.map_some]
      · rw [e4 j hj, List.getElem?_set_ne (fun e => h1 (by rw [e]; exact hj))]

/-! ## The keys of the angles -/

/-- The times, interpolations and values of a pair of keys. -/
def shape (q : Key K × Key K) : (K × Interp × K) × (K × Interp × K) := ((q.1.input, q.1.interp, q.1.output), (q.2.input, q.2.interp, q.2.output))

/-- The pair with the smaller value first. -/
def ordered (q : (K × Interp × K) × (K × Interp × K)) : (K × Interp × K) × (K × Interp × K) :=
  ((q.1.1, q.1.2.1, min q.1.2.2 q.2.2.2), (q.2.1, q.2.2.1, max q.1.2.2 q.2.2.2))

theorem anglesKeys_spec {k : MKey K} {q : Key K × Key K} (h : anglesKeys k = some q) :
    ∃ f p, k.dims[0]? = some f ∧ k.dims[1]? = some p ∧ shape q = ((k.input, k.interp, f.output), (k.input, k.interp, f.output + 2 * p.output)) := by
  rw [anglesKeys, Option.bind_eq_some_iff] at h
  obtain ⟨f, hf, h⟩ := h
  rw [Option.bind_eq_some_iff] at h
  obtain ⟨p, hp, h⟩ := h
  refine ⟨f, p, hf, hp, ?_⟩
  by_cases hb : k.interp = .bezier
  · rw [if_pos hb, Option.bind_eq_some_iff] at h
    obtain ⟨ft, _, h⟩ := h
    rw [Option.bind_eq_some_iff] at h
    obtain ⟨pt, _, h⟩ := h
    rw [Option.bind_eq_some_iff] at h
    obtain ⟨s1, _, h⟩ := h
    rw [Option.map_eq_some_iff] at h
    obtain ⟨s2, _, rfl⟩ := h
    simp [shape, hb]
  · rw [if_neg hb] at h
    cases h
    rfl

omit [Field K] [LinearOrder K] in
theorem shape_swapOut (q : Key K × Key K) : shape (swapOut q) = shape q := rfl

omit [Field K] [LinearOrder K] in
theorem shape_swapIn (q : Key K × Key K) : shape (swapIn q) = shape q := rfl

omit [Field K] in
theorem flipKeys_shape : ∀ (rest done : List (Key K × Key K)) (prevFlip : Bool),
    (flipKeys done prevFlip rest).map shape = done.reverse.map shape ++ rest.map (fun q => ordered (shape q)) := by
  intro rest
  induction rest with
  | nil => intro done _; simp [flipKeys]
  | cons q rest ih =>
    intro done prevFlip
    rw [flipKeys]
    by_cases h : q.2.output < q.1.output
    · have hq : shape (swapOutputs q) = ordered (shape q) := by
        simp [shape, swapOutputs, ordered, min_eq_right (le_of_lt h), max_eq_left (le_of_lt h)]
      rw [if_pos h]
      by_cases hb : q.1.interp = .bezier
      · rw [if_pos hb]
        rw [ih, List.reverse_cons, List.map_append, List.map_cons, List.map_nil, shape_swapIn, shape_swapOut, hq]
        have : (fixPrevious prevFlip done).map shape = done.map shape := by
          cases done with
          | nil => rfl
          | cons d ds =>
            rw [fixPrevious]
            split <;> simp [shape_swapOut]
        rw [List.map_reverse, this]
        simp
      · rw [if_neg hb, ih]
        simp [hq]
    · have hq : shape q = ordered (shape q) := by
        have h := not_lt.1 h
        simp [shape, ordered, min_eq_left h, max_eq_right h]
      rw [if_neg h]
      split
      · rw [ih, List.reverse_cons, List.map_append, List.map_cons, List.map_nil, shape_swapIn]
        simp [← hq]
      · rw [ih, List.reverse_cons, List.map_append, List.map_cons, List.map_nil]
        simp [← hq]

theorem mapM_shape : ∀ {ks : List (MKey K)} {pairs : List (Key K × Key K)}, ks.mapM anglesKeys = some pairs →
    List.Forall₂ (fun k q => anglesKeys k = some q) ks pairs := by
  intro ks
  induction ks with
  | nil =>
    intro pairs h
    simp at h
    subst h
    exact .nil
  | cons k ks ih =>
    intro pairs h
    rw [List.mapM_cons] at h
    simp only [Option.bind_eq_bind, Option.bind_eq_some_iff, Option.pure_def, Option.some.injEq] at h
    obtain ⟨q, h1, qs, h2, rfl⟩ := h
    exact .cons h1 (ih h2)

theorem mapM_some : ∀ {ks : List (MKey K)}, (∀ k ∈ ks, ∃ q, anglesKeys k = some q) → ∃ pairs, ks.mapM anglesKeys = some pairs := by
  intro ks
  induction ks with
  | nil => intro _; exact ⟨[], rfl⟩
  | cons k ks ih =>
    intro h
    obtain ⟨q, hq⟩ := h k (by simp)
    obtain ⟨qs, hqs⟩ := ih (fun j hj => h j (by simp [hj]))
    exact ⟨q :: qs, by rw [List.mapM_cons, hq]; simp [hqs]⟩

/-! ## Changes of sign -/

theorem zeroKey_spec {eval : K → Option K} {prev key : MKey K} {t : K} {z : Key K} (h : zeroKey eval prev key t = some z) : z.input = t ∧ z.output = 0 := by
  rw [zeroKey] at h
  split at h
  · simp only [Option.bind_eq_some_iff, Option.map_eq_some_iff] at h
    obtain ⟨_, _, _, _, _, _, _, _, rfl⟩ := h
    exact ⟨rfl, rfl⟩
  · split at h
    · exact nomatch h
    · cases h
      exact ⟨rfl, rfl⟩

omit [Field K] [LinearOrder K] in
theorem ZerosAdded.refl [Field K] : ∀ (a : List (Key K)), ZerosAdded a a
  | [] => .nil
  | k :: ks => .keep k (ZerosAdded.refl ks)

omit [LinearOrder K] in
theorem ZerosAdded.insert {a b : List (Key K)} (h : ZerosAdded a b) {z : Key K} (hz : z.output = 0) : ∀ (n : Nat), ZerosAdded a (b.insertIdx n z) := by
  induction h with
  | nil =>
    intro n
    cases n with
    | zero => exact .add z hz .nil
    | succ n => simp [ZerosAdded.nil]
  | keep k h ih =>
    intro n
    cases n with
    | zero => exact .add z hz (.keep k h)
    | succ n => exact .keep k (ih n)
  | add k hk h ih =>
    intro n
    cases n with
    | zero => exact .add z hz (.add k hk h)
    | succ n => exact .add k hk (ih n)

theorem ZerosAdded.addKey {a b : List (Key K)} (h : ZerosAdded a b) {z : Key K} (hz : z.output = 0) : ZerosAdded a (Curve.addKey b z).1 := h.insert hz _

theorem flipLoop_zeros {eval : K → Option K} {fuel : Nat} {a : List (Key K)} : ∀ (rest : List (MKey K)) (prev : MKey K) (neg wasZero : Bool) (outer : List (Key K)) {r : List (Key K) × Bool},
    flipLoop eval fuel prev neg wasZero rest outer = some r → ZerosAdded a outer → ZerosAdded a r.1 := by
  intro rest
  induction rest using List.twoStepInduction with
  | nil => intro prev neg wz outer r h ha; rw [flipLoop] at h; cases h; exact ha
  | singleton key =>
    intro prev neg wz outer r h ha
    rw [flipLoop, Option.bind_eq_some_iff] at h
    obtain ⟨y, _, h⟩ := h
    split at h
    · cases h; exact ha
    · split at h
      · cases h; exact ha
      · split at h
        · rw [Option.bind_eq_some_iff] at h
          obtain ⟨t, _, h⟩ := h
          rw [Option.map_eq_some_iff] at h
          obtain ⟨z, hz, rfl⟩ := h
          exact ha.addKey (zeroKey_spec hz).2
        · cases h; exact ha
  | cons_cons key next rest ih1 ih2 =>
    intro prev neg wz outer r h ha
    rw [flipLoop, Option.bind_eq_some_iff] at h
    obtain ⟨y, _, h⟩ := h
    split at h
    · rw [Option.bind_eq_some_iff] at h
      obtain ⟨y', _, h⟩ := h
      exact ih1 _ _ _ _ h ha
    · split at h
      · exact ih2 next _ _ _ _ h ha
      · split at h
        · rw [Option.bind_eq_some_iff] at h
          obtain ⟨t, _, h⟩ := h
          rw [Option.bind_eq_some_iff] at h
          obtain ⟨z, hz, h⟩ := h
          rw [Option.map_eq_some_iff] at h
          obtain ⟨s, hs, rfl⟩ := h
          have := ih2 next _ _ _ _ hs (ha.addKey (zeroKey_spec hz).2)
          exact this
        · exact ih2 next _ _ _ _ h ha

/-- The flag tells whether a key was added. -/
theorem flipLoop_false {eval : K → Option K} {fuel : Nat} : ∀ (rest : List (MKey K)) (prev : MKey K) (neg wasZero : Bool) (outer : List (Key K)) {r : List (Key K) × Bool},
    flipLoop eval fuel prev neg wasZero rest outer = some r → r.2 = false → r.1 = outer := by
  intro rest
  induction rest using List.twoStepInduction with
  | nil => intro prev neg wz outer r h _; rw [flipLoop] at h; cases h; rfl
  | singleton key =>
    intro prev neg wz outer r h hr
    rw [flipLoop, Option.bind_eq_some_iff] at h
    obtain ⟨y, _, h⟩ := h
    split at h
    · cases h; rfl
    · split at h
      · cases h; rfl
      · split at h
        · rw [Option.bind_eq_some_iff] at h
          obtain ⟨t, _, h⟩ := h
          rw [Option.map_eq_some_iff] at h
          obtain ⟨z, hz, rfl⟩ := h
          exact nomatch hr
        · cases h; rfl
  | cons_cons key next rest ih1 ih2 =>
    intro prev neg wz outer r h hr
    rw [flipLoop, Option.bind_eq_some_iff] at h
    obtain ⟨y, _, h⟩ := h
    split at h
    · rw [Option.bind_eq_some_iff] at h
      obtain ⟨y', _, h⟩ := h
      exact ih1 _ _ _ _ h hr
    · split at h
      · exact ih2 next _ _ _ _ h hr
      · split at h
        · rw [Option.bind_eq_some_iff] at h
          obtain ⟨t, _, h⟩ := h
          rw [Option.bind_eq_some_iff] at h
          obtain ⟨z, hz, h⟩ := h
          rw [Option.map_eq_some_iff] at h
          obtain ⟨s, hs, rfl⟩ := h
          exact nomatch hr
        · exact ih2 next _ _ _ _ h hr

/-- Without a change of sign no key is added. -/
theorem flipLoop_same [IsStrictOrderedRing K] {eval : K → Option K} {fuel : Nat} {s : Bool} : ∀ (rest : List (MKey K)) (prev : MKey K) (neg wasZero : Bool) (outer : List (Key K)),
    (∀ k ∈ rest, ∃ y, penumbraAt k = some y ∧ if s then y ≤ 0 else 0 ≤ y) → (if s then neg = true ∨ wasZero = true else neg = false) →
    flipLoop eval fuel prev neg wasZero rest outer = some (outer, false) := by
  have hclose : ∀ y : K, s = true → y ≤ 0 → decide (y < 0) = true ∨ close y 0 = true := by
    intro y _ hy
    rcases lt_or_eq_of_le hy with h | rfl
    · exact .inl (by simpa using h)
    · exact .inr (close_self 0)
  intro rest
  induction rest using List.twoStepInduction with
  | nil => intro prev neg wz outer _ _; rfl
  | singleton key =>
    intro prev neg wz outer h hn
    obtain ⟨y, hy, hs⟩ := h key (by simp)
    rw [flipLoop, hy, Option.bind_some]
    split
    · rfl
    · split
      · rfl
      · rename_i h1 h2
        rw [if_neg]
        cases s <;> simp_all
  | cons_cons key next rest ih1 ih2 =>
    intro prev neg wz outer h hn
    obtain ⟨y, hy, hs⟩ := h key (by simp)
    rw [flipLoop, hy, Option.bind_some]
    split
    · obtain ⟨y', hy', hs'⟩ := h next (by simp)
      rw [hy', Option.bind_some]
      refine ih1 _ _ _ _ (fun k hk => h k (by simp [hk])) ?_
      cases s
      · simpa using hs'
      · simpa using hclose y' rfl (by simpa using hs')
    · rename_i h1
      split
      · refine ih2 next _ _ _ _ (fun k hk => h k (List.mem_cons_of_mem _ hk)) ?_
        cases s
        · simpa using hs
        · have := hclose y rfl (by simpa using hs)
          simp_all
      · rename_i h2
        rw [if_neg]
        · refine ih2 next _ _ _ _ (fun k hk => h k (List.mem_cons_of_mem _ hk)) ?_
          cases s <;> simp_all
        · cases s <;> simp_all

end Verif.Penumbra
