import Verif.PenumbraAux
import Verif.PenumbraLinear
import Mathlib.Algebra.Order.Field.Rat
import Mathlib.Data.Rat.Floor

/-! # C140, C141: the penumbra of a light -/

namespace Verif.Penumbra

open Verif.Curve

variable {K : Type} [Field K] [LinearOrder K] [IsStrictOrderedRing K] [FloorRing K]

/-- C140: whatever is animated, the angles of the light become the cones for its fall-off angle and the penumbra: with a positive penumbra the outer angle is wider than the
fall-off angle by twice the penumbra, with a negative one the outer angle is the old fall-off angle, and the new one is narrower. -/
theorem angles {twoD : Bool} {n fuel : Nat} {heap : List (CurveData K)} {l : Light K} {p : K} {pen : Option (List Nat)} {create : Bool} {r : List (CurveData K) × Light K}
    (h : loadPenumbra twoD n fuel heap l p pen create = some r) : r.2.fallOff = innerCone l.fallOff p ∧ r.2.outer = outerCone l.fallOff p := by
  rw [loadPenumbra, prepared] at h
  simp only at h
  split at h
  · cases h; exact ⟨rfl, rfl⟩
  · rw [onlyFallOff] at h
    simp only at h
    split at h <;>
    · rw [Option.map_eq_some_iff] at h
      obtain ⟨_, _, rfl⟩ := h
      exact ⟨rfl, rfl⟩
  · rw [Option.bind_eq_some_iff] at h
    obtain ⟨o, _, h⟩ := h
    split at h
    · rw [Option.bind_eq_some_iff] at h
      obtain ⟨z, hz, h⟩ := h
      rw [bothCurves_light h]
      rw [fallOffCurve] at hz
      split at hz
      · exact nomatch hz
      · simp only [Option.bind_eq_some_iff, Option.map_eq_some_iff] at hz
        obtain ⟨_, _, _, _, rfl⟩ := hz
        exact ⟨rfl, rfl⟩
    · rw [onlyPenumbra, Option.map_eq_some_iff] at h
      obtain ⟨_, _, rfl⟩ := h
      exact ⟨rfl, rfl⟩
  · split at h
    · exact nomatch h
    · rw [bothCurves_light h]
      exact ⟨rfl, rfl⟩

/-- C140: without an animation nothing else changes. -/
theorem not_animated (twoD : Bool) (n fuel : Nat) (heap : List (CurveData K)) {l : Light K} (p : K) {pen : Option (List Nat)} (create : Bool) (hf : l.fallOffCurves = [])
    (hp : penumbraCurves l pen = []) :
    loadPenumbra twoD n fuel heap l p pen create = some (heap, ⟨innerCone l.fallOff p, outerCone l.fallOff p, [], []⟩) := by
  rw [loadPenumbra, prepared]
  simp only [hf, hp]

/-- C140, for a penumbra with an animation without negative values, on a light whose fall-off angle has none: at each time, the outer angle is the fall-off angle and twice the
penumbra. Missing: what is missing for the conversion of values (C126), and values between the keys that are negative. -/
theorem penumbra_animated_partial (twoD : Bool) (n fuel : Nat) {heap : List (CurveData K)} {l : Light K} {p : K} {pen : Option (List Nat)} (create : Bool) {j : Nat} {js : List Nat}
    {o : CurveData K} (hf : l.fallOffCurves = []) (hp : penumbraCurves l pen = j :: js) (hd : (j :: js).Nodup) (hb : ∀ i ∈ j :: js, i < heap.length) (ho : heap[j]? = some o)
    (hk : o.keys ≠ []) (hpos : 0 ≤ p) (hneg : ∀ k ∈ o.keys, 0 ≤ k.output) (h1 : twoD = false → ∀ k ∈ o.keys, k.interp ≠ .bezier) (h2 : twoD = true → NoTcbPair o.keys) :
    ∃ heap' l' o', loadPenumbra twoD n fuel heap l p pen create = some (heap', l') ∧ l'.fallOff = l.fallOff ∧ l'.fallOffCurves = [] ∧ l'.outerCurves = j :: js ∧
      heap'[j]? = some o' ∧ ∀ x, sample twoD n o' x = (sample twoD n o x).map fun v => l.fallOff + 2 * v := by
  have hin : innerCone l.fallOff p = l.fallOff := min_eq_left (by linarith)
  have hno : hasNegative p o.keys = false := by
    simp only [hasNegative, Bool.or_eq_false_iff, decide_eq_false_iff_not, not_lt, List.any_eq_false]
    exact ⟨hpos, fun k hk => by simpa using hneg k hk⟩
  obtain ⟨h, e1, -, -, e4⟩ := convertAll_spec [fun y => y * 2, fun y => y + l.fallOff] (j :: js) heap hd hb
  refine ⟨h, ⟨l.fallOff, outerCone l.fallOff p, [], j :: js⟩, _, ?_, rfl, rfl, rfl, by rw [e4 j (by simp), ho, Option.map_some], ?_⟩
  · rw [loadPenumbra, prepared]
    simp only [hf, hp]
    rw [ho, Option.bind_some, hno, if_neg (by decide), onlyPenumbra]
    simp only
    rw [hin, e1, Option.map_some]
  · intro x
    simp only [sample]
    rw [scale_offset, values_partial twoD n o.pre o.post o.keys 2 l.fallOff (.inl hk) (fun h => .inr (h1 h)) h2 x]
    congr 1
    funext v
    ring

/-- C140 does not hold for a fall-off angle with an animation and a penumbra without one: the two angles share the animation, so that they are the same at each time, whatever the
penumbra. -/
theorem shared_animation_violated (twoD : Bool) (n fuel : Nat) {heap : List (CurveData K)} {l : Light K} (p : K) {pen : Option (List Nat)} (create : Bool)
    (hf : l.fallOffCurves ≠ []) (hp : penumbraCurves l pen = []) (hd : l.fallOffCurves.Nodup) (hb : ∀ i ∈ l.fallOffCurves, i < heap.length) :
    ∃ heap' l', loadPenumbra twoD n fuel heap l p pen create = some (heap', l') ∧ l'.outerCurves = l'.fallOffCurves ∧ l'.fallOffCurves = l.fallOffCurves := by
  obtain ⟨i, is, hi⟩ := List.exists_cons_of_ne_nil hf
  rw [loadPenumbra, prepared]
  simp only [hp]
  rw [hi] at hd hb ⊢
  simp only
  rw [onlyFallOff]
  simp only
  split
  · obtain ⟨h, e1, -⟩ := convertAll_spec [fun y => y + -2 * -p] (i :: is) heap hd hb
    rw [e1]
    exact ⟨_, _, rfl, rfl, rfl⟩
  · obtain ⟨h, e1, -⟩ := convertAll_spec [fun y => y + 2 * p] (i :: is) heap hd hb
    rw [e1]
    exact ⟨_, _, rfl, rfl, rfl⟩

/-- C140, for a fall-off angle with an animation and no penumbra: both angles have the animation of the fall-off angle. Missing: any penumbra. -/
theorem shared_animation_partial (twoD : Bool) (n fuel : Nat) {heap : List (CurveData K)} {l : Light K} {pen : Option (List Nat)} (create : Bool) {i : Nat} {is : List Nat}
    {f : CurveData K} (hf : l.fallOffCurves = i :: is) (hp : penumbraCurves l pen = []) (hd : (i :: is).Nodup) (hb : ∀ i ∈ l.fallOffCurves, i < heap.length) (hi : heap[i]? = some f) :
    ∃ heap' l', loadPenumbra twoD n fuel heap l 0 pen create = some (heap', l') ∧ l'.fallOffCurves = i :: is ∧ l'.outerCurves = i :: is ∧ heap'[i]? = some f := by
  rw [loadPenumbra, prepared]
  simp only [hp]
  rw [hf] at hb ⊢
  simp only
  rw [onlyFallOff, if_neg (lt_irrefl _)]
  obtain ⟨h, e1, -, -, e4⟩ := convertAll_spec [fun y => y + 2 * (0 : K)] (i :: is) heap hd hb
  simp only
  rw [e1]
  refine ⟨_, _, rfl, rfl, rfl, ?_⟩
  rw [e4 i (by simp), hi, Option.map_some]
  have : (fun y : K => y + 2 * 0) = fun y => y := by funext y; ring
  rw [this]
  have hmap : convertValues (some fun y : K => y) (some fun y => y) f.keys = f.keys := by
    simp only [convertValues, convertOutputs, convertHeights, List.map_map]
    conv_rhs => rw [← List.map_id f.keys]
    apply List.map_congr_left
    intro k _
    by_cases h : k.interp = .bezier
    · simp only [Function.comp, h, if_true]
      rw [← h]
      rfl
    · simp
  rw [List.foldl_cons, List.foldl_nil, hmap]

/-- C140 does not hold for a penumbra with an animation and negative values on a light whose fall-off angle has none, if the caller asks for a new animation channel, which is the default:
the angles share the animation instead, its keys are deleted, and then read. -/
theorem created_channel_violated (twoD : Bool) (n fuel : Nat) {heap : List (CurveData K)} {l : Light K} {p : K} {pen : Option (List Nat)} {j : Nat} {js : List Nat}
    {o : CurveData K} (hf : l.fallOffCurves = []) (hp : penumbraCurves l pen = j :: js) (ho : heap[j]? = some o) (hneg : p < 0 ∨ ∃ k ∈ o.keys, k.output < 0) :
    loadPenumbra twoD n fuel heap l p pen true = none := by
  have hno : hasNegative p o.keys = true := by
    simp only [hasNegative, Bool.or_eq_true, decide_eq_true_eq, List.any_eq_true]
    exact hneg
  rw [loadPenumbra, prepared]
  simp only [hf, hp]
  rw [ho, Option.bind_some, hno, if_pos rfl, fallOffCurve, if_pos rfl, Option.bind_none]

/-! ## Both angles -/

/-- C141: if both angles, or the fall-off angle and the penumbra, have an animation and the call comes back, then the new keys of the two angles are at the same times, with the same
interpolations, one for each key of the merged curve of the fall-off angle and the penumbra, to which keys of value 0 may have been added; and at each of them, the values of
the angles are the cones for the merged values. -/
theorem both_keys {twoD : Bool} {n fuel : Nat} {heap : List (CurveData K)} {l : Light K} {p : K} {pen : Option (List Nat)} {create : Bool} {i j : Nat} {is js : List Nat}
    {f o : CurveData K} (hf : l.fallOffCurves = i :: is) (hp : penumbraCurves l pen = j :: js) (hi : heap[i]? = some f) (ho : heap[j]? = some o) (hk : f.keys ≠ [] ∨ o.keys ≠ [])
    {r : List (CurveData K) × Light K} (h : loadPenumbra twoD n fuel heap l p pen create = some r) :
    ∃ f' o' oz m, r.1 = (heap.set i f').set j o' ∧ r.1[i]? = some f' ∧ r.1[j]? = some o' ∧ ZerosAdded o.keys oz.keys ∧
      mergeCurves twoD n [some f, some oz] [innerCone l.fallOff p, outerCone l.fallOff p] = some (some m) ∧
      f'.keys.map (fun k => (k.input, k.interp)) = m.keys.map (fun k => (k.input, k.interp)) ∧
      o'.keys.map (fun k => (k.input, k.interp)) = m.keys.map (fun k => (k.input, k.interp)) ∧
      ∀ (x : Nat) k, m.keys[x]? = some k → ∃ u v, valueAt m x 0 = some u ∧ valueAt m x 1 = some v ∧
        (f'.keys[x]?).map (·.output) = some (innerCone u v) ∧ (o'.keys[x]?).map (·.output) = some (outerCone u v) := by
  have hij : i ≠ j := by
    rintro rfl
    rw [loadPenumbra, prepared] at h
    simp only [hf, hp, if_true] at h
    exact nomatch h
  rw [loadPenumbra, prepared] at h
  simp only [hf, hp] at h
  rw [if_neg hij, bothCurves, hi, Option.bind_some, ho, Option.bind_some] at h
  simp only [Option.bind_eq_some_iff] at h
  obtain ⟨m0, hm0, m, rfl, z, hz, h⟩ := h
  cases z with
  | none =>
    rw [addZeros.eq_def] at hz
    split at hz
    · rename_i e
      exact absurd e (merged_nonempty hm0 hk)
    · simp only [Option.bind_eq_some_iff] at hz
      obtain ⟨_, _, q, _, hz⟩ := hz
      split at hz
      · rw [Option.bind_eq_some_iff] at hz
        obtain ⟨_, _, hz⟩ := hz
        rw [Option.map_eq_some_iff] at hz
        obtain ⟨_, _, hz⟩ := hz
        exact nomatch hz
      · exact nomatch hz
  | some z =>
    obtain ⟨oz, m'⟩ := z
    obtain ⟨z1, z2, -, -⟩ := addZeros_spec hm0 hz
    simp only [Option.map_eq_some_iff] at h
    obtain ⟨pairs, h1, rfl⟩ := h
    have hr := result_keys h1
    have hil := (List.getElem?_eq_some_iff.1 hi).1
    have hjl := (List.getElem?_eq_some_iff.1 ho).1
    refine ⟨_, _, oz, m', rfl, ?_, ?_, z1, z2, ?_, ?_, ?_⟩
    · rw [List.getElem?_set_ne (Ne.symm hij), List.getElem?_set_self hil]
    · rw [List.getElem?_set_self (by rw [List.length_set]; exact hjl)]
    · clear h1 hz z2
      simp only
      generalize m'.keys = ks at hr ⊢
      generalize flipKeys [] false pairs = rs at hr ⊢
      induction hr with
      | nil => rfl
      | cons h _ ih =>
        obtain ⟨_, _, _, _, h⟩ := h
        simp only [shape, Prod.mk.injEq] at h
        simp only [List.map_cons] at ih ⊢
        rw [ih, h.1.1, h.1.2.1]
    · clear h1 hz z2
      simp only
      generalize m'.keys = ks at hr ⊢
      generalize flipKeys [] false pairs = rs at hr ⊢
      induction hr with
      | nil => rfl
      | cons h _ ih =>
        obtain ⟨_, _, _, _, h⟩ := h
        simp only [shape, Prod.mk.injEq] at h
        simp only [List.map_cons] at ih ⊢
        rw [ih, h.2.1, h.2.2.1]
    · intro x k hx
      obtain ⟨hlen, hget⟩ := List.forall₂_iff_get.1 hr
      obtain ⟨hlt, rfl⟩ := List.getElem?_eq_some_iff.1 hx
      obtain ⟨u, v, hu, hv, hsh⟩ := hget x hlt (hlen ▸ hlt)
      simp only [List.get_eq_getElem] at hu hv hsh
      have hlt' : x < (flipKeys [] false pairs).length := hlen ▸ hlt
      simp only [shape, Prod.mk.injEq] at hsh
      refine ⟨u.output, v.output, by rw [valueAt, hx, Option.bind_some, hu]; rfl, by rw [valueAt, hx, Option.bind_some, hv]; rfl, ?_, ?_⟩
      · simp only [List.getElem?_map, List.getElem?_eq_getElem hlt', Option.map_some]
        rw [hsh.1.2.2]
      · simp only [List.getElem?_map, List.getElem?_eq_getElem hlt', Option.map_some]
        rw [hsh.2.2.2]

/-! ## Linear curves -/

/-- Both angles with linear curves, and a penumbra without a change of sign. -/
theorem both_same (twoD : Bool) {n : Nat} (hn : 12 ≤ n) (fuel : Nat) {heap : List (CurveData K)} (l : Light K) {i j : Nat} (hij : i ≠ j) {f o : CurveData K} (hi : heap[i]? = some f)
    (ho : heap[j]? = some o) (hf : LinearCurve f) (hol : LinearCurve o) (ha : Apart [some f, some o]) (s : Bool) (hsg : ∀ k ∈ o.keys, if s then k.output ≤ 0 else 0 ≤ k.output) :
    ∃ heap' f' o', bothCurves twoD n fuel heap l i j = some (heap', l) ∧ heap'[i]? = some f' ∧ heap'[j]? = some o' ∧
      ∀ x, ∃ u v, sample twoD n f x = some u ∧ sample twoD n o x = some v ∧ sample twoD n f' x = some (innerCone u v) ∧ sample twoD n o' x = some (outerCone u v) := by
  obtain ⟨sg, hsg'⟩ : ∃ sg : K, sg = if s then -1 else 1 := ⟨_, rfl⟩
  have hsign : ∀ v : K, 0 ≤ sg * v ↔ if s then v ≤ 0 else 0 ≤ v := by
    intro v
    rw [hsg']
    cases s <;> simp
  obtain ⟨m, m1, m2, m3, m4, m5, m6, m7, -, -⟩ := merged_linear twoD hn hf hol ha [l.fallOff, l.outer]
  have hpen : ∀ k ∈ m.keys, ∃ y, penumbraAt k = some y ∧ if s then y ≤ 0 else 0 ≤ y := by
    intro k hk
    obtain ⟨u, v, _, hv, _, hd⟩ := m7 k hk
    obtain ⟨y, hy, hys⟩ := line_sign twoD n hol (fun k hk => (hsign k.output).2 (hsg k hk)) k.input
    rw [hy] at hv
    cases hv
    exact ⟨v.output, by rw [penumbraAt, hd]; rfl, (hsign _).1 hys⟩
  have hzero : addZeros twoD n fuel f o [l.fallOff, l.outer] m = some (some (o, m)) := by
    obtain ⟨first, rest, e⟩ := List.exists_cons_of_ne_nil m3
    obtain ⟨y, hy, hys⟩ := hpen first (by rw [e]; simp)
    rw [addZeros.eq_def, e]
    simp only
    rw [hy, Option.bind_some, flipLoop_same (s := s) rest _ _ _ _ (fun k hk => hpen k (by rw [e]; simp [hk])), Option.bind_some]
    · rfl
    · cases s
      · simpa using hys
      · simp only [if_true] at hys ⊢
        rcases lt_or_eq_of_le hys with h | rfl
        · exact .inl (by simpa using h)
        · exact .inr (close_self 0)
  obtain ⟨pairs, hpairs⟩ := mapM_some (ks := m.keys) (by
    intro k hk
    obtain ⟨u, v, _, _, h0, h1⟩ := m7 k hk
    rw [anglesKeys, h0, Option.bind_some, h1, Option.bind_some, if_neg (by rw [m4 k hk]; decide)]
    exact ⟨_, rfl⟩)
  have hr := result_keys hpairs
  have hil := (List.getElem?_eq_some_iff.1 hi).1
  have hjl := (List.getElem?_eq_some_iff.1 ho).1
  obtain ⟨hlen, hget⟩ := List.forall₂_iff_get.1 hr
  have key : ∀ q ∈ flipKeys [] false pairs, ∃ k ∈ m.keys, ∃ u v, evaluate twoD n .constant .constant f.keys k.input = some u ∧ evaluate twoD n .constant .constant o.keys k.input = some v ∧
      shape q = ((k.input, .linear, innerCone u v), (k.input, .linear, outerCone u v)) := by
    intro q hq
    obtain ⟨x, hx, rfl⟩ := List.mem_iff_getElem.1 hq
    obtain ⟨u, v, hu, hv, hsh⟩ := hget x (hlen ▸ hx) hx
    have hkm : m.keys.get ⟨x, hlen ▸ hx⟩ ∈ m.keys := List.get_mem _ _
    obtain ⟨u', v', eu, ev, hu', hv'⟩ := m7 _ hkm
    rw [hu] at hu'; rw [hv] at hv'
    cases hu'; cases hv'
    exact ⟨_, hkm, u.output, v.output, eu, ev, by rw [← m4 _ hkm]; exact hsh⟩
  have back : ∀ k ∈ m.keys, ∃ q ∈ flipKeys [] false pairs, (shape q).1.1 = k.input ∧ (shape q).2.1 = k.input := by
    intro k hk
    obtain ⟨x, hx, rfl⟩ := List.mem_iff_getElem.1 hk
    obtain ⟨u, v, hu, hv, hsh⟩ := hget x hx (hlen ▸ hx)
    refine ⟨(flipKeys [] false pairs).get ⟨x, hlen ▸ hx⟩, List.get_mem _ _, ?_⟩
    rw [hsh]
    exact ⟨rfl, rfl⟩
  have sorted : ∀ g : Key K × Key K → Key K, (∀ q, (g q).input = (shape q).1.1 ∨ (g q).input = (shape q).2.1) → Sorted ((flipKeys [] false pairs).map g) := by
    intro g hg
    rw [Sorted, List.pairwise_map, List.pairwise_iff_getElem]
    intro a b ha hb hab
    obtain ⟨_, _, _, _, s1⟩ := hget a (hlen ▸ ha) ha
    obtain ⟨_, _, _, _, s2⟩ := hget b (hlen ▸ hb) hb
    have := List.pairwise_iff_getElem.1 m2 a b (hlen ▸ ha) (hlen ▸ hb) hab
    simp only [List.get_eq_getElem] at s1 s2
    rcases hg (flipKeys [] false pairs)[a] with h | h <;> rcases hg (flipKeys [] false pairs)[b] with h' | h' <;> rw [h, h', s1, s2] <;> exact this
  have hne : flipKeys [] false pairs ≠ [] := by
    intro e
    rw [e] at hlen
    exact m3 (List.length_eq_zero_iff.1 hlen)
  obtain ⟨f1, f2, f3, f4, f5⟩ := hf
  obtain ⟨o1, o2, o3, o4, o5⟩ := id hol
  refine ⟨(heap.set i { f with keys := (flipKeys [] false pairs).map Prod.fst }).set j { o with keys := (flipKeys [] false pairs).map Prod.snd },
    { f with keys := (flipKeys [] false pairs).map Prod.fst }, { o with keys := (flipKeys [] false pairs).map Prod.snd }, ?_, ?_, ?_, ?_⟩
  · rw [bothCurves, hi, Option.bind_some, ho, Option.bind_some, m1, Option.bind_some, Option.bind_some, hzero, Option.bind_some]
    simp only
    rw [hpairs, Option.map_some]
  · rw [List.getElem?_set_ne (Ne.symm hij), List.getElem?_set_self hil]
  · rw [List.getElem?_set_self (by rw [List.length_set]; exact hjl)]
  · intro x
    have times : ∀ {c : CurveData K} (g : Key K × Key K → Key K), (∀ q, (g q).input = (shape q).1.1 ∨ (g q).input = (shape q).2.1) →
        (∀ k ∈ c.keys, ∃ key ∈ m.keys, key.input = k.input) → ∀ k ∈ c.keys, ∃ k' ∈ (flipKeys [] false pairs).map g, k'.input = k.input := by
      intro c g hg h k hk
      obtain ⟨mk, hmk, e⟩ := h k hk
      obtain ⟨q, hq, q1, q2⟩ := back mk hmk
      refine ⟨g q, List.mem_map.2 ⟨q, hq, rfl⟩, ?_⟩
      rcases hg q with h | h <;> rw [h]
      · rw [q1, e]
      · rw [q2, e]
    have wide : ∀ k v, evaluate twoD n .constant .constant o.keys k = some v → if s then v ≤ 0 else 0 ≤ v := by
      intro k v hv
      obtain ⟨y, hy, hys⟩ := line_sign twoD n hol (fun k hk => (hsign k.output).2 (hsg k hk)) k
      rw [hv] at hy
      cases hy
      exact (hsign v).1 hys
    have comb : ∀ (g : Key K × Key K → Key K) (w : K), (∀ q, (g q).input = (shape q).1.1 ∨ (g q).input = (shape q).2.1) →
        (∀ q u v t t', shape q = ((t, .linear, innerCone u v), (t', .linear, outerCone u v)) → (if s then v ≤ 0 else 0 ≤ v) → (g q).interp = .linear ∧ (g q).output = u + w * v) →
        ∃ u v, evaluate twoD n .constant .constant f.keys x = some u ∧ evaluate twoD n .constant .constant o.keys x = some v ∧
          evaluate twoD n .constant .constant ((flipKeys [] false pairs).map g) x = some (u + w * v) := by
      intro g w hg hout
      refine sum_of_lines twoD n (by simpa using hne) (sorted g hg) ?_ f1 f2.sorted f3 (times g hg m5) o1 o2.sorted o3 (times g hg m6) w ?_ x
      · intro k hk
        obtain ⟨q, hq, rfl⟩ := List.mem_map.1 hk
        obtain ⟨mk, hmk, u, v, hu, hv, hsh⟩ := key q hq
        exact (hout q u v _ _ hsh (wide _ _ hv)).1
      · intro k hk
        obtain ⟨q, hq, rfl⟩ := List.mem_map.1 hk
        obtain ⟨mk, hmk, u, v, hu, hv, hsh⟩ := key q hq
        have : (g q).input = mk.input := by
          rcases hg q with h | h <;> rw [h, hsh]
        rw [this]
        exact ⟨u, v, hu, hv, (hout q u v _ _ hsh (wide _ _ hv)).2⟩
    obtain ⟨u, v, hu, hv, h1⟩ := comb Prod.fst (if s then 2 else 0) (fun q => .inl rfl) (by
      intro q u v t t' hsh hw
      simp only [shape, Prod.mk.injEq] at hsh
      refine ⟨hsh.1.2.1, ?_⟩
      rw [hsh.1.2.2, innerCone]
      cases s
      · simp only [Bool.false_eq_true, if_false] at hw ⊢
        rw [min_eq_left (by linarith)]
        ring
      · simp only [if_true] at hw ⊢
        rw [min_eq_right (by linarith)])
    obtain ⟨u', v', hu', hv', h2⟩ := comb Prod.snd (if s then 0 else 2) (fun q => .inr rfl) (by
      intro q u v t t' hsh hw
      simp only [shape, Prod.mk.injEq] at hsh
      refine ⟨hsh.2.2.1, ?_⟩
      rw [hsh.2.2.2, outerCone]
      cases s
      · simp only [Bool.false_eq_true, if_false] at hw ⊢
        rw [max_eq_right (by linarith)]
      · simp only [if_true] at hw ⊢
        rw [max_eq_left (by linarith)]
        ring)
    rw [hu] at hu'; rw [hv] at hv'
    cases hu'; cases hv'
    have hw := wide x v hv
    simp only [sample]
    rw [f4, f5, o4, o5]
    refine ⟨u, v, hu, hv, ?_, ?_⟩
    · rw [h1, innerCone]
      cases s
      · simp only [Bool.false_eq_true, if_false] at hw ⊢
        rw [min_eq_left (by linarith)]
        simp
      · simp only [if_true] at hw ⊢
        rw [min_eq_right (by linarith)]
    · rw [h2, outerCone]
      cases s
      · simp only [Bool.false_eq_true, if_false] at hw ⊢
        rw [max_eq_right (by linarith)]
      · simp only [if_true] at hw ⊢
        rw [max_eq_left (by linarith)]
        simp

/-- C141, for linear curves: if the fall-off angle and the penumbra have animations with linear keys, constant outside of them, with keys at the same time or the tolerance apart, and the
penumbra does not change its sign, then at each time the angles are the cones for the fall-off angle and the penumbra at this time. Missing: other interpolations, changes of sign,
where the angles are cones at the keys only (`both_keys`), and keys that are closer than the tolerance. -/
theorem both_linear_partial (twoD : Bool) {n : Nat} (hn : 12 ≤ n) (fuel : Nat) {heap : List (CurveData K)} {l : Light K} (p : K) {pen : Option (List Nat)} (create : Bool) {i j : Nat}
    {is js : List Nat} {f o : CurveData K} (hf : l.fallOffCurves = i :: is) (hp : penumbraCurves l pen = j :: js) (hij : i ≠ j) (hi : heap[i]? = some f) (ho : heap[j]? = some o)
    (hlf : LinearCurve f) (hlo : LinearCurve o) (ha : Apart [some f, some o]) (hs : (∀ k ∈ o.keys, 0 ≤ k.output) ∨ ∀ k ∈ o.keys, k.output ≤ 0) :
    ∃ heap' l' f' o', loadPenumbra twoD n fuel heap l p pen create = some (heap', l') ∧ l'.fallOffCurves = i :: is ∧ l'.outerCurves = j :: js ∧
      heap'[i]? = some f' ∧ heap'[j]? = some o' ∧
      ∀ x, ∃ u v, sample twoD n f x = some u ∧ sample twoD n o x = some v ∧ sample twoD n f' x = some (innerCone u v) ∧ sample twoD n o' x = some (outerCone u v) := by
  obtain ⟨s, hs⟩ : ∃ s : Bool, ∀ k ∈ o.keys, if s then k.output ≤ 0 else 0 ≤ k.output := by
    rcases hs with h | h
    · exact ⟨false, by simpa using h⟩
    · exact ⟨true, by simpa using h⟩
  obtain ⟨heap', f', o', h1, h2, h3, h4⟩ := both_same twoD hn fuel ⟨innerCone l.fallOff p, outerCone l.fallOff p, i :: is, j :: js⟩ hij hi ho hlf hlo ha s hs
  refine ⟨heap', ⟨innerCone l.fallOff p, outerCone l.fallOff p, i :: is, j :: js⟩, f', o', ?_, rfl, rfl, h2, h3, h4⟩
  rw [loadPenumbra, prepared]
  simp only [hf, hp]
  rw [if_neg hij, h1]

/-- C141, for a light whose fall-off angle is not animated, and a penumbra with linear keys, at least two of them, that are not positive, if the caller asks for no new animation channel: the outer
angle has a constant animation with the old fall-off angle, and the fall-off angle is narrower by twice the penumbra at each time. -/
theorem negative_penumbra_partial (twoD : Bool) {n : Nat} (hn : 12 ≤ n) (fuel : Nat) {heap : List (CurveData K)} {l : Light K} (p : K) {pen : Option (List Nat)} {j : Nat}
    {js : List Nat} {o : CurveData K} (hf : l.fallOffCurves = []) (hp : penumbraCurves l pen = j :: js) (ho : heap[j]? = some o) (hlo : LinearCurve o) (h2 : 2 ≤ o.keys.length)
    (hs : ∀ k ∈ o.keys, k.output ≤ 0) (hneg : p < 0 ∨ ∃ k ∈ o.keys, k.output < 0) :
    ∃ heap' l' f' o', loadPenumbra twoD n fuel heap l p pen false = some (heap', l') ∧ l'.fallOffCurves = [heap.length] ∧ l'.outerCurves = j :: js ∧
      heap'[heap.length]? = some f' ∧ heap'[j]? = some o' ∧
      ∀ x, ∃ v, sample twoD n o x = some v ∧ sample twoD n f' x = some (l.fallOff + 2 * v) ∧ sample twoD n o' x = some l.fallOff := by
  have hno : hasNegative p o.keys = true := by
    simp only [hasNegative, Bool.or_eq_true, decide_eq_true_eq, List.any_eq_true]
    exact hneg
  obtain ⟨o1, o2, o3, o4, o5⟩ := id hlo
  obtain ⟨first, hfirst⟩ : ∃ k, o.keys.head? = some k := ⟨_, List.head?_eq_some_head o1⟩
  obtain ⟨last, hlast⟩ : ∃ k, o.keys.getLast? = some k := ⟨_, List.getLast?_eq_some_getLast o1⟩
  have hfm : first ∈ o.keys := List.mem_of_mem_head? hfirst
  have hlm : last ∈ o.keys := List.mem_of_getLast? hlast
  have hfl : first.input + 1 / 10000 ≤ last.input := by
    rw [List.head?_eq_getElem?] at hfirst
    rw [List.getLast?_eq_getElem?] at hlast
    obtain ⟨a1, rfl⟩ := List.getElem?_eq_some_iff.1 hfirst
    obtain ⟨a2, rfl⟩ := List.getElem?_eq_some_iff.1 hlast
    exact List.pairwise_iff_getElem.1 o2 _ _ a1 a2 (by omega)
  have hangle : (if p < 0 then outerCone l.fallOff p else innerCone l.fallOff p) = l.fallOff := by
    split
    · exact max_eq_left (by linarith)
    · exact min_eq_left (by linarith)
  obtain ⟨f, hfd⟩ : ∃ f : CurveData K, f = ⟨.constant, .constant, [⟨first.input, l.fallOff, .linear, (0, 0), (0, 0), 0, 0, 0⟩, ⟨last.input, l.fallOff, .linear, (0, 0), (0, 0), 0, 0, 0⟩]⟩ := ⟨_, rfl⟩
  have hfl : LinearCurve f := by
    subst hfd
    refine ⟨by simp, by simpa [Spaced] using hfl, by simp, rfl, rfl⟩
  have hfy : ∀ k ∈ f.keys, k.output = l.fallOff := by
    subst hfd
    simp
  have hft : ∀ k ∈ f.keys, ∃ k' ∈ o.keys, k'.input = k.input := by
    subst hfd
    intro k hk
    simp only [List.mem_cons, List.not_mem_nil, or_false] at hk
    rcases hk with rfl | rfl
    · exact ⟨first, hfm, rfl⟩
    · exact ⟨last, hlm, rfl⟩
  have ha : Apart [some f, some o] := by
    have ho' : ∀ j, HasKey [some f, some o] j → ∃ k ∈ o.keys, k.input = j.input := by
      rintro j ⟨c, hc, hj⟩
      simp only [List.mem_cons, Option.some.injEq, List.not_mem_nil, or_false] at hc
      rcases hc with rfl | rfl
      · exact hft j hj
      · exact ⟨j, hj, rfl⟩
    intro a b h1 h2 hab
    obtain ⟨a', ha', ea⟩ := ho' a h1
    obtain ⟨b', hb', eb⟩ := ho' b h2
    rw [← ea, ← eb] at hab ⊢
    obtain ⟨x, hx, rfl⟩ := List.mem_iff_getElem.1 ha'
    obtain ⟨y, hy, rfl⟩ := List.mem_iff_getElem.1 hb'
    rcases Nat.lt_trichotomy x y with h | rfl | h
    · exact List.pairwise_iff_getElem.1 o2 _ _ hx hy h
    · exact absurd hab (lt_irrefl _)
    · have := List.pairwise_iff_getElem.1 o2 _ _ hy hx h
      exact absurd hab (not_lt.2 (by have : (0 : K) < 1 / 10000 := by norm_num
                                     linarith))
  have hjl := (List.getElem?_eq_some_iff.1 ho).1
  obtain ⟨heap', f', o', h1, h2, h3, h4⟩ := both_same twoD hn fuel (heap := heap ++ [f]) ⟨innerCone l.fallOff p, outerCone l.fallOff p, [heap.length], j :: js⟩ (i := heap.length) (j := j)
    (by omega) (by simp) (by rw [List.getElem?_append_left hjl, ho]) hfl hlo ha true (by simpa using hs)
  refine ⟨heap', ⟨innerCone l.fallOff p, outerCone l.fallOff p, [heap.length], j :: js⟩, f', o', ?_, rfl, rfl, h2, h3, ?_⟩
  · rw [loadPenumbra, prepared]
    simp only [hf, hp]
    rw [ho, Option.bind_some, hno, if_pos rfl, fallOffCurve, if_neg (by decide), hfirst, Option.bind_some, hlast, Option.map_some, Option.bind_some]
    simp only
    rw [hangle, ← hfd, h1]
  · intro x
    obtain ⟨u, v, hu, hv, e1, e2⟩ := h4 x
    rw [constant_curve twoD n hfl hfy x] at hu
    cases hu
    have hv0 : v ≤ 0 := by
      obtain ⟨y, hy, hys⟩ := line_sign twoD n hlo (sg := -1) (fun k hk => by linarith [hs k hk]) x
      rw [sample, o4, o5, hy] at hv
      cases hv
      linarith
    refine ⟨v, hv, ?_, ?_⟩
    · rw [e1, innerCone, min_eq_right (by linarith)]
    · rw [e2, outerCone, max_eq_left (by linarith)]

/-! ## Changes of sign -/

/-- C141: for linear curves, constant outside of their keys, with keys at the same time or the tolerance apart, the call comes back, whatever the signs of the penumbra. -/
theorem both_linear_ends (twoD : Bool) {n : Nat} (hn : 12 ≤ n) {heap : List (CurveData K)} {l : Light K} (p : K) {pen : Option (List Nat)} (create : Bool) {i j : Nat}
    {is js : List Nat} {f o : CurveData K} (hf : l.fallOffCurves = i :: is) (hp : penumbraCurves l pen = j :: js) (hij : i ≠ j) (hi : heap[i]? = some f) (ho : heap[j]? = some o)
    (hlf : LinearCurve f) (hlo : LinearCurve o) (ha : Apart [some f, some o]) : ∃ N, ∀ fuel ≥ N, (loadPenumbra twoD n fuel heap l p pen create).isSome = true := by
  obtain ⟨m, m1, m2, m3, m4, m5, m6, m7, m8, m9⟩ := merged_linear twoD hn hlf hlo ha [innerCone l.fallOff p, outerCone l.fallOff p]
  obtain ⟨o1, o2, o3, o4, o5⟩ := id hlo
  obtain ⟨f1, f2, f3, f4, f5⟩ := id hlf
  obtain ⟨first, rest, e⟩ := List.exists_cons_of_ne_nil m3
  have hpen : ∀ k ∈ m.keys, ∃ y, penumbraAt k = some y ∧ evaluate twoD n .constant .constant o.keys k.input = some y := by
    intro k hk
    obtain ⟨u, v, _, hv, _, hd⟩ := m7 k hk
    exact ⟨v.output, by rw [penumbraAt, hd]; rfl, hv⟩
  have hchain : m.keys.IsChain (Line fun x => mEvaluate twoD n m x 1) := by
    rw [List.isChain_iff_getElem]
    intro x hx
    have hno : ∀ k ∈ m.keys, k.input ≤ m.keys[x].input ∨ m.keys[x + 1].input ≤ k.input := by
      intro k hk
      obtain ⟨y, hy, rfl⟩ := List.mem_iff_getElem.1 hk
      rcases Nat.lt_trichotomy y x with h | rfl | h
      · exact .inl (le_of_lt (List.pairwise_iff_getElem.1 m2 _ _ hy (by omega) h))
      · exact .inl (le_refl _)
      · rcases Nat.lt_or_ge (x + 1) y with h' | h'
        · exact .inr (le_of_lt (List.pairwise_iff_getElem.1 m2 _ _ hx hy h'))
        · obtain rfl : y = x + 1 := by omega
          exact .inr (le_refl _)
    have hlt := List.pairwise_iff_getElem.1 m2 x (x + 1) (by omega) hx (by omega)
    obtain ⟨u, hu, hu'⟩ := hpen m.keys[x] (List.getElem_mem _)
    obtain ⟨v, hv, hv'⟩ := hpen m.keys[x + 1] (List.getElem_mem _)
    refine ⟨hlt, u, v, hu, hv, fun y h1 h2 => ?_⟩
    obtain ⟨a, b, ea, eb, ex⟩ := linear_line twoD n o1 o2.sorted o3 hlt (le_of_lt h1) (le_of_lt h2) (fun k hk => by
      obtain ⟨k', hk', e⟩ := m6 k hk
      rw [← e]
      exact hno k' hk')
    rw [hu'] at ea; rw [hv'] at eb
    cases ea; cases eb
    simp only [m9, ex]
  rw [e] at hchain
  obtain ⟨y, hy, -⟩ := hpen first (by rw [e]; simp)
  obtain ⟨N, hN⟩ := flipLoop_ends rest first y hy hchain (fun k hk => m4 k (by rw [e]; exact hk))
  refine ⟨N, fun fuel hfuel => ?_⟩
  obtain ⟨r, r1, r2, r3⟩ := hN fuel hfuel o.keys o2.sorted o3 (fun k hk => by
    obtain ⟨k', hk', ek⟩ := m6 k hk
    rw [e] at hk'
    rcases List.mem_cons.1 hk' with rfl | hk'
    · exact .inl (le_of_eq ek.symm)
    · exact .inr ⟨k', hk', ek⟩)
  obtain ⟨o', m', hz, hk⟩ : ∃ o' m', addZeros twoD n fuel f o [innerCone l.fallOff p, outerCone l.fallOff p] m = some (some (o', m')) ∧
      ∀ k ∈ m'.keys, k.interp = .linear ∧ ∃ u v, k.dims[0]? = some u ∧ k.dims[1]? = some v := by
    rw [addZeros.eq_def, e]
    simp only
    rw [hy, Option.bind_some, r1, Option.bind_some]
    by_cases hr : r.2 = true
    · rw [if_pos hr]
      have hsort : ∀ c : CurveData K, some c ∈ [some f, some { o with keys := r.1 }] → Sorted c.keys := by
        intro c hc
        simp only [List.mem_cons, Option.some.injEq, List.not_mem_nil, or_false] at hc
        rcases hc with rfl | rfl
        · exact f2.sorted
        · exact r2
      obtain ⟨m', h1, h2, h3, h4, -⟩ := merge_shape twoD hn hsort ⟨f, by simp⟩ [innerCone l.fallOff p, outerCone l.fallOff p]
      rw [h1, Option.bind_some, Option.map_some]
      refine ⟨_, _, rfl, fun k hk => ⟨?_, ?_⟩⟩
      · have : (k.input, k.interp) ∈ mergeTimes [some f, some { o with keys := r.1 }] := by
          rw [← h3]
          exact List.mem_map.2 ⟨k, hk, rfl⟩
        refine fold_linear _ [] (by simp) ?_ _ this
        rintro k ⟨c, hc, hk⟩
        simp only [List.mem_cons, Option.some.injEq, List.not_mem_nil, or_false] at hc
        rcases hc with rfl | rfl
        · exact f3 k hk
        · exact r3 k hk
      · have hlen := h4 k hk
        have d0 : 0 < k.dims.length := by rw [hlen]; simp
        have d1 : 1 < k.dims.length := by rw [hlen]; simp
        exact ⟨_, _, List.getElem?_eq_getElem d0, List.getElem?_eq_getElem d1⟩
    · rw [if_neg hr]
      refine ⟨_, _, rfl, fun k hk => ⟨m4 k hk, ?_⟩⟩
      obtain ⟨u, v, _, _, h0, h1⟩ := m7 k hk
      exact ⟨u, v, h0, h1⟩
  obtain ⟨pairs, hpairs⟩ := mapM_some (ks := m'.keys) (by
    intro k hk'
    obtain ⟨h, u, v, h0, h1⟩ := hk k hk'
    rw [anglesKeys, h0, Option.bind_some, h1, Option.bind_some, if_neg (by rw [h]; decide)]
    exact ⟨_, rfl⟩)
  rw [loadPenumbra, prepared]
  simp only [hf, hp]
  rw [if_neg hij, bothCurves, hi, Option.bind_some, ho, Option.bind_some, m1, Option.bind_some, Option.bind_some, hz, Option.bind_some]
  simp only
  rw [hpairs]
  rfl

/-- C140 as documented does not hold: with a penumbra that is not 0, neither are the angles the fall-off angle and its sum with the penumbra, nor its difference with the penumbra and itself. -/
theorem documented_violated {twoD : Bool} {n fuel : Nat} {heap : List (CurveData K)} {l : Light K} {p : K} {pen : Option (List Nat)} {create : Bool} {r : List (CurveData K) × Light K}
    (h : loadPenumbra twoD n fuel heap l p pen create = some r) : (0 < p → r.2.outer ≠ r.2.fallOff + p) ∧ (p < 0 → r.2.fallOff ≠ r.2.outer - -p) := by
  obtain ⟨h1, h2⟩ := angles h
  rw [h1, h2]
  refine ⟨fun hp e => ?_, fun hp e => ?_⟩
  · rw [innerCone, outerCone, min_eq_left (by linarith), max_eq_right (by linarith)] at e
    linarith
  · rw [innerCone, outerCone, min_eq_right (by linarith), max_eq_left (by linarith)] at e
    linarith

/-- A key without tangents. -/
def at_ (x y : ℚ) (i : Interp) : Key ℚ := ⟨x, y, i, (0, 0), (0, 0), 0, 0, 0⟩

/-- A fall-off angle that grows, a penumbra that stays positive, one that stays negative, and one that changes its sign. -/
def grows : CurveData ℚ := ⟨.constant, .constant, [at_ 0 40 .linear, at_ 2 44 .linear]⟩
def positive : CurveData ℚ := ⟨.constant, .constant, [at_ 1 5 .linear, at_ 2 7 .linear]⟩
def negative : CurveData ℚ := ⟨.constant, .constant, [at_ 0 (-1) .linear, at_ 4 (-2) .linear]⟩
def changing : CurveData ℚ := ⟨.constant, .constant, [at_ 0 1 .linear, at_ 4 (-1) .linear]⟩

example : LinearCurve grows ∧ LinearCurve positive ∧ LinearCurve negative ∧ LinearCurve changing := by
  refine ⟨?_, ?_, ?_, ?_⟩ <;> exact ⟨by simp [grows, positive, negative, changing], by simp [Spaced, grows, positive, negative, changing, at_]; try norm_num,
    by simp [grows, positive, negative, changing, at_], rfl, rfl⟩

example : Apart [some grows, some positive] := by
  rintro a b ⟨c, hc, ha⟩ ⟨d, hd, hb⟩ hab
  simp only [List.mem_cons, Option.some.injEq, List.not_mem_nil, or_false] at hc hd
  rcases hc with rfl | rfl <;> rcases hd with rfl | rfl <;> simp only [grows, positive, List.mem_cons, List.not_mem_nil, or_false] at ha hb <;>
    rcases ha with rfl | rfl <;> rcases hb with rfl | rfl <;> (simp only [at_] at hab ⊢; first | (exfalso; norm_num at hab; done) | norm_num)

example : (loadPenumbra true 12 0 [] (⟨40, 0, [], []⟩ : Light ℚ) 5 none true).map Prod.snd = some ⟨40, 50, [], []⟩ ∧
    (loadPenumbra true 12 0 [] (⟨40, 0, [], []⟩ : Light ℚ) (-5) none true).map Prod.snd = some ⟨30, 40, [], []⟩ := by decide +kernel

example : (loadPenumbra true 12 0 [positive] (⟨40, 0, [], []⟩ : Light ℚ) 5 (some [0]) true).map Prod.snd = some ⟨40, 50, [], [0]⟩ ∧
    ((loadPenumbra true 12 0 [positive] (⟨40, 0, [], []⟩ : Light ℚ) 5 (some [0]) true).bind fun r => (r.1[0]?).bind fun o => sample true 12 o (3 / 2)) = some 52 := by decide +kernel

example : ((loadPenumbra true 12 0 [grows, positive] (⟨40, 0, [0], []⟩ : Light ℚ) 5 (some [1]) true).map fun r => r.1.map fun c => c.keys.map fun k => (k.input, k.output)) =
    some [[(0, 40), (1, 42), (2, 44)], [(0, 50), (1, 52), (2, 58)]] := by decide +kernel

example : ((loadPenumbra true 12 0 [negative] (⟨40, 0, [], []⟩ : Light ℚ) (-1) (some [0]) false).map fun r => (r.2.fallOffCurves, r.1.map fun c => c.keys.map fun k => (k.input, k.output))) =
    some ([1], [[(0, 40), (4, 40)], [(0, 38), (4, 36)]]) := by decide +kernel

/-- The penumbra changes its sign: a key is added to the outer angle, where the angles are the same. -/
example : ((loadPenumbra true 12 20 [grows, changing] (⟨40, 0, [0], []⟩ : Light ℚ) 1 (some [1]) true).map fun r => r.1.map fun c => c.keys.map fun k => (k.input, k.output)) =
    some [[(0, 40), (2, 44), (4, 42)], [(0, 42), (2, 44), (4, 44)]] := by decide +kernel

/-- C141 fails for a fall-off angle with an animation and a penumbra without one: the penumbra is 5, and both angles have the larger value. -/
example : ((loadPenumbra true 12 0 [grows] (⟨40, 0, [0], []⟩ : Light ℚ) 5 none true).map fun r => (r.2.fallOffCurves, r.2.outerCurves, r.1.map fun c => c.keys.map fun k => k.output)) =
    some ([0], [0], [[50, 54]]) := by decide +kernel

/-! ## Searches that do not end -/

/-- A curve of steps, and a penumbra of steps that changes its sign. -/
def steps : CurveData ℚ := ⟨.constant, .constant, [at_ 0 40 .step, at_ 4 44 .step]⟩
def changingSteps : CurveData ℚ := ⟨.constant, .constant, [at_ 0 1 .step, at_ 4 (-1) .step]⟩

/-- C141 does not hold for a penumbra of steps that changes its sign: the search for the time at which it is 0 does not end. -/
theorem steps_violated (fuel : Nat) : loadPenumbra true 12 fuel [steps, changingSteps] ⟨40, 0, [0], []⟩ 1 (some [1]) true = none := by
  have hm : mergeCurves true 12 [some steps, some changingSteps] [40, 42] = some (some mergedSteps) := by decide +kernel
  have hb := bisect_never (eval := fun x => mEvaluate true 12 mergedSteps x 1) (c := 1) (by norm_num) (by decide +kernel) (fun x h1 h2 => steps_value 12 h1 h2) fuel 0 4
    (le_refl _) (by norm_num) rfl
  have hz : addZeros true 12 fuel steps changingSteps [40, 42] mergedSteps = none := by
    have hl : flipLoop (fun x => mEvaluate true 12 mergedSteps x 1) fuel ⟨0, .step, [⟨40, none, none⟩, ⟨1, none, none⟩]⟩ (decide ((1 : ℚ) < 0)) (close (1 : ℚ) 0)
        [⟨4, .step, [⟨44, none, none⟩, ⟨-1, none, none⟩]⟩] changingSteps.keys = none := by
      rw [flipLoop]
      have c1 : close (-1 : ℚ) 0 = false := by decide +kernel
      have c2 : close (1 : ℚ) 0 = false := by decide +kernel
      have c3 : decide ((1 : ℚ) < 0) = false := by decide +kernel
      simp only [penumbraAt, List.getElem?_cons_succ, List.getElem?_cons_zero, Option.map_some, Option.bind_some, c1, c2, c3, Bool.false_eq_true, if_false, Bool.not_false, Bool.false_and,
        Bool.false_or, Bool.true_and]
      rw [if_pos (by decide +kernel), hb, Option.bind_none]
    rw [addZeros.eq_def]
    simp only [mergedSteps] at hl ⊢
    simp only [penumbraAt, List.getElem?_cons_succ, List.getElem?_cons_zero, Option.map_some, Option.bind_some]
    rw [hl, Option.bind_none]
  rw [loadPenumbra, prepared]
  have e1 : innerCone (40 : ℚ) 1 = 40 := by decide +kernel
  have e2 : outerCone (40 : ℚ) 1 = 42 := by decide +kernel
  simp only [penumbraCurves, e1, e2]
  rw [if_neg (by decide), bothCurves]
  simp only [List.getElem?_cons_succ, List.getElem?_cons_zero, Option.bind_some, hm, hz, Option.bind_none]

/-- C141 does not hold for a penumbra that changes its sign between a linear key and a Bezier key: the new key is linear and its tangents are written. -/
theorem mixed_violated : ∃ o : CurveData ℚ, Sorted o.keys ∧ o.keys.map (fun k => (k.output, k.interp)) = [(1, .linear), (-1, .bezier)] ∧
    loadPenumbra true 12 20 [grows, o] ⟨40, 0, [0], []⟩ 1 (some [1]) true = none ∧
    (loadPenumbra true 12 20 [grows, { o with keys := o.keys.map fun k => { k with interp := .linear } }] ⟨40, 0, [0], []⟩ 1 (some [1]) true).isSome = true :=
  ⟨⟨.constant, .constant, [at_ 0 1 .linear, ⟨2, -1, .bezier, (1, -1), (3, -1), 0, 0, 0⟩]⟩, by simp [Sorted, at_], rfl, by decide +kernel, by decide +kernel⟩

end Verif.Penumbra
