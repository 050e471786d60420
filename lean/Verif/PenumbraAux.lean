import Verif.PenumbraLinear
import Mathlib.Algebra.Order.Field.Rat
import Mathlib.Data.Rat.Floor

/-! # Lemmas for the properties in PenumbraProps -/

namespace Verif.Penumbra

open Verif.Curve

variable {K : Type} [Field K] [LinearOrder K] [IsStrictOrderedRing K] [FloorRing K]

omit [FloorRing K] in
theorem prepared (l : Light K) (p : K) (pen : Option (List Nat)) : takePenumbra (setAngles l p) pen =
    { fallOff := innerCone l.fallOff p, outer := outerCone l.fallOff p, fallOffCurves := l.fallOffCurves, outerCurves := penumbraCurves l pen } := by
  rw [setAngles_cone]
  rcases pen with _ | _ | ⟨j, js⟩ <;> simp [takePenumbra, penumbraCurves]

omit [IsStrictOrderedRing K] in
theorem bothCurves_light {twoD : Bool} {n fuel : Nat} {heap : List (CurveData K)} {l : Light K} {i j : Nat} {r : List (CurveData K) × Light K}
    (h : bothCurves twoD n fuel heap l i j = some r) : r.2 = l := by
  rw [bothCurves] at h
  simp only [Option.bind_eq_some_iff] at h
  obtain ⟨f, _, o, _, m, _, m', _, z, _, h⟩ := h
  cases z with
  | none => cases h; rfl
  | some z =>
    simp only [Option.map_eq_some_iff] at h
    obtain ⟨_, _, rfl⟩ := h
    rfl

omit [IsStrictOrderedRing K] [FloorRing K] [LinearOrder K] in
theorem scale_offset (d : K) (keys : List (Key K)) : [fun y => y * 2, fun y => y + d].foldl (fun ks f => convertValues (some f) (some f) ks) keys =
    convertValues (some fun y => 2 * y + d) (some fun y => 2 * y + d) keys := by
  simp only [List.foldl_cons, List.foldl_nil, convertValues, convertHeights, convertOutputs, List.map_map]
  apply List.map_congr_left
  intro k _
  by_cases h : k.interp = .bezier
  · simp [h, mul_comm]
  · simp [h, mul_comm]

omit [IsStrictOrderedRing K] [FloorRing K] in
theorem result_keys {ks : List (MKey K)} {pairs : List (Key K × Key K)} (h : ks.mapM anglesKeys = some pairs) :
    List.Forall₂ (fun k q => ∃ f p, k.dims[0]? = some f ∧ k.dims[1]? = some p ∧
      shape q = ((k.input, k.interp, innerCone f.output p.output), (k.input, k.interp, outerCone f.output p.output))) ks (flipKeys [] false pairs) := by
  have h1 := mapM_shape h
  have h2 := flipKeys_shape pairs [] false
  rw [List.reverse_nil, List.map_nil, List.nil_append] at h2
  generalize flipKeys [] false pairs = res at h2 ⊢
  clear h
  induction h1 generalizing res with
  | nil =>
    rw [List.map_nil, List.map_eq_nil_iff] at h2
    subst h2
    exact .nil
  | @cons k q ks qs hk _ ih =>
    rw [List.map_cons] at h2
    obtain ⟨r, rs, rfl, e1, e2⟩ := List.map_eq_cons_iff.1 h2
    refine .cons ?_ (ih rs e2)
    obtain ⟨f, p, hf, hp, hs⟩ := anglesKeys_spec hk
    exact ⟨f, p, hf, hp, by rw [e1, hs]; rfl⟩

omit [IsStrictOrderedRing K] in
theorem addZeros_spec {twoD : Bool} {n fuel : Nat} {f o : CurveData K} {values : List K} {m : Multi K} (hm : mergeCurves twoD n [some f, some o] values = some (some m)) {o' : CurveData K} {m' : Multi K}
    (h : addZeros twoD n fuel f o values m = some (some (o', m'))) :
    ZerosAdded o.keys o'.keys ∧ mergeCurves twoD n [some f, some o'] values = some (some m') ∧ o'.pre = o.pre ∧ o'.post = o.post := by
  rw [addZeros.eq_def] at h
  split at h
  · exact nomatch h
  · simp only [Option.bind_eq_some_iff] at h
    obtain ⟨y, _, r, hr, h⟩ := h
    have hz := flipLoop_zeros _ _ _ _ _ hr (ZerosAdded.refl o.keys)
    split at h
    · rw [Option.bind_eq_some_iff] at h
      obtain ⟨m2, h2, h⟩ := h
      rw [Option.map_eq_some_iff] at h
      obtain ⟨m3, rfl, h⟩ := h
      cases h
      exact ⟨hz, h2, rfl, rfl⟩
    · rename_i hf
      cases h
      have := flipLoop_false _ _ _ _ _ hr (by simpa using hf)
      exact ⟨hz, by rw [this]; exact hm, rfl, rfl⟩

omit [IsStrictOrderedRing K] in
theorem merged_times {twoD : Bool} {n : Nat} {f o : CurveData K} {values : List K} {m : Multi K} (h : mergeCurves twoD n [some f, some o] values = some (some m)) :
    m.keys.map (fun k => (k.input, k.interp)) = mergeTimes [some f, some o] := by
  simp only [mergeCurves, List.findSome?_cons, id] at h
  rw [Option.map_eq_some_iff] at h
  obtain ⟨cols, _, e⟩ := h
  cases e
  exact assemble_inputs

theorem merged_nonempty {twoD : Bool} {n : Nat} {f o : CurveData K} {values : List K} {m : Multi K} (h : mergeCurves twoD n [some f, some o] values = some (some m))
    (hk : f.keys ≠ [] ∨ o.keys ≠ []) : m.keys ≠ [] := by
  intro e
  have ht := merged_times h
  rw [e, List.map_nil] at ht
  have : ∀ c : CurveData K, some c ∈ [some f, some o] → c.keys = [] := by
    intro c hc
    have hf : Found' c.keys ((mergeTimes [some f, some o]).map (·.1)) := fold_found [some f, some o] [] hc
    rw [← ht, List.map_nil] at hf
    generalize c.keys = ks at hf ⊢
    cases hf
    rfl
  rcases hk with hk | hk
  · exact hk (this f (by simp))
  · exact hk (this o (by simp))

/-- A linear curve has a value at each time, of the sign of the values of its keys. -/
theorem line_sign (twoD : Bool) (n : Nat) {c : CurveData K} (hc : LinearCurve c) {sg : K} (hs : ∀ k ∈ c.keys, 0 ≤ sg * k.output) (x : K) :
    ∃ y, evaluate twoD n .constant .constant c.keys x = some y ∧ 0 ≤ sg * y := by
  obtain ⟨hne, hsp, hl, -, -⟩ := hc
  have hsort := hsp.sorted
  by_cases h : ∃ k ∈ c.keys, (∀ j ∈ c.keys, x ≤ j.input ∧ k.input ≤ j.input) ∨ ∀ j ∈ c.keys, j.input ≤ x ∧ j.input ≤ k.input
  · obtain ⟨k, hk, h⟩ := h
    exact ⟨k.output, by rw [constant_outside twoD n hsort hl h, linear_at twoD n _ _ hsort hl hk], hs k hk⟩
  · obtain ⟨first, hf⟩ : ∃ f, c.keys[0]? = some f := ⟨_, List.getElem?_eq_getElem (List.length_pos_of_ne_nil hne)⟩
    obtain ⟨last, hlast⟩ : ∃ f, c.keys[c.keys.length - 1]? = some f :=
      ⟨_, List.getElem?_eq_getElem (Nat.sub_lt (List.length_pos_of_ne_nil hne) Nat.one_pos)⟩
    have hfirst : ∀ k ∈ c.keys, first.input ≤ k.input := by
      intro k hk
      obtain ⟨i, hi⟩ := List.mem_iff_getElem?.1 hk
      rcases Nat.eq_zero_or_pos i with rfl | h0
      · rw [hf] at hi; cases hi; exact le_refl _
      · exact le_of_lt (hsort.lt h0 hf hi)
    have hlast' : ∀ k ∈ c.keys, k.input ≤ last.input := by
      intro k hk
      obtain ⟨i, hi⟩ := List.mem_iff_getElem?.1 hk
      have hlt := (List.getElem?_eq_some_iff.1 hi).1
      rcases Nat.lt_or_ge i (c.keys.length - 1) with h0 | h0
      · exact le_of_lt (hsort.lt h0 hi hlast)
      · have : i = c.keys.length - 1 := by omega
        rw [this, hlast] at hi; cases hi; exact le_refl _
    have h1 : first.input < x := by
      by_contra h1
      exact h ⟨first, List.mem_of_getElem? hf, .inl fun j hj => ⟨le_trans (not_lt.1 h1) (hfirst j hj), hfirst j hj⟩⟩
    have h2 : x < last.input := by
      by_contra h2
      exact h ⟨last, List.mem_of_getElem? hlast, .inr fun j hj => ⟨le_trans (hlast' j hj) (not_lt.1 h2), hlast' j hj⟩⟩
    obtain ⟨i, s, e, i1, i2, i3, i4⟩ := exists_interval hsort hf hlast h1 (le_of_lt h2)
    have hsm := List.mem_of_getElem? i1
    have hem := List.mem_of_getElem? i2
    rcases lt_or_eq_of_le i4 with i4 | i4
    · obtain ⟨t, t1, t2, -, t4⟩ := linear_segment twoD n .constant .constant hsort i1 i2 i3 i4 (.inl (hl s hsm))
      refine ⟨_, t4, ?_⟩
      nlinarith [hs s hsm, hs e hem, mul_nonneg (le_of_lt t1) (hs e hem), mul_nonneg (sub_nonneg.2 (le_of_lt t2)) (hs s hsm)]
    · rw [i4]
      exact ⟨e.output, linear_at twoD n _ _ hsort hl hem, hs e hem⟩

/-- The merged curve of two linear curves. -/
theorem merged_linear (twoD : Bool) {n : Nat} (hn : 12 ≤ n) {f o : CurveData K} (hf : LinearCurve f) (ho : LinearCurve o) (ha : Apart [some f, some o]) (values : List K) :
    ∃ m, mergeCurves twoD n [some f, some o] values = some (some m) ∧ (m.keys.Pairwise fun a b => a.input < b.input) ∧ m.keys ≠ [] ∧ (∀ k ∈ m.keys, k.interp = .linear) ∧
      (∀ k ∈ f.keys, ∃ key ∈ m.keys, key.input = k.input) ∧ (∀ k ∈ o.keys, ∃ key ∈ m.keys, key.input = k.input) ∧
      (∀ key ∈ m.keys, ∃ u v, evaluate twoD n .constant .constant f.keys key.input = some u.output ∧ evaluate twoD n .constant .constant o.keys key.input = some v.output ∧
        key.dims[0]? = some u ∧ key.dims[1]? = some v) ∧ m.dimension = 2 ∧
      ∀ x, mEvaluate twoD n m x 1 = evaluate twoD n .constant .constant o.keys x := by
  obtain ⟨f1, f2, f3, f4, f5⟩ := hf
  obtain ⟨o1, o2, o3, o4, o5⟩ := ho
  have hs : AllSpaced [some f, some o] := by
    intro c hc
    simp only [List.mem_cons, Option.some.injEq, List.not_mem_nil, or_false] at hc
    rcases hc with rfl | rfl
    · exact f2
    · exact o2
  have hlin : ∀ k, HasKey [some f, some o] k → k.interp = .linear := by
    rintro k ⟨c, hc, hk⟩
    simp only [List.mem_cons, Option.some.injEq, List.not_mem_nil, or_false] at hc
    rcases hc with rfl | rfl
    · exact f3 k hk
    · exact o3 k hk
  have hinf : ∀ c, some c ∈ [some f, some o] → c.pre = .constant ∧ c.post = .constant := by
    intro c hc
    simp only [List.mem_cons, Option.some.injEq, List.not_mem_nil, or_false] at hc
    rcases hc with rfl | rfl
    · exact ⟨f4, f5⟩
    · exact ⟨o4, o5⟩
  obtain ⟨m, h1, h2, h3, h4, -⟩ := merge_shape twoD hn (fun c hc => (hs c hc).sorted) ⟨f, by simp⟩ values
  obtain ⟨m', g1, g2, g3, g4⟩ := merge_exact twoD hn hs ha ⟨f, by simp⟩ values
  obtain ⟨m'', k1, k2, -⟩ := merged_sample_partial twoD hn hs ha ⟨f, by simp⟩ hlin hinf values
  obtain rfl : m = m' := Option.some.inj (Option.some.inj (h1.symm.trans g1))
  obtain rfl : m = m'' := Option.some.inj (Option.some.inj (h1.symm.trans k1))
  refine ⟨m, h1, g2, merged_nonempty h1 (.inl f1), ?_, ?_, ?_, ?_, h2, ?_⟩
  · intro k hk
    have : (k.input, k.interp) ∈ mergeTimes [some f, some o] := by
      rw [← h3]
      exact List.mem_map.2 ⟨k, hk, rfl⟩
    exact fold_linear [some f, some o] [] (by simp) hlin _ this
  · exact fun k hk => (g3 k.input).2 ⟨k, ⟨f, by simp, hk⟩, rfl⟩
  · exact fun k hk => (g3 k.input).2 ⟨k, ⟨o, by simp, hk⟩, rfl⟩
  · intro key hkey
    have hlen := h4 key hkey
    have h0 : 0 < key.dims.length := by rw [hlen]; simp
    have h1 : 1 < key.dims.length := by rw [hlen]; simp
    refine ⟨key.dims[0], key.dims[1], ?_, ?_, List.getElem?_eq_getElem h0, List.getElem?_eq_getElem h1⟩
    · rcases g4 0 f rfl f1 key hkey with ⟨k, e1, e2, e3⟩ | ⟨_, e⟩
      · rw [List.getElem?_eq_getElem h0, Option.map_some] at e3
        rw [← e2, linear_at twoD n _ _ f2.sorted f3 e1, e3]
      · rw [List.getElem?_eq_getElem h0, Option.map_some, f4, f5] at e
        exact e.symm
    · rcases g4 1 o rfl o1 key hkey with ⟨k, e1, e2, e3⟩ | ⟨_, e⟩
      · rw [List.getElem?_eq_getElem h1, Option.map_some] at e3
        rw [← e2, linear_at twoD n _ _ o2.sorted o3 e1, e3]
      · rw [List.getElem?_eq_getElem h1, Option.map_some, o4, o5] at e
        exact e.symm
  · intro x
    rw [k2 1 o rfl o1 x, o4, o5]

theorem constant_curve (twoD : Bool) (n : Nat) {c : CurveData K} (hc : LinearCurve c) {y : K} (hy : ∀ k ∈ c.keys, k.output = y) (x : K) : sample twoD n c x = some y := by
  obtain ⟨z, hz, -⟩ := line_sign twoD n hc (sg := 0) (by simp) x
  obtain ⟨h1, h2, h3, h4, h5⟩ := hc
  have hk : convertValues (some fun z => 0 * z + y) (some fun z => 0 * z + y) c.keys = c.keys := by
    simp only [convertValues, convertOutputs, convertHeights, List.map_map]
    conv_rhs => rw [← List.map_id c.keys]
    apply List.map_congr_left
    intro k hk
    simp only [Function.comp, h3 k hk]
    rw [if_neg (by decide), zero_mul, zero_add, ← hy k hk, ← h3 k hk]
    rfl
  have := values_partial twoD n .constant .constant c.keys 0 y (.inl h1) (fun _ => .inr (fun k hk => by rw [h3 k hk]; decide))
    (fun _ i s e hi _ h => by rw [h3 s (List.mem_of_getElem? hi)] at h; exact nomatch h.1) x
  rw [hk, hz, Option.map_some, zero_mul, zero_add] at this
  rw [sample, h4, h5, hz, this]

/-- Their merged curve. -/
def mergedSteps : Multi ℚ := ⟨2, .constant, .constant, [⟨0, .step, [⟨40, none, none⟩, ⟨1, none, none⟩]⟩, ⟨4, .step, [⟨44, none, none⟩, ⟨-1, none, none⟩]⟩]⟩

theorem steps_value (n : Nat) {x : ℚ} (h1 : 0 ≤ x) (h2 : x < 4) : mEvaluate true n mergedSteps x 1 = some 1 := by
  have : mSearch mergedSteps.keys x = some 1 := by
    simp [mSearch, mBinLoop, mLinLoop, mergedSteps, not_lt.2 h1, h2]
  simp [mEvaluate, mergedSteps, mSegment] at this ⊢
  simp [this]

theorem bisect_never {eval : ℚ → Option ℚ} {c : ℚ} (hc : 0 < c) (hcl : close c 0 = false) (h : ∀ x, 0 ≤ x → x < 4 → eval x = some c) :
    ∀ fuel lower higher, 0 ≤ lower → lower < 4 → higher = 4 → bisect eval true fuel lower higher = none := by
  intro fuel
  induction fuel with
  | zero => intros; rfl
  | succ fuel ih =>
    intro lower higher h1 h2 h3
    rw [bisect, h _ (by linarith) (by linarith), Option.bind_some, if_neg (by simp [hcl]), if_neg (by simp [le_of_lt hc])]
    exact ih _ _ (by linarith) (by linarith) h3

end Verif.Penumbra
