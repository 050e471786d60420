import Verif.ArcAnimSpec
import Verif.ArcSourceProps
import Verif.ArcInstLemmas
import Verif.ArcSkinParts

/-! # Lemmas for the properties of saved and loaded animation curves: reading sources -/

namespace Verif.FArc

open Verif.FStr (Ch)
open Verif.FEff (Text text)
open Verif.FConv (Ov Formats shown tokens Lit)
open Verif.Enum (Interpolation Infinity)

/-! ## Vectors -/

/-- The text `t` is read by `p` as the values `as`, up to its end. -/
inductive Chain {α : Type} (p : Text → Option (α × Text)) : Text → List α → Prop where
  | nil : Chain p [] []
  | cons {t t' : Text} {a : α} {as : List α} (h0 : 0 ∉ t) (hn : t ≠ []) (hl : t'.length < t.length) (h : p (t ++ [0]) = some (a, t' ++ [0])) (c : Chain p t' as) : Chain p t (a :: as)

theorem chain_vecs (ov : Ov) (k : Nat) (hk : 0 < k) : ∀ (rows : List (List Text)) (t : Text), 0 ∉ t → FConv.FloatOk t → (t = [] ∨ tokens t ≠ []) → tokens t = rows.flatten →
    (∀ r ∈ rows, r.length = k) → Chain (FConv.readFloats ov k) t (rows.map (·.map (FConv.tokFloat ov))) := by
  intro rows
  induction rows with
  | nil =>
    intro t _ _ ht htok _
    have : t = [] := ht.resolve_right fun h => h htok
    subst this
    exact .nil
  | cons r rows ih =>
    intro t h0 hok ht htok hr
    have hx : tokens t ≠ [] := by rw [htok]; intro e; have := congrArg List.length e; simp [hr r (by simp)] at this; omega
    have hne : t ≠ [] := by rintro rfl; exact hx rfl
    obtain ⟨t', b1, b2, b3, b4, b5, b6, b7⟩ := FConv.readFloats_eq ov k t h0 hok (Or.inr hx)
    rw [List.flatten_cons] at htok
    have hl := hr r (by simp)
    refine .cons h0 hne (b5 hk hne) ?_ (ih t' b3 b4 b2 (by rw [b1, htok, ← hl, List.drop_left]) fun x hm => hr x (by simp [hm]))
    rw [b7 [], htok, ← hl, List.take_left]
    simp

theorem chain_nums (ov : Ov) {fmt rnd} (hf : Formats fmt rnd) (k : Nat) (hk : 0 < k) (vs : List (List ℚ)) (hv : ∀ v ∈ vs, v.length = k) :
    Chain (FConv.readFloats ov k) (numsText fmt vs.flatten) (vs.map (·.map (shown rnd))) := by
  obtain ⟨L, h1, h2, _, h4⟩ := lits hf
  rw [h4]
  have hw : ∀ x ∈ vs.flatten.map L, x.WF := fun x hx => by obtain ⟨q, _, rfl⟩ := List.mem_map.1 hx; exact h1 q
  obtain ⟨a1, a2, a3⟩ := FConv.joined_lits _ hw
  have := chain_vecs ov k hk (vs.map fun v => (v.map L).map Lit.text) _ a1 a2 ?_ ?_ ?_
  · have e : vs.map (·.map (shown rnd)) = (vs.map fun v => (v.map L).map Lit.text).map (·.map (FConv.tokFloat ov)) := ?_
    · rw [e]; exact this
    rw [List.map_map]
    apply List.map_congr_left
    intro v _
    simp only [Function.comp_apply]
    rw [FConv.tokens_values ov _ fun x hx => by obtain ⟨q, _, rfl⟩ := List.mem_map.1 hx; exact h1 q, List.map_map]
    exact List.map_congr_left fun q _ => (h2 q).symm
  · rw [a3]
    cases vs with
    | nil => left; rfl
    | cons v vs =>
      right
      have := hv v (by simp)
      cases v with
      | nil => simp at this; omega
      | cons => simp
  · rw [a3]
    simp [List.map_flatten, Function.comp_def]
  · intro r hr
    obtain ⟨v, hm, rfl⟩ := List.mem_map.1 hr
    simpa using hv v hm

theorem tupleOld_chain {α : Type} {p : Text → Option (α × Text)} (count : Nat) : ∀ (as : List (Option (List α))) (row rest : List α) (t : Text), Chain p t (row ++ rest) → row.length = as.length →
    (∀ a ∈ as, ∀ l ∈ a, count < l.length) → ∃ t', Chain p t' rest ∧ FConv.tupleOld p count as (t ++ [0]) = some (List.zipWith (fun a v => a.map fun l => l.set count v) as row, t' ++ [0]) := by
  intro as
  induction as with
  | nil =>
    intro row rest t hc hl _
    obtain rfl : row = [] := List.length_eq_zero_iff.1 hl
    exact ⟨t, hc, rfl⟩
  | cons a as ih =>
    intro row rest t hc hl hb
    cases row with
    | nil => simp at hl
    | cons v row =>
      cases hc with
      | cons h0 hn _ h hc =>
        obtain ⟨t', g1, g2⟩ := ih row rest _ hc (by simpa using hl) fun b hm => hb b (by simp [hm])
        refine ⟨t', g1, ?_⟩
        unfold FConv.tupleOld
        rw [FConv.deref_eq, Option.bind_some, if_neg (FConv.headD_ne h0 hn), h, Option.bind_some]
        cases a with
        | none => simp only [g2, Option.map_some]; rfl
        | some l => simp only; rw [if_pos (hb (some l) (by simp) l rfl), g2, Option.map_some]; rfl

theorem interOld_chain {α : Type} (d : α) {p : Text → Option (α × Text)} (old : List (Option (List α))) (n0 : Nat) (hn0 : ∀ a ∈ old, ∀ l ∈ a, l.length = n0) (hne : old ≠ []) :
    ∀ (rows : List (List α)) (done : List (List α)) (t : Text), done.length + rows.length = n0 → Chain p t rows.flatten → (∀ r ∈ rows, r.length = old.length) →
      FConv.interOld p rows.length done.length (FConv.state d old done) (t ++ [0]) = some (FConv.state d old (done ++ rows), n0, [0]) := by
  intro rows
  induction rows with
  | nil =>
    intro done t hd hc _
    cases hc
    simp only [List.length_nil, Nat.add_zero] at hd
    simp [FConv.interOld, hd]
  | cons row rows ih =>
    intro done t hd hc hr
    have hl := hr row (by simp)
    rw [List.length_cons] at hd
    have hb : ∀ a ∈ FConv.state d old done, ∀ l ∈ a, done.length < l.length := by
      intro a ha l hm
      obtain ⟨i, hi, rfl⟩ := List.getElem_of_mem ha
      have hi' : i < old.length := by simpa [FConv.state] using hi
      simp only [FConv.state, List.getElem_mapIdx] at hm
      obtain ⟨l', hl', rfl⟩ := Option.map_eq_some_iff.1 hm
      have := hn0 _ (List.getElem_mem hi') l' hl'
      simp; omega
    rw [List.flatten_cons] at hc
    obtain ⟨t', g1, g2⟩ := tupleOld_chain done.length (FConv.state d old done) row rows.flatten t hc (by rw [hl]; simp [FConv.state]) hb
    have hpos : 0 < old.length := List.length_pos_iff.2 hne
    obtain ⟨h0, hn⟩ : 0 ∉ t ∧ t ≠ [] := by
      cases row with
      | nil => simp at hl; omega
      | cons v row => cases hc with | cons h0 hn _ _ _ => exact ⟨h0, hn⟩
    rw [List.length_cons]
    unfold FConv.interOld
    rw [FConv.deref_eq, Option.bind_some, if_neg (FConv.headD_ne h0 hn), g2, Option.bind_some]
    simp only
    rw [FConv.state_set d old done row hl fun a ha l hm => by rw [hn0 a ha l hm]; omega]
    have := ih (done ++ [row]) t' (by simp; omega) g1 fun r hm => hr r (by simp [hm])
    rw [List.length_append, List.length_singleton, List.append_assoc, List.singleton_append] at this
    exact this

/-- `rows` interleaved vectors of `n` lists are read back. -/
theorem readVecs_back (ov : Ov) {fmt rnd} (hf : Formats fmt rnd) (k n : Nat) (hk : 2 ≤ k) (hn : 0 < n) (rows : List (List (List ℚ))) (hr : ∀ r ∈ rows, r.length = n ∧ ∀ v ∈ r, v.length = k) (src : Node)
    (h1 : countOf (accessorOf src) = some rows.length) (h2 : strideOf (accessorOf src) = some (n * k)) (h3 : direct (src.child (text "float_array")) = numsText fmt rows.flatten.flatten) :
    readVecs ov k n src = some (n * k, (List.range n).map fun i => rows.map fun r => ((r.getD i []).map (shown rnd))) := by
  have hs : ¬ n * k = n := by
    intro e
    have : n * 2 ≤ n * k := Nat.mul_le_mul_left n hk
    omega
  unfold readVecs
  rw [h1, h2, h3, Option.bind_some, Option.bind_some]
  simp only [if_neg hs]
  have hdiv : n * k / k = n := Nat.mul_div_cancel _ (by omega)
  have hceil : (n * k + k - 1) / k = n := by
    have : n * k + k - 1 = (k - 1) + k * n := by rw [Nat.mul_comm k n]; omega
    rw [this, Nat.add_mul_div_left _ _ (by omega), Nat.div_eq_of_lt (by omega)]
    omega
  have hfit : fitLists k (n * k) (List.replicate n (some (List.replicate rows.length (List.replicate k (0 : ℚ))))) = List.replicate n (some (List.replicate rows.length (List.replicate k (0 : ℚ)))) := by
    unfold fitLists
    rw [hdiv, hceil]
    simp
  rw [hfit]
  have hold : List.replicate n (some (List.replicate rows.length (List.replicate k (0 : ℚ)))) ≠ [] := by
    intro e
    have := congrArg List.length e
    simp at this
    omega
  have hst : FConv.state [] (List.replicate n (some (List.replicate rows.length (List.replicate k (0 : ℚ))))) [] = List.replicate n (some (List.replicate rows.length (List.replicate k (0 : ℚ)))) := by
    apply List.ext_getElem
    · simp [FConv.state]
    · intro i _ _
      simp [FConv.state]
  have hc := chain_nums ov hf k (by omega) rows.flatten (by
    intro v hv
    obtain ⟨r, h, hv⟩ := List.mem_flatten.1 hv
    exact (hr r h).2 v hv)
  have hI := interOld_chain ([] : List ℚ) (p := FConv.readFloats ov k) (List.replicate n (some (List.replicate rows.length (List.replicate k (0 : ℚ))))) rows.length
    (by
      intro a ha l hl
      obtain ⟨_, rfl⟩ := List.mem_replicate.1 ha
      obtain rfl := Option.some.inj hl
      simp) hold (rows.map fun r => r.map (·.map (shown rnd))) [] (numsText fmt rows.flatten.flatten) (by simp) (by
        rw [List.map_flatten] at hc
        exact hc) (by
      intro r hm
      obtain ⟨r', h, rfl⟩ := List.mem_map.1 hm
      simp [(hr r' h).1])
  rw [hst, List.length_map, List.length_nil] at hI
  rw [hI, Option.bind_some]
  simp only
  unfold vecTrail
  simp only [FConv.deref, Option.bind_some, if_true, Option.map_some]
  congr 2
  apply List.map_congr_left
  intro i hi
  have hi := List.mem_range.1 hi
  simp only [FConv.state, List.nil_append, List.length_map]
  rw [List.getElem?_mapIdx]
  simp [hi, List.getD_eq_getElem?_getD]
  intro r _
  cases h : r[i]? <;> simp

/-! ## Interpolations -/

theorem interp_word (i : Interpolation) : Word (text i.toString) := by
  cases i <;> (unfold Word FConv.IsSpace Interpolation.toString; decide)

theorem interp_back (i : Interpolation) : interpOf (text i.toString) = i := by
  cases i <;> rfl

theorem infinity_back {i : Infinity} (h : i ≠ .unknown) : infinityOf (textChild (text "x") (text i.toString)).direct = i := by
  cases i <;> first | exact absurd rfl h | (set_option maxRecDepth 4000 in decide +kernel)

theorem readInterps_back (id : Text) (is : List Interpolation) (h : is.length < 2 ^ 32) :
    readInterps (sourceNames id (is.map fun i => text i.toString) (text "INTERPOLATION") false) = some is := by
  obtain ⟨h1, h2⟩ := words_tokens (is.map fun i => text i.toString) (by
    intro w hw
    obtain ⟨i, _, rfl⟩ := List.mem_map.1 hw
    exact interp_word i)
  have hd : direct ((sourceNames id (is.map fun i => text i.toString) (text "INTERPOLATION") false).child (text "Name_array")) = wordsText (is.map fun i => text i.toString) := by
    simp [sourceNames, sourceNode, arrayNode, child_cons, direct]
  unfold readInterps
  rw [hd]
  simp only [sourceNames, accessorOf_names]
  rw [countOf_accessor _ _ _ _ _ (by simpa using h), strideOf_accessor _ _ _ _ _ (by decide)]
  simp only [Option.bind_some, one_ne_zero, if_false, List.length_map, Nat.mul_one]
  rw [toStringList_empty _ _ h2, h1, Option.bind_some]
  have : ∀ (l : List Interpolation) (f : Nat → Option Interpolation), (∀ (j : Nat) (i : Interpolation), l[j]? = some i → f j = some i) → (List.range l.length).mapM f = some l := by
    intro l
    induction l using List.reverseRecOn with
    | nil => intro f _; rfl
    | append_singleton l a ih =>
      intro f hf
      rw [List.length_append, List.length_singleton, List.range_succ, List.mapM_append, ih f fun j i hj => hf j i (by
        have : j < l.length := by
          by_contra hx
          rw [List.getElem?_eq_none (by omega)] at hj
          cases hj
        rw [List.getElem?_append_left this]
        exact hj)]
      have := hf l.length a (by simp)
      simp [this]
  apply this
  intro j i hj
  have hlt : j < is.length := by
    by_contra hx
    rw [List.getElem?_eq_none (by omega)] at hj
    cases hj
  rw [Nat.mod_eq_of_lt (by omega), List.getElem?_map, hj]
  simp [interp_back]

/-! ## Outputs -/

theorem readOutputs_back (ov : Ov) {fmt rnd} (hf : Formats fmt rnd) (id : Text) (qs : List ℚ) (ps : Option (List Text)) (h : qs.length < 2 ^ 32) :
    readOutputs ov 1 (sourceFloats fmt id qs 1 ps) = some [some (qs.map (shown rnd))] := by
  unfold readOutputs
  simp only [sourceFloats, one_ne_zero, if_false, Nat.div_one]
  rw [accessorOf_floats, array_of_source, countOf_accessor _ _ _ _ _ h, Option.bind_some]
  obtain ⟨L, h1, h2, _, h4⟩ := lits hf
  have hw : ∀ x ∈ qs.map L, x.WF := fun x hx => by obtain ⟨q, _, rfl⟩ := List.mem_map.1 hx; exact h1 q
  obtain ⟨a1, a2, a3⟩ := FConv.joined_lits _ hw
  rw [h4, show List.replicate 1 (some (List.replicate qs.length (0 : ℚ))) = [some (List.replicate qs.length 0)] from rfl]
  rw [FConv.toInterleaved_eq 0 (FConv.readsToken_f ov) [some (List.replicate qs.length 0)] (List.replicate qs.length 0) rfl (by simp) ((qs.map L).map fun l => [l.text]) [] _ [] a1 a2 ?_ ?_ ?_ (by simp)
    (by simp)]
  · simp only [List.mapIdx_cons, List.mapIdx_nil, Option.map_some, List.map_map]
    congr 3
    apply List.map_congr_left
    intro q _
    have := FConv.tokens_values ov [L q] (by simpa using h1 q)
    simp only [List.map_cons, List.map_nil, List.cons.injEq, and_true] at this
    simp only [Function.comp_apply, List.map_cons, List.map_nil, List.getD_cons_zero]
    exact this.trans (h2 q)
  · rw [a3]
    cases qs with
    | nil => left; rfl
    | cons => right; simp
  · rw [a3]
    clear * -
    induction qs with
    | nil => rfl
    | cons q qs ih => simpa using ih
  · simp

end Verif.FArc
