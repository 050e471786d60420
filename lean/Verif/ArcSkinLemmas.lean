import Verif.ArcSkinSpec
import Verif.ArcSourceProps
import Verif.ArcPolyLemmas
import Verif.ArcTransLemmas
import Verif.ArcSceneLemmas
import Verif.ArcMeshParts
import Mathlib.Tactic.Linarith

/-! # Lemmas on saved and loaded skins -/

namespace Verif.FArc

open Verif.FStr (Ch)
open Verif.FEff (Text text)
open Verif.FConv (Ov Mat Formats shown tokens)

/-! ## Lists of integers -/

theorem readsToken_i (ov : Ov) : FConv.ReadsToken (fun t => 13 ∉ t ∧ ∀ tok ∈ tokens t, ∃ i : Int, i.natAbs + 48 < 2 ^ 31 ∧ tok = FBld.decimalInt i) FConv.tokInt (FConv.toInt32 ov) := by
  rintro t h ⟨h13, hl⟩ hne
  have hd : t.dropWhile FConv.blank ≠ [] := fun e => hne ((FConv.tokens_nil_iff t).2 e)
  obtain ⟨r1, r2, r3, r4⟩ := FConv.rest_props (t.dropWhile FConv.blank) hd (FConv.head_dropWhile _ _)
  have hs := r4.trans (List.dropWhile_suffix FConv.blank)
  rw [FConv.tokens_dropWhile] at r1
  obtain ⟨i, hi, e⟩ := hl _ (by rw [r1]; exact List.mem_cons_self)
  refine ⟨_, _, r1, r2, Nat.lt_of_lt_of_le r3 (FConv.length_dropWhile_le _ _), FConv.notMem_of_suffix hs h, ⟨FConv.notMem_of_suffix hs h13, fun tok ht => hl tok (by rw [r1]; simp [ht])⟩, ?_⟩
  intro post
  have e1 := (FConv.splitSign_tok (t.dropWhile FConv.blank)).1
  have e2 : FConv.tokInt ((t.dropWhile FConv.blank).takeWhile fun c => !FConv.blank c) = i := by rw [e, FConv.tokInt_decimalInt]
  have e3 : (FConv.splitSign (t.dropWhile FConv.blank)).1 = 1 ∨ (FConv.splitSign (t.dropWhile FConv.blank)).1 = -1 := by
    unfold FConv.splitSign
    split
    · left; rfl
    · split
      · right; rfl
      · left; rfl
  have e4 : FConv.decVal (FConv.intDigits t) = i.natAbs := by
    unfold FConv.intDigits
    rw [e2] at e1
    rcases e3 with e3 | e3 <;> rw [e3] at e1 <;> omega
  rw [FConv.toInt32_small ov t post h (by rw [e4]; exact hi), FConv.afterInt_eq h13]
  unfold FConv.intDigits
  rw [e1]

theorem readInts (ov : Ov) (is : List Int) (hi : ∀ i ∈ is, i.natAbs + 48 < 2 ^ 31) (old : List Int) : FConv.toList (FConv.toInt32 ov) 0 (wordsText (is.map intText) ++ [0]) old = some is := by
  obtain ⟨h1, h2, h3⟩ := FConv.joined_ok is
  rw [wordsText_eq]
  show FConv.toList (FConv.toInt32 ov) 0 (FConv.joined (is.map FBld.decimalInt) ++ [0]) old = some is
  rw [FConv.toList_eq (readsToken_i ov) 0 _ [] old h1 ⟨h2, ?_⟩ (FConv.joined_lead is), h3, List.map_map]
  · congr 1
    conv_rhs => rw [← List.map_id is]
    exact List.map_congr_left fun i _ => FConv.tokInt_decimalInt i
  · intro tok ht
    rw [h3] at ht
    obtain ⟨i, hm, rfl⟩ := List.mem_map.1 ht
    exact ⟨i, hi i hm, rfl⟩

theorem tokens_trail : ∀ ws : List Text, (∀ a ∈ ws, a ≠ [] ∧ ∀ c ∈ a, FConv.blank c = false) → tokens (ws.flatMap fun w => w ++ [32]) = ws
  | [], _ => rfl
  | a :: ws, h => by
    rw [List.flatMap_cons, List.append_assoc, List.singleton_append, FConv.tokens_run_space a (h a (by simp)).1 (h a (by simp)).2, tokens_trail ws fun x hx => h x (by simp [hx])]

theorem natText_run (n : Nat) : natText n ≠ [] ∧ ∀ c ∈ natText n, FConv.blank c = false ∧ c ≠ 13 ∧ c ≠ 0 := by
  have := FConv.decimalInt_nonblank ((n % 2 ^ 32 : Nat) : Int)
  rw [FBld.decimalInt, if_neg (by omega), Int.natAbs_natCast] at this
  exact this

theorem readTrail (ns : List Nat) (hn : ∀ n ∈ ns, n < 2 ^ 32) (old : List Nat) : FConv.toList FConv.toUInt32 0 ((ns.flatMap fun n => natText n ++ [32]) ++ [0]) old = some ns := by
  have e : (ns.flatMap fun n => natText n ++ [32]) = (ns.map natText).flatMap fun w => w ++ [32] := by rw [List.flatMap_map]
  have ht : tokens (ns.flatMap fun n => natText n ++ [32]) = ns.map natText := by
    rw [e]
    refine tokens_trail _ fun a ha => ?_
    obtain ⟨n, _, rfl⟩ := List.mem_map.1 ha
    exact ⟨(natText_run n).1, fun c hc => ((natText_run n).2 c hc).1⟩
  have hm : ∀ c ∈ (ns.flatMap fun n => natText n ++ [32]), c ≠ 13 ∧ c ≠ 0 := by
    intro c hc
    obtain ⟨n, _, hc⟩ := List.mem_flatMap.1 hc
    rcases List.mem_append.1 hc with hc | hc
    · exact ((natText_run n).2 c hc).2
    · rw [List.mem_singleton.1 hc]; decide
  rw [(FConv.list_tokens_partial _ [] (fun h => (hm 0 h).2 rfl) (fun h => (hm 13 h).1 rfl) ?_).1 old, ht, List.map_map]
  · congr 1
    conv_rhs => rw [← List.map_id ns]
    refine List.map_congr_left fun n h => ?_
    show FConv.tokNat (natText n) % 2 ^ 32 = n
    rw [natText, FConv.tokNat_decimal, Nat.mod_mod, Nat.mod_eq_of_lt (hn n h)]
  · rw [ht]
    cases ns with
    | nil => left; rfl
    | cons n ns => right; simp

/-! ## Texts that are not changed by escaping -/

theorem decimalInt_chars (i : Int) : ∀ c ∈ FBld.decimalInt i, c = 45 ∨ FConv.digit c = true := by
  intro c hc
  unfold FBld.decimalInt at hc
  split at hc
  · rcases List.mem_cons.1 hc with hc | hc
    · exact Or.inl hc
    · exact Or.inr (FConv.decimal_digits _ c hc)
  · exact Or.inr (FConv.decimal_digits _ c hc)

theorem encode_ints {t : Text} (h : ∀ c ∈ t, c = 32 ∨ c = 45 ∨ FConv.digit c = true) : encode t = t := by
  have hd : ∀ c : Ch, FConv.digit c = true → FXml.IsChar c ∧ FXml.contentOk c = true := by
    intro c hc
    have h2 := (FConv.digit_iff c).symm.trans hc
    simp only [decide_eq_true_eq] at h2
    obtain ⟨a, b⟩ := h2
    have key : ∀ x : Int, 48 ≤ x → x ≤ 57 → x = 48 ∨ x = 49 ∨ x = 50 ∨ x = 51 ∨ x = 52 ∨ x = 53 ∨ x = 54 ∨ x = 55 ∨ x = 56 ∨ x = 57 := by omega
    have : c = 48 ∨ c = 49 ∨ c = 50 ∨ c = 51 ∨ c = 52 ∨ c = 53 ∨ c = 54 ∨ c = 55 ∨ c = 56 ∨ c = 57 := key c a b
    rcases this with rfl | rfl | rfl | rfl | rfl | rfl | rfl | rfl | rfl | rfl <;> (unfold FXml.IsChar; decide)
  refine encode_ok (fun c hc => ?_) fun c hc => ?_
  · rcases h c hc with rfl | rfl | h
    · unfold FXml.IsChar; decide
    · unfold FXml.IsChar; decide
    · exact (hd c h).1
  · rcases h c hc with rfl | rfl | h
    · decide
    · decide
    · exact (hd c h).2

theorem encode_vcount (verts : List (List (Int × ℚ))) : encode (vcountText verts) = vcountText verts := by
  refine encode_ints fun c hc => ?_
  obtain ⟨v, _, hc⟩ := List.mem_flatMap.1 hc
  rcases List.mem_append.1 hc with hc | hc
  · exact Or.inr (Or.inr (FConv.decimal_digits _ c hc))
  · exact Or.inl (List.mem_singleton.1 hc)

theorem vText_eq (verts : List (List (Int × ℚ))) : vText verts = wordsText ((pairNumbers 1 verts.flatten).map intText) := by
  unfold vText
  rw [← words_dropLast, List.flatMap_map]

theorem encode_v (verts : List (List (Int × ℚ))) : encode (vText verts) = vText verts := by
  refine encode_ints fun c hc => ?_
  obtain ⟨v, _, hc⟩ := List.mem_flatMap.1 (List.dropLast_subset _ hc)
  rcases List.mem_append.1 hc with hc | hc
  · exact Or.inr (decimalInt_chars _ c hc)
  · exact Or.inl (List.mem_singleton.1 hc)

/-! ## The pairs -/

/-- The number of weights not near 1. -/
def spare (ps : List (Int × ℚ)) : Nat := ((ps.map (·.2)).filter fun w => !near w 1).length

theorem pairNumbers_append : ∀ (n : Nat) (a b : List (Int × ℚ)), pairNumbers n (a ++ b) = pairNumbers n a ++ pairNumbers (n + spare a) b
  | n, [], b => rfl
  | n, p :: a, b => by
    rw [List.cons_append, pairNumbers, pairNumbers]
    cases h : near p.2 1
    · simp only [Bool.false_eq_true, if_false, List.cons_append]
      rw [pairNumbers_append (n + 1) a b]
      have : spare (p :: a) = spare a + 1 := by simp [spare, h]
      rw [this, Nat.add_assoc, Nat.add_comm 1]
    · simp only [if_true, List.cons_append]
      rw [pairNumbers_append n a b]
      have : spare (p :: a) = spare a := by simp [spare, h]
      rw [this]

theorem pairNumbers_length : ∀ (n : Nat) (a : List (Int × ℚ)), (pairNumbers n a).length = 2 * a.length
  | _, [] => rfl
  | n, p :: a => by
    rw [pairNumbers]
    split
    · simp only [List.length_cons, pairNumbers_length n a]; omega
    · simp only [List.length_cons, pairNumbers_length (n + 1) a]; omega

theorem spare_le (a : List (Int × ℚ)) : spare a ≤ a.length := by
  unfold spare
  exact (List.length_filter_le _ _).trans (by simp)

theorem pairNumbers_bound : ∀ (n : Nat) (a : List (Int × ℚ)) (J : Nat), (∀ p ∈ a, -1 ≤ p.1 ∧ p.1 < (J : Int)) → ∀ i ∈ pairNumbers n a, i.natAbs ≤ max J (max 1 (n + a.length))
  | _, [], _, _ => by intro i hi; cases hi
  | n, p :: a, J, h => by
    intro i hi
    have hp := h p (by simp)
    rw [pairNumbers] at hi
    simp only [List.length_cons]
    split at hi
    · rcases List.mem_cons.1 hi with rfl | hi
      · omega
      rcases List.mem_cons.1 hi with rfl | hi
      · omega
      · have := pairNumbers_bound n a J (fun q hq => h q (by simp [hq])) i hi
        omega
    · rcases List.mem_cons.1 hi with rfl | hi
      · omega
      rcases List.mem_cons.1 hi with rfl | hi
      · omega
      · have := pairNumbers_bound (n + 1) a J (fun q hq => h q (by simp [hq])) i hi
        omega

theorem near_iff (x y : ℚ) : near x y = true ↔ |x - y| < 1 / 10000 := by
  unfold near tolerance
  rw [Bool.and_eq_true, decide_eq_true_eq, decide_eq_true_eq, abs_lt]
  constructor
  · rintro ⟨a, b⟩
    exact ⟨by linarith, a⟩
  · rintro ⟨a, b⟩
    exact ⟨b, by linarith⟩

theorem weightAfter_eq (rnd : ℚ → ℚ) (w : ℚ) : weightAfter rnd w = shown rnd (if near w 1 then 1 else w) := by
  unfold weightAfter
  by_cases h : |w - 1| < 1 / 10000
  · rw [if_pos h, if_pos ((near_iff w 1).2 h)]
  · rw [if_neg h, if_neg (fun e => h ((near_iff w 1).1 e))]

theorem loadPair_eq {rnd : ℚ → ℚ} {d : SkinData} (done rest : List (Int × ℚ)) (p : Int × ℚ) (hj : d.jointIdx = 0) (hw : d.weightIdx = 1)
    (hws : d.weights = (weightsOf [done ++ p :: rest]).map (shown rnd)) (hlen : (done ++ p :: rest).length < 2 ^ 31) (hp : -1 ≤ p.1 ∧ p.1 < d.names.length) :
    loadPair d (pairNumbers 1 (done ++ p :: rest)) (2 * done.length) = some (p.1, weightAfter rnd p.2) := by
  have hl : (pairNumbers 1 done).length = 2 * done.length := pairNumbers_length 1 done
  have hs := spare_le done
  have hlen' : done.length < 2 ^ 31 := by simp at hlen; omega
  have hwl : weightsOf [done ++ p :: rest] = (1 :: (done.map (·.2)).filter fun w => !near w 1) ++ ((p :: rest).map (·.2)).filter fun w => !near w 1 := by
    simp [weightsOf]
  unfold loadPair
  rw [hj, hw, pairNumbers_append, pairNumbers]
  have i0 : ∀ x y l, atIndex (pairNumbers 1 done ++ x :: y :: l) ((2 * done.length : Nat) + 0) = some x := by
    intro x y l
    unfold atIndex
    rw [if_neg (by omega), Int.add_zero, Int.toNat_natCast, List.getElem?_append_right (by omega), hl, Nat.sub_self]
    rfl
  have i1 : ∀ x y l, atIndex (pairNumbers 1 done ++ x :: y :: l) ((2 * done.length : Nat) + 1) = some y := by
    intro x y l
    unfold atIndex
    have : (((2 * done.length : Nat) : Int) + 1).toNat = 2 * done.length + 1 := by omega
    rw [if_neg (by omega), this, List.getElem?_append_right (by omega), hl, Nat.add_sub_cancel_left]
    rfl
  have hc : ¬ (p.1 < -1 ∨ (d.names.length : Int) ≤ p.1) := by omega
  have hwa := weightAfter_eq rnd p.2
  cases hn : near p.2 1
  · rw [hn] at hwa
    simp only [Bool.false_eq_true, if_false] at hwa ⊢
    rw [i0, Option.bind_some, i1, Option.bind_some, if_neg hc, hwa]
    have e : (((1 + spare done : Nat) : Int) % 2 ^ 32).toNat = 1 + spare done := by
      rw [Int.emod_eq_of_lt (by omega) (by omega), Int.toNat_natCast]
    have eL : (1 :: (done.map (·.2)).filter fun w => !near w 1).length = 1 + spare done := by simp [spare, Nat.add_comm]
    have hlt : ¬ d.weights.length ≤ 1 + spare done := by
      rw [hws, List.length_map, hwl, List.length_append, eL, List.map_cons, List.filter_cons_of_pos (by simp [hn]), List.length_cons]
      omega
    rw [e, if_neg hlt, hws, List.getElem?_map, hwl, List.getElem?_append_right (by rw [eL]), eL, Nat.sub_self, List.map_cons, List.filter_cons_of_pos (by simp [hn])]
    rfl
  · rw [hn] at hwa
    simp only [if_true] at hwa ⊢
    rw [i0, Option.bind_some, i1, Option.bind_some, if_neg hc, hwa]
    have e : ((0 : Int) % 2 ^ 32).toNat = 0 := by decide
    rw [e, ite_self, hws, hwl]
    rfl

theorem loadPairs_eq {rnd : ℚ → ℚ} {d : SkinData} (hj : d.jointIdx = 0) (hw : d.weightIdx = 1) : ∀ (v done rest : List (Int × ℚ)),
    d.weights = (weightsOf [done ++ (v ++ rest)]).map (shown rnd) → (done ++ (v ++ rest)).length < 2 ^ 31 → (∀ p ∈ v, -1 ≤ p.1 ∧ p.1 < d.names.length) →
    loadPairs d (pairNumbers 1 (done ++ (v ++ rest))) v.length (2 * done.length) = some (v.map fun p => (p.1, weightAfter rnd p.2), 2 * (done ++ v).length)
  | [], done, rest, _, _, _ => by simp [loadPairs]
  | p :: v, done, rest, h1, h2, h3 => by
    have e : done ++ (p :: v ++ rest) = (done ++ [p]) ++ (v ++ rest) := by simp
    rw [List.length_cons, loadPairs, if_pos (Or.inr (by rw [pairNumbers_length]; simp; omega))]
    have hp := loadPair_eq (rnd := rnd) (d := d) done (v ++ rest) p hj hw h1 h2 (h3 p (by simp))
    rw [show done ++ (p :: v ++ rest) = done ++ p :: (v ++ rest) from rfl, hp, Option.bind_some]
    have ih := loadPairs_eq (rnd := rnd) hj hw v (done ++ [p]) rest (by rw [← e]; exact h1) (by rw [← e]; exact h2) fun q hq => h3 q (by simp [hq])
    have e2 : 2 * (done ++ [p]).length = 2 * done.length + 2 := by simp; omega
    rw [← e, e2] at ih
    rw [show done ++ p :: (v ++ rest) = done ++ (p :: v ++ rest) from rfl, ih]
    simp

theorem loadVerts_eq {rnd : ℚ → ℚ} {d : SkinData} (hj : d.jointIdx = 0) (hw : d.weightIdx = 1) (verts : List (List (Int × ℚ))) (hlen : verts.flatten.length < 2 ^ 31)
    (hws : d.weights = (weightsOf verts).map (shown rnd)) (hi : ∀ v ∈ verts, ∀ p ∈ v, -1 ≤ p.1 ∧ p.1 < d.names.length) : ∀ (todo done : List (List (Int × ℚ))), done ++ todo = verts →
    loadVerts d (verts.map List.length) (pairNumbers 1 verts.flatten) todo.length done.length (2 * done.flatten.length) =
      some (todo.map fun v => v.map fun p => (p.1, weightAfter rnd p.2))
  | [], done, _ => rfl
  | v :: todo, done, e => by
    have ef : verts.flatten = done.flatten ++ (v ++ todo.flatten) := by rw [← e]; simp
    have hc : (verts.map List.length)[done.length]? = some v.length := by rw [← e]; simp
    have hw' : weightsOf verts = weightsOf [done.flatten ++ (v ++ todo.flatten)] := by unfold weightsOf; rw [ef]; simp
    have hp := loadPairs_eq (rnd := rnd) (d := d) hj hw v done.flatten todo.flatten (by rw [hws, hw']) (by rw [← ef]; exact hlen) (hi v (by rw [← e]; simp))
    have ih := loadVerts_eq hj hw verts hlen hws hi todo (done ++ [v]) (by rw [← e]; simp)
    have e1 : (done ++ [v]).length = done.length + 1 := by simp
    have e2 : (done ++ [v]).flatten.length = (done.flatten ++ v).length := by simp
    rw [e1, e2] at ih
    rw [List.length_cons, loadVerts, hc, Option.bind_some, ef, hp, Option.bind_some]
    rw [← ef, ih]
    rfl

theorem normalize_eq (rnd : ℚ → ℚ) (v : List (Int × ℚ)) : normalizeVert (v.map fun p => (p.1, weightAfter rnd p.2)) = vertAfter rnd v := by
  unfold normalizeVert vertAfter
  simp only [List.map_map, Function.comp_def, Bool.or_eq_true, near_iff, sub_zero]
  split
  · rfl
  · refine List.map_congr_left fun p _ => ?_
    rw [mul_one_div]

theorem makeJoints_eq : ∀ js : List (Text × Mat), makeJoints (js.map (·.1)) (js.map (·.2)) = some js
  | [] => rfl
  | j :: js => by rw [List.map_cons, List.map_cons, makeJoints, makeJoints_eq js]; rfl

end Verif.FArc
