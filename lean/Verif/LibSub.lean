import Verif.LibLemmas
import Verif.SceneProps
import Mathlib.Algebra.Order.BigOperators.Group.List

/-!
# Sub ids: lemmas
-/

namespace Verif.FLib

open Verif.FStr (Ch)
open FScene (World Child Parent Ancestor Inv)

/-! ## Candidates -/

/-- The number a numeral stands for. -/
def value (l : List Ch) : Int := l.foldl (fun a c => 10 * a + (c - 48)) 0

theorem value_decimal (n : Nat) : value (FBld.decimal n) = n := by
  induction n using Nat.strongRecOn with
  | ind n ih =>
    unfold FBld.decimal
    split
    · simp [value]
    · rename_i h
      have := ih (n / 10) (by omega)
      rw [value] at this ⊢
      rw [List.foldl_append, this]
      simp only [List.foldl_cons, List.foldl_nil]
      push_cast
      omega

theorem numeral_inj {a b : Nat} (h : FBld.numeral a = FBld.numeral b) : a = b := by
  rw [← FBld.decimal_eq_numeral, ← FBld.decimal_eq_numeral] at h
  have := congrArg value h
  rw [value_decimal, value_decimal] at this
  exact_mod_cast this

theorem cand_inj (id : List Ch) {a b : Nat} (h : cand id a = cand id b) : a = b := by
  have hl : (FXml.cleaned false id).length ≤ id.length := by
    rw [(FXml.clean_valid false id).2.2.2]
    omega
  cases a with
  | zero =>
    cases b with
    | zero => rfl
    | succ b =>
      have := congrArg List.length h
      simp [cand] at this
      omega
  | succ a =>
    cases b with
    | zero =>
      have := congrArg List.length h
      simp [cand] at this
      omega
    | succ b =>
      simp only [cand, List.append_cancel_left_eq, List.cons.injEq, true_and] at h
      rw [numeral_inj h]

theorem cand_ne_nil (id : List Ch) (h : id ≠ []) (k : Nat) : cand id k ≠ [] := by
  cases k with
  | zero =>
    intro e
    have := (FXml.clean_valid false id).2.2.2
    rw [show FXml.cleaned false id = [] from e] at this
    have := List.length_pos_of_ne_nil h
    simp at *
    omega
  | succ k => simp [cand]

theorem cleaned_ne_zero (t : List Ch) (h : 0 ∉ t) : 0 ∉ FXml.cleaned false t := by
  unfold FXml.cleaned
  split
  · simp
  · rename_i c r e
    have hc : c ∈ t := List.mem_of_mem_take (by rw [e]; simp)
    rw [List.mem_cons, List.mem_map, not_or]
    constructor
    · split
      · rintro rfl; exact h hc
      · decide
    · rintro ⟨x, hx, hz⟩
      have hx' : x ∈ t := List.mem_of_mem_take (by rw [e]; simp [hx])
      split at hz
      · exact h (hz ▸ hx')
      · exact absurd hz (by decide)

theorem cleanSubId_eq (t : List Ch) (h : 0 ∉ t) : cleanSubId t = some (FXml.cleaned false t) := by
  obtain ⟨v, e1, e2⟩ := FXml.clean_text false t [] h
  unfold cleanSubId
  rw [e1, Option.bind_some, e2, Option.map_some]
  congr 1
  exact FBld.takeWhile_text _ (cleaned_ne_zero t h) []

/-! ## The search below -/

theorem findSubFirst_ok {f : Nat → Option (Option Nat)} {P : Nat → Prop} : ∀ {xs : List Nat}, (∀ x ∈ xs, ∃ r, f x = some r ∧ (r.isSome ↔ P x)) →
    ∃ r, findSubFirst f xs = some r ∧ (r.isSome ↔ ∃ x ∈ xs, P x) := by
  intro xs
  induction xs with
  | nil => intro _; exact ⟨none, rfl, by simp⟩
  | cons x xs ih =>
    intro h
    obtain ⟨r, hr, hp⟩ := h x (by simp)
    obtain ⟨q, hq, hp'⟩ := ih (fun x hx => h x (by simp [hx]))
    cases r with
    | some y => exact ⟨some y, by simp [findSubFirst, hr], by simp; exact .inl (hp.1 rfl)⟩
    | none =>
      refine ⟨q, by simp [findSubFirst, hr, hq], ?_⟩
      rw [hp']
      simp only [List.mem_cons, exists_eq_or_imp]
      simp at hp
      tauto

theorem findSubId_ok {w : World} {rk : Nat → Nat} (hi : Inv rk (fun _ => False) w) (sub : Nat → List Ch) (t : List Ch) :
    ∀ (n x : Nat), rk x < n → (w.nodes x).isSome → ∃ r, findSubId w sub t n x = some r ∧ (r.isSome ↔ ∃ y, FScene.Desc w x y ∧ sub y = t) := by
  intro n
  induction n with
  | zero => intro x h; omega
  | succ n ih =>
    intro x hn hx
    obtain ⟨a, ha⟩ := Option.isSome_iff_exists.mp hx
    rw [findSubId, ha, Option.bind_some]
    by_cases e : sub x = t
    · exact ⟨some x, if_pos e, by simp; exact ⟨x, .refl, e⟩⟩
    · obtain ⟨r, hr, hp⟩ := findSubFirst_ok (f := findSubId w sub t n) (P := fun x => ∃ y, FScene.Desc w x y ∧ sub y = t) (xs := a.children) (by
        intro z hz
        have hc : Child w x z := ⟨a, ha, hz⟩
        have := hi.rank x z hc
        exact ih z (by omega) (hi.alive x z hc))
      refine ⟨r, by rw [if_neg e, hr], ?_⟩
      rw [hp]
      constructor
      · rintro ⟨z, hz, y, hy, hs⟩
        exact ⟨y, Relation.ReflTransGen.head ⟨a, ha, hz⟩ hy, hs⟩
      · rintro ⟨y, hy, hs⟩
        rcases Relation.ReflTransGen.cases_head hy with rfl | ⟨z, ⟨b, hb, hz⟩, hy⟩
        · exact absurd hs e
        · rw [ha] at hb
          obtain rfl := Option.some.inj hb
          exact ⟨z, hz, y, hy, hs⟩

/-! ## The search above -/

/-- A weight that is more than the weights of the parents together. -/
theorem exists_weight {w : World} (hg : FScene.Good w) : ∃ c : Nat → Nat, ∀ x a, w.nodes x = some a → (a.parents.map c).sum < c x := by
  obtain ⟨rk, hi, L, hL⟩ := hg
  obtain ⟨B, hB⟩ := FScene.exists_bound rk L
  obtain ⟨M, hM⟩ := FScene.exists_bound (fun x => ((w.nodes x).map fun a => a.parents.length).getD 0) L
  refine ⟨fun x => (M + 1) ^ (B - rk x + 1), fun x a ha => ?_⟩
  have hx := hL x (by simp [ha])
  have hm : a.parents.length ≤ M := by simpa [ha] using hM x hx
  have hp : ∀ v ∈ a.parents.map (fun x => (M + 1) ^ (B - rk x + 1)), v ≤ (M + 1) ^ (B - rk x) := by
    intro v hv
    obtain ⟨p, hp, rfl⟩ := List.mem_map.1 hv
    have hc := (hi.mirror p x (by simp)).mpr ⟨a, ha, hp⟩
    have h1 := hi.rank p x hc
    have h2 : rk p ≤ B := by
      obtain ⟨b, hb, _⟩ := hc
      exact hB p (hL p (by simp [hb]))
    exact Nat.pow_le_pow_right (by omega) (by omega)
  have := List.sum_le_card_nsmul _ _ hp
  rw [List.length_map, smul_eq_mul] at this
  have h3 : a.parents.length * (M + 1) ^ (B - rk x) ≤ M * (M + 1) ^ (B - rk x) := Nat.mul_le_mul_right _ hm
  have h4 : 0 < (M + 1) ^ (B - rk x) := Nat.pow_pos (by omega)
  have h5 : (M + 1) ^ (B - rk x + 1) = M * (M + 1) ^ (B - rk x) + (M + 1) ^ (B - rk x) := by rw [pow_succ]; ring
  show _ < (M + 1) ^ (B - rk x + 1)
  rw [h5]
  exact Nat.lt_of_le_of_lt (this.trans h3) (Nat.lt_add_of_pos_right h4)

theorem above_step {w : World} {rk : Nat → Nat} (hi : Inv rk (fun _ => False) w) {x : Nat} {a : FScene.Node} (ha : w.nodes x = some a) (y : Nat) :
    Ancestor w y x ↔ y ∈ a.parents ∨ ∃ p ∈ a.parents, Ancestor w y p := by
  rw [← FScene.ancestor_iff hi ha y]
  constructor
  · rintro ⟨p, hp, hd⟩
    rcases Relation.reflTransGen_iff_eq_or_transGen.1 hd with rfl | h
    · exact .inl hp
    · exact .inr ⟨p, hp, h⟩
  · rintro (h | ⟨p, hp, h⟩)
    · exact ⟨y, h, .refl⟩
    · exact ⟨p, hp, h.to_reflTransGen⟩

theorem aboveLoop_ok {w : World} {rk : Nat → Nat} (hi : Inv rk (fun _ => False) w) (sub : Nat → List Ch) {c : Nat → Nat}
    (hc : ∀ x a, w.nodes x = some a → (a.parents.map c).sum < c x) :
    ∀ (n cur : Nat) (pending : List Nat) (ids : List (List Ch)), c cur + (pending.map c).sum ≤ n → (w.nodes cur).isSome → (∀ p ∈ pending, (w.nodes p).isSome) →
      ∃ r, aboveLoop w sub n cur pending ids = some r ∧
        ∀ s, s ∈ r ↔ s ∈ ids ∨ s ≠ [] ∧ ∃ y, sub y = s ∧ (Ancestor w y cur ∨ ∃ p ∈ pending, Ancestor w y p) := by
  intro n
  induction n with
  | zero =>
    intro cur pending ids hn hx _
    obtain ⟨a, ha⟩ := Option.isSome_iff_exists.mp hx
    have := hc cur a ha
    omega
  | succ n ih =>
    intro cur pending ids hn hx hp
    obtain ⟨a, ha⟩ := Option.isSome_iff_exists.mp hx
    have hlt := hc cur a ha
    have hal : ∀ p ∈ pending ++ a.parents, (w.nodes p).isSome := by
      intro p hm
      rcases List.mem_append.1 hm with hm | hm
      · exact hp p hm
      · obtain ⟨b, hb, _⟩ := (hi.mirror p cur (by simp)).mpr ⟨a, ha, hm⟩
        simp [hb]
    have hsum : ((pending ++ a.parents).map c).sum ≤ n := by
      rw [List.map_append, List.sum_append]
      omega
    have hmem : ∀ s, s ∈ ids ++ (a.parents.map sub).filter (· ≠ []) ↔ s ∈ ids ∨ s ≠ [] ∧ ∃ y ∈ a.parents, sub y = s := by
      intro s
      simp only [List.mem_append, List.mem_filter, List.mem_map, ne_eq, decide_not, Bool.not_eq_eq_eq_not, Bool.not_true, decide_eq_false_iff_not]
      tauto
    rw [aboveLoop, ha, Option.bind_some]
    cases hq : pending ++ a.parents with
    | nil =>
      obtain ⟨rfl, h2⟩ := List.append_eq_nil_iff.1 hq
      refine ⟨_, rfl, fun s => ?_⟩
      rw [hmem]
      simp only [above_step hi ha, h2]
      simp
    | cons p rest =>
      rw [hq] at hal hsum
      obtain ⟨r, hr, hs⟩ := ih p rest (ids ++ (a.parents.map sub).filter (· ≠ [])) (by simpa using hsum) (hal p (by simp)) (fun q hm => hal q (by simp [hm]))
      refine ⟨r, hr, fun s => ?_⟩
      have hex : ∀ y, (Ancestor w y p ∨ ∃ q ∈ rest, Ancestor w y q) ↔ ((∃ q ∈ pending, Ancestor w y q) ∨ ∃ q ∈ a.parents, Ancestor w y q) := by
        intro y
        have : (∃ q ∈ p :: rest, Ancestor w y q) ↔ ∃ q ∈ pending ++ a.parents, Ancestor w y q := by rw [hq]
        simp only [List.mem_cons, List.mem_append, or_and_right, exists_or, exists_eq_left] at this
        exact this
      rw [hs, hmem]
      simp only [hex, above_step hi ha]
      constructor
      · rintro ((h | ⟨h, y, hy, e⟩) | ⟨h, y, e, hy⟩)
        · exact .inl h
        · exact .inr ⟨h, y, e, .inl (.inl hy)⟩
        · exact .inr ⟨h, y, e, hy.elim .inr fun h => .inl (.inr h)⟩
      · rintro (h | ⟨h, y, e, (h1 | h1) | h1⟩)
        · exact .inl (.inl h)
        · exact .inl (.inr ⟨h, y, h1, e⟩)
        · exact .inr ⟨h, y, e, .inr h1⟩
        · exact .inr ⟨h, y, e, .inl h1⟩

/-! ## The loop -/

theorem subLoop_ok {taken : List Ch → Option Bool} {T : List Ch → Prop} (hT : ∀ t, t ≠ [] → ∃ b, taken t = some b ∧ (b = true ↔ T t)) {id : List Ch} (hid : id ≠ []) :
    ∀ (n k : Nat), (∀ j < k, T (cand id j)) → ∃ m, k ≤ m ∧ m ≤ k + n ∧ subLoop taken id n k (cand id k) = some (cand id m) ∧ (∀ j < m, T (cand id j)) ∧
      (m < k + n → ¬ T (cand id m)) := by
  intro n
  induction n with
  | zero => intro k hk; exact ⟨k, by omega, by omega, rfl, hk, by omega⟩
  | succ n ih =>
    intro k hk
    obtain ⟨b, hb, hbT⟩ := hT _ (cand_ne_nil id hid k)
    rw [subLoop, hb, Option.bind_some]
    cases b with
    | true =>
      obtain ⟨m, h1, h2, h3, h4, h5⟩ := ih (k + 1) (by
        intro j hj
        by_cases e : j = k
        · subst e; exact hbT.1 rfl
        · exact hk j (by omega))
      refine ⟨m, by omega, by omega, ?_, h4, fun h => h5 (by omega)⟩
      rw [if_pos rfl, FBld.decimal_eq_numeral, ← h3]
      simp [cand]
    | false =>
      refine ⟨k, le_refl _, by omega, by simp, hk, fun _ hc => ?_⟩
      have := hbT.2 hc
      simp at this

theorem desc_or {w : World} {x y : Nat} : FScene.Desc w x y ↔ y = x ∨ Ancestor w x y := by
  rw [FScene.Desc, Relation.reflTransGen_iff_eq_or_transGen]
  rfl

/-- Whether a candidate is taken. -/
def Taken (w : World) (sub : Nat → List Ch) (x : Nat) (t : List Ch) : Prop := ∃ y, Related w x y ∧ sub y = t

theorem set_ok {w : World} (hr : FScene.Reach w) (sub : Nat → List Ch) {x : Nat} (hx : (w.nodes x).isSome) {id : List Ch} (hid : id ≠ []) (h0 : 0 ∉ id) :
    ∃ k ≤ 513, (∀ j < k, Taken w sub x (cand id j)) ∧ (k < 513 → ¬ Taken w sub x (cand id k)) ∧
      ∃ N, ∀ n ≥ N, setSubId n w sub x id = some (Function.update sub x (cand id k)) := by
  have hg := FScene.reach_good hr
  obtain ⟨c, hc⟩ := exists_weight hg
  obtain ⟨rk, hi, _⟩ := hg
  have hirr := (FScene.scene_shape w hr).1
  have main : ∀ n ≥ c x + rk x + 1, ∃ k ≤ 513, (∀ j < k, Taken w sub x (cand id j)) ∧ (k < 513 → ¬ Taken w sub x (cand id k)) ∧
      setSubId n w sub x id = some (Function.update sub x (cand id k)) := by
    intro n hn
    obtain ⟨above, ha, hs⟩ := aboveLoop_ok hi (Function.update sub x []) hc n x [] [] (by simp; omega) hx (by simp)
    have hT : ∀ t, t ≠ [] → ∃ b, isTaken n w (Function.update sub x []) x above t = some b ∧ (b = true ↔ Taken w sub x t) := by
      intro t ht
      obtain ⟨r, h1, h2⟩ := findSubId_ok hi (Function.update sub x []) t n x (by omega) hx
      refine ⟨r.isSome || above.contains t, by rw [isTaken, h1]; rfl, ?_⟩
      rw [Bool.or_eq_true, h2, List.contains_iff_mem, hs t, Taken]
      constructor
      · rintro (⟨y, hd, e⟩ | h)
        · rcases desc_or.1 hd with rfl | ha
          · rw [Function.update_self] at e; exact absurd e.symm ht
          · have : y ≠ x := by rintro rfl; exact hirr _ ha
            rw [Function.update_of_ne this] at e
            exact ⟨y, .inr ha, e⟩
        · rcases h with h | ⟨_, y, e, ha | ⟨p, hp, _⟩⟩
          · simp at h
          · have : y ≠ x := by rintro rfl; exact hirr _ ha
            rw [Function.update_of_ne this] at e
            exact ⟨y, .inl ha, e⟩
          · simp at hp
      · rintro ⟨y, ha, e⟩
        have : y ≠ x := by
          rintro rfl
          rcases ha with ha | ha <;> exact hirr _ ha
        rcases ha with ha | ha
        · exact .inr (.inr ⟨ht, y, by rw [Function.update_of_ne this, e], .inl ha⟩)
        · exact .inl ⟨y, desc_or.2 (.inr ha), by rw [Function.update_of_ne this, e]⟩
    obtain ⟨m, _, h2, h3, h4, h5⟩ := subLoop_ok hT hid 513 0 (by simp)
    refine ⟨m, by omega, h4, fun h => h5 (by omega), ?_⟩
    rw [setSubId, if_neg hid, ha, Option.bind_some, cleanSubId_eq id h0, Option.bind_some]
    rw [show FXml.cleaned false id = cand id 0 from rfl, h3, Option.map_some]
  obtain ⟨k, hk, h1, h2, h3⟩ := main _ (le_refl _)
  refine ⟨k, hk, h1, h2, c x + rk x + 1, fun n hn => ?_⟩
  obtain ⟨m, hm, h4, h5, h6⟩ := main n hn
  have : m = k := by
    rcases Nat.lt_trichotomy m k with h | h | h
    · exact absurd (h1 m h) (h5 (by omega))
    · exact h
    · exact absurd (h4 k h) (h2 (by omega))
  rw [h6, this]

/-! ## A node with many children -/

theorem star_reach : ∀ m : Nat, ∃ w, FScene.Reach w ∧ w.nodes 0 = some ⟨[], List.range' 1 m⟩ ∧ (∀ i, 1 ≤ i → i ≤ m → w.nodes i = some ⟨[0], []⟩) ∧
    (∀ i, m < i → w.nodes i = none) ∧ w.freed = [] := by
  intro m
  induction m with
  | zero =>
    have h1 : FScene.Reach _ := FScene.reach_run (op := .create 0) .start ⟨rfl, by simp⟩ ⟨0, fun n => rfl⟩
    refine ⟨_, h1, rfl, ?_, ?_, rfl⟩
    · intro i h1 h2; omega
    · intro i hi
      simp [FScene.put, Function.update_of_ne (show i ≠ 0 by omega)]
  | succ m ih =>
    obtain ⟨w, hr, h0, hk, hn, hf⟩ := ih
    have hnew := hn (m + 1) (by omega)
    have h1 : FScene.Reach (FScene.put w (m + 1) ⟨[], []⟩) :=
      FScene.reach_run (op := .create (m + 1)) hr ⟨hnew, by simp [hf]⟩ ⟨0, fun n => by simp [FScene.run, FScene.create, hnew, hf]⟩
    have e0 : (FScene.put w (m + 1) ⟨[], []⟩).nodes 0 = some ⟨[], List.range' 1 m⟩ := by simp [FScene.put, h0]
    have e1 : (FScene.put w (m + 1) ⟨[], []⟩).nodes (m + 1) = some ⟨[], []⟩ := by simp [FScene.put]
    obtain ⟨w', hl, hlk⟩ := FScene.link_ok (w := FScene.put w (m + 1) ⟨[], []⟩) (x := 0) (y := m + 1) (by omega) e0 e1
    have h2 : FScene.Reach w' := FScene.reach_run (op := .add 0 (some (m + 1))) h1 ⟨by simp [e0], by rintro z ⟨⟩; simp [e1]⟩ ⟨1, fun n => by
      have hm : m + 1 ∉ List.range' 1 m := by rw [List.mem_range'_1]; omega
      simp only [FScene.run, FScene.addChild, e0, Option.bind_some]
      rw [if_neg (by omega), if_neg hm]
      simp [FScene.search, hl]⟩
    refine ⟨w', h2, ?_, ?_, ?_, ?_⟩
    · obtain ⟨a, ha, hw⟩ := hlk.at_x
      rw [e0] at ha
      obtain rfl := Option.some.inj ha
      rw [hw, List.range'_concat]
      simp [Nat.add_comm]
    · intro i hi1 hi2
      by_cases e : i = m + 1
      · subst e
        obtain ⟨a, ha, hw⟩ := hlk.at_y
        rw [e1] at ha
        obtain rfl := Option.some.inj ha
        rw [hw]
        rfl
      · rw [hlk.others i (by omega) e]
        simp only [FScene.put]
        rw [Function.update_of_ne e]
        exact hk i hi1 (by omega)
    · intro i hi
      rw [hlk.others i (by omega) (by omega)]
      simp only [FScene.put]
      rw [Function.update_of_ne (by omega)]
      exact hn i (by omega)
    · rw [hlk.freed]
      exact hf

theorem star_related {w : World} {m : Nat} (h0 : w.nodes 0 = some ⟨[], List.range' 1 m⟩) (hk : ∀ i, 1 ≤ i → i ≤ m → w.nodes i = some ⟨[0], []⟩)
    (hn : ∀ i, m < i → w.nodes i = none) {i y : Nat} (hi : 1 ≤ i) (h : Related w i y) : y = 0 := by
  have hc : ∀ a b, Child w a b → a = 0 := by
    rintro a b ⟨v, hv, hb⟩
    by_contra ha
    by_cases hm : a ≤ m
    · rw [hk a (by omega) hm] at hv
      obtain rfl := Option.some.inj hv
      simp at hb
    · rw [hn a (by omega)] at hv
      simp at hv
  rcases h with h | h
  · rcases Relation.TransGen.head'_iff.1 h with ⟨z, hz, _⟩
    exact hc _ _ hz
  · rcases Relation.TransGen.head'_iff.1 h with ⟨z, hz, _⟩
    have := hc _ _ hz
    omega

theorem cand_a : ∀ i : Fin 514, FXml.cleaned false (cand [97] i.val) = cand [97] i.val ∧ 0 ∉ cand [97] i.val := by
  have h : ∀ k : Fin 513, FXml.cleaned false (97 :: 95 :: FBld.decimal k.val) = 97 :: 95 :: FBld.decimal k.val ∧ 0 ∉ FBld.decimal k.val := by decide +kernel
  rintro ⟨i, hi⟩
  cases i with
  | zero => exact (by decide : FXml.cleaned false (cand [97] 0) = cand [97] 0 ∧ 0 ∉ cand [97] 0)
  | succ k =>
    obtain ⟨h1, h2⟩ := h ⟨k, by omega⟩
    simp only [cand, ← FBld.decimal_eq_numeral]
    exact ⟨h1, by simpa using h2⟩

theorem star_subs {w : World} (hr : FScene.Reach w) (h0 : w.nodes 0 = some ⟨[], List.range' 1 514⟩) (hk : ∀ i, 1 ≤ i → i ≤ 514 → w.nodes i = some ⟨[0], []⟩)
    (hn : ∀ i, 514 < i → w.nodes i = none) : ∀ m ≤ 514, ∃ sub, SubReach w sub ∧ ∀ i, sub i = if 1 ≤ i ∧ i ≤ m then cand [97] (i - 1) else [] := by
  intro m
  induction m with
  | zero => intro _; exact ⟨_, .start, fun i => by rw [if_neg (by omega)]⟩
  | succ m ih =>
    intro hm
    obtain ⟨sub, hs, hsub⟩ := ih (by omega)
    have hne : cand [97] m ≠ [] := cand_ne_nil _ (by simp) m
    obtain ⟨hclean, hzero⟩ := cand_a ⟨m, by omega⟩
    have halive : (w.nodes (m + 1)).isSome := by simp [hk (m + 1) (by omega) hm]
    obtain ⟨k, _, h1, _, h3⟩ := set_ok hr sub halive hne hzero
    have hk0 : k = 0 := by
      by_contra hne'
      obtain ⟨y, hy, e⟩ := h1 0 (by omega)
      rw [star_related h0 hk hn (by omega) hy, hsub, if_neg (by omega)] at e
      exact cand_ne_nil _ hne 0 e.symm
    subst hk0
    refine ⟨_, .set hs halive hzero h3, fun i => ?_⟩
    by_cases e : i = m + 1
    · subst e
      rw [Function.update_self, if_pos (by omega)]
      exact hclean
    · rw [Function.update_of_ne e, hsub]
      by_cases h : 1 ≤ i ∧ i ≤ m
      · rw [if_pos h, if_pos (by omega)]
      · rw [if_neg h, if_neg (by omega)]

end Verif.FLib
