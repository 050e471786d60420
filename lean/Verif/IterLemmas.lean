import Verif.IterSpec
import Mathlib.Data.List.Nodup
import Mathlib.Tactic.Common

/-! # Lemmas for the scene node iterator -/

namespace Verif.FIter

theorem preOrder_stable {k : Nat → List Nat} {rk : Nat → Nat} (h : Ranked k rk) : ∀ (d e x : Nat), rk x ≤ d → rk x ≤ e →
    preOrder k d x = preOrder k e x := by
  intro d
  induction d with
  | zero =>
    intro e x hd he
    have hk : k x = [] := by
      apply List.eq_nil_iff_forall_not_mem.mpr
      intro y hy; have := h x y hy; omega
    cases e with
    | zero => rfl
    | succ e => simp [preOrder, hk]
  | succ d ih =>
    intro e x hd he
    cases e with
    | zero =>
      have hk : k x = [] := by
        apply List.eq_nil_iff_forall_not_mem.mpr
        intro y hy; have := h x y hy; omega
      simp [preOrder, hk]
    | succ e =>
      simp only [preOrder]
      congr 1
      apply List.flatMap_congr
      intro y hy
      have := h x y hy
      exact ih e y (by omega) (by omega)

theorem postOrder_stable {k : Nat → List Nat} {rk : Nat → Nat} (h : Ranked k rk) : ∀ (d e x : Nat), rk x ≤ d → rk x ≤ e →
    postOrder k d x = postOrder k e x := by
  intro d
  induction d with
  | zero =>
    intro e x hd he
    have hk : k x = [] := by
      apply List.eq_nil_iff_forall_not_mem.mpr
      intro y hy; have := h x y hy; omega
    cases e with
    | zero => rfl
    | succ e => simp [postOrder, hk]
  | succ d ih =>
    intro e x hd he
    cases e with
    | zero =>
      have hk : k x = [] := by
        apply List.eq_nil_iff_forall_not_mem.mpr
        intro y hy; have := h x y hy; omega
      simp [postOrder, hk]
    | succ e =>
      simp only [postOrder]
      congr 1
      apply List.flatMap_congr
      intro y hy
      have := h x y hy
      exact ih e y (by omega) (by omega)

/-- The order of a traversal. -/
def order (post : Bool) (k : Nat → List Nat) (d x : Nat) : List Nat := if post then postOrder k d x else preOrder k d x

/-- The order at the depth of the node itself. -/
def ord (post : Bool) (k : Nat → List Nat) (rk : Nat → Nat) (x : Nat) : List Nat := order post k (rk x) x

theorem ord_eq {k : Nat → List Nat} {rk : Nat → Nat} (h : Ranked k rk) (post : Bool) (x : Nat) :
    ord post k rk x = (if post then [] else [x]) ++ (k x).flatMap (ord post k rk) ++ (if post then [x] else []) := by
  cases post with
  | true =>
    have : ord true k rk x = postOrder k (rk x + 1) x := postOrder_stable h _ _ x (Nat.le_refl _) (by omega)
    rw [this]
    simp only [postOrder, if_true, List.nil_append]
    congr 1
    apply List.flatMap_congr
    intro y hy
    have := h x y hy
    exact postOrder_stable h _ _ y (by omega) (Nat.le_refl _)
  | false =>
    have : ord false k rk x = preOrder k (rk x + 1) x := preOrder_stable h _ _ x (Nat.le_refl _) (by omega)
    rw [this]
    simp only [preOrder, Bool.false_eq_true, if_false, List.append_nil, List.singleton_append]
    congr 1
    apply List.flatMap_congr
    intro y hy
    have := h x y hy
    exact preOrder_stable h _ _ y (by omega) (Nat.le_refl _)

theorem order_ord {k : Nat → List Nat} {rk : Nat → Nat} (h : Ranked k rk) (post : Bool) (d x : Nat) (hd : rk x ≤ d) : order post k d x = ord post k rk x := by
  cases post
  · exact preOrder_stable h _ _ x hd (Nat.le_refl _)
  · exact postOrder_stable h _ _ x hd (Nat.le_refl _)

theorem bfsNext_eq (G : Graph) (p : Bool) : bfsNext G p = kids G p := by
  funext x
  cases p
  · simp [bfsNext, kids]
  · simp only [bfsNext, kids, if_true, List.append_nil, Bool.not_true, Bool.false_or]
    congr 1
    funext c
    rw [beq_eq_decide]

/-! ## Breadth first -/

theorem bfs_level (G : Graph) (p : Bool) : ∀ (todo done : List Nat) (next : List Nat) (n : Nat),
    bfsLoop G p (todo.length + n) (done ++ todo ++ next) done.length =
      bfsLoop G p n (done ++ todo ++ (next ++ todo.flatMap (kids G p))) (done ++ todo).length := by
  intro todo
  induction todo with
  | nil => intro done next n; simp
  | cons x todo ih =>
    intro done next n
    rw [List.length_cons, show todo.length + 1 + n = (todo.length + n) + 1 by omega]
    have hx : (done ++ x :: todo ++ next)[done.length]? = some x := by simp
    simp only [bfsLoop, hx, bfsNext_eq]
    have := ih (done ++ [x]) (next ++ kids G p x) n
    simp only [List.length_append, List.append_assoc, List.length_cons, List.flatMap_cons,
      List.nil_append, List.cons_append] at this ⊢
    exact this

theorem bfs_levels (G : Graph) (p : Bool) (root : Nat) : ∀ h, ∃ c, ∀ n,
    bfsLoop G p (c + n) [root] 0 =
      bfsLoop G p n ((List.range h).flatMap (level (kids G p) root) ++ level (kids G p) root h) ((List.range h).flatMap (level (kids G p) root)).length := by
  intro h
  induction h with
  | zero => exact ⟨0, by simp [level]⟩
  | succ h ih =>
    obtain ⟨c, hc⟩ := ih
    refine ⟨c + (level (kids G p) root h).length, ?_⟩
    intro n
    rw [Nat.add_assoc, hc]
    have := bfs_level G p (level (kids G p) root h) ((List.range h).flatMap (level (kids G p) root)) [] n
    rw [List.append_nil] at this
    rw [this, List.range_succ, List.flatMap_append]
    simp [level]

theorem level_rank {k : Nat → List Nat} {rk : Nat → Nat} (h : Ranked k rk) (root : Nat) : ∀ d, ∀ x ∈ level k root d, rk x + d ≤ rk root := by
  intro d
  induction d with
  | zero => simp [level]
  | succ d ih =>
    intro x hx
    simp only [level, List.mem_flatMap] at hx
    obtain ⟨y, hy, hxy⟩ := hx
    have := ih y hy
    have := h y x hxy
    omega

theorem level_empty {k : Nat → List Nat} {rk : Nat → Nat} (h : Ranked k rk) (root : Nat) : level k root (rk root + 1) = [] := by
  apply List.eq_nil_iff_forall_not_mem.mpr
  intro y hy
  have := level_rank h root _ y hy
  omega

/-! ## Depth first -/

theorem leaf_kids {G : Graph} {x : Nat} (h : isLeaf G x = true) (p : Bool) : kids G p x = [] := by
  simp only [isLeaf, Bool.and_eq_true, List.isEmpty_iff] at h
  cases p <;> simp [kids, h]

theorem leaf_ord {G : Graph} {rk : Nat → Nat} {post p : Bool} (h : Ranked (kids G p) rk) {x : Nat} (hl : isLeaf G x = true) :
    ord post (kids G p) rk x = [x] := by
  rw [ord_eq h, leaf_kids hl]
  cases post <;> simp

/-- The nodes below `x` from the counter `i` on. -/
def kidsFrom (G : Graph) (p : Bool) (x i : Nat) : List Nat :=
  if p then ((G.children x).drop i).filter fun c => G.parent0 c = some x
  else (G.children x).drop i ++ ((G.insts x).drop (i - (G.children x).length)).filterMap id

theorem kidsFrom_zero (G : Graph) (p : Bool) (x : Nat) : kidsFrom G p x 0 = kids G p x := by
  cases p <;> simp [kidsFrom, kids]

theorem instLoop_spec (G : Graph) (V : Nat → List Nat) (hV : ∀ z, isLeaf G z = true → V z = [z]) : ∀ (rem : List (Option Nat)) (i : Nat) (queue : List Nat),
    ∃ j, (instLoop G rem i queue).1 = i + j ∧ j ≤ rem.length ∧ (rem ≠ [] → 0 < j) ∧
      (instLoop G rem i queue).2.2 ++ ((instLoop G rem i queue).2.1.toList ++ (rem.drop j).filterMap id).flatMap V =
        queue ++ (rem.filterMap id).flatMap V ∧
      ((instLoop G rem i queue).2.1 = none → j = rem.length) ∧
      (∀ add, (instLoop G rem i queue).2.1 = some add → some add ∈ rem ∧ isLeaf G add = false) := by
  intro rem
  induction rem with
  | nil => intro i queue; exact ⟨0, by simp [instLoop]⟩
  | cons r rem ih =>
    intro i queue
    cases r with
    | none =>
      obtain ⟨j, h1, h2, h3, h4, h5, h6⟩ := ih (i + 1) queue
      refine ⟨j + 1, ?_, ?_, by simp, ?_, ?_, ?_⟩
      · simp only [instLoop]; omega
      · simp; omega
      · simpa [instLoop] using h4
      · simp only [instLoop, List.length_cons]; intro h; have := h5 h; omega
      · simp only [instLoop]; intro add h; have := h6 add h; simp [this]
    | some add =>
      by_cases hl : isLeaf G add = true
      · obtain ⟨j, h1, h2, h3, h4, h5, h6⟩ := ih (i + 1) (queue ++ [add])
        refine ⟨j + 1, ?_, ?_, by simp, ?_, ?_, ?_⟩
        · simp only [instLoop, hl, if_true]; omega
        · simp; omega
        · simp only [instLoop, hl, if_true, List.drop_succ_cons, h4]
          simp [hV add hl]
        · simp only [instLoop, hl, if_true, List.length_cons]; intro h; have := h5 h; omega
        · simp only [instLoop, hl, if_true]; intro z h; have := h6 z h; simp [this]
      · refine ⟨1, ?_, ?_, by simp, ?_, ?_, ?_⟩
        · simp [instLoop, hl]
        · simp
        · simp [instLoop, hl]
        · simp [instLoop, hl]
        · simp only [instLoop, hl]
          intro z h
          simp only [Bool.false_eq_true, if_false, Option.some.injEq] at h
          subst h
          simpa using hl

/-- No undefined behaviour at line 95: there are no instances to process, or the depth stays below the first capacity. -/
def Room (G : Graph) (p : Bool) (depth : Nat) : Prop := p = true ∨ (∀ x z, some z ∉ G.insts x) ∨ depth ≤ 7

theorem dfs_ok {G : Graph} {post p : Bool} {rk : Nat → Nat} (h : Ranked (kids G p) rk)
    (hpre : post = true ∨ p = true ∨ ∀ x z, some z ∈ G.insts x → isLeaf G z = true) : ∀ (r x : Nat), rk x ≤ r → ∀ (s i : Nat),
    i ≤ (G.children x).length + (G.insts x).length → (G.children x).length + (G.insts x).length - i ≤ s →
    ∃ c, ∀ st queue cap, 8 ≤ cap → Room G p (st.length + rk x) → ∃ cap', cap ≤ cap' ∧ ∀ n,
      dfsLoop G post p (c + n) cap ((x, i) :: st) queue =
        dfsLoop G post p n cap' st (queue ++ (kidsFrom G p x i).flatMap (ord post (kids G p) rk) ++ (if post then [x] else [])) := by
  intro r
  induction r using Nat.strongRecOn with
  | ind r ihr =>
  intro x hr s
  induction s with
  | zero =>
    -- nothing left
    intro i hi hs
    refine ⟨1, ?_⟩
    intro st queue cap hcap hroom
    refine ⟨cap, Nat.le_refl _, ?_⟩
    intro n
    have h1 : (G.children x)[i]? = none := List.getElem?_eq_none (by omega)
    have h2 : kidsFrom G p x i = [] := by
      simp only [kidsFrom]
      rw [List.drop_eq_nil_of_le (by omega), List.drop_eq_nil_of_le (by omega)]
      cases p <;> simp
    rw [Nat.add_comm 1 n]
    simp only [dfsLoop, h1]
    rw [if_neg (by omega), h2]
    cases post <;> simp
  | succ s ih =>
    intro i hi hs
    by_cases hic : i < (G.children x).length
    · -- a child
      have h1 : (G.children x)[i]? = some (G.children x)[i] := List.getElem?_eq_getElem hic
      generalize hadd : (G.children x)[i] = add at h1
      have hdrop : (G.children x).drop i = add :: (G.children x).drop (i + 1) := by
        rw [← hadd]; exact (List.getElem_cons_drop (h := hic)).symm
      obtain ⟨c, hc⟩ := ih (i + 1) (by omega) (by omega)
      by_cases hskip : (p && G.parent0 add != some x) = true
      · refine ⟨c + 1, ?_⟩
        intro st queue cap hcap hroom
        obtain ⟨cap', h2, h3⟩ := hc st queue cap hcap hroom
        refine ⟨cap', h2, ?_⟩
        intro n
        rw [show c + 1 + n = (c + n) + 1 by omega]
        simp only [dfsLoop, h1, hskip, if_true]
        rw [h3]
        have : kidsFrom G p x i = kidsFrom G p x (i + 1) := by
          simp only [Bool.and_eq_true, bne_iff_ne, ne_eq] at hskip
          simp [kidsFrom, hskip.1, hdrop, hskip.2]
        rw [this]
      · have hk : kidsFrom G p x i = add :: kidsFrom G p x (i + 1) := by
          cases p with
          | true =>
            have : G.parent0 add = some x := by simpa using hskip
            simp [kidsFrom, hdrop, this]
          | false =>
            have e : i - (G.children x).length = i + 1 - (G.children x).length := by omega
            simp [kidsFrom, hdrop, e]
        have hmem : add ∈ kids G p x := by
          have hm : add ∈ G.children x := by rw [← hadd]; exact List.getElem_mem hic
          cases p with
          | true =>
            have : G.parent0 add = some x := by simpa using hskip
            simp [kids, hm, this]
          | false => simp [kids, hm]
        have hrk := h x add hmem
        by_cases hl : isLeaf G add = true
        · refine ⟨c + 1, ?_⟩
          intro st queue cap hcap hroom
          obtain ⟨cap', h2, h3⟩ := hc st (queue ++ [add]) cap hcap hroom
          refine ⟨cap', h2, ?_⟩
          intro n
          rw [show c + 1 + n = (c + n) + 1 by omega]
          simp only [dfsLoop, h1, hskip, hl, if_true]
          rw [if_neg (by simp), h3, hk, List.flatMap_cons, leaf_ord h hl]
          simp
        · obtain ⟨c', hc'⟩ := ihr (rk add) (by omega) add (Nat.le_refl _) _ 0 (by omega) (Nat.le_refl _)
          refine ⟨c' + c + 1, ?_⟩
          intro st queue cap hcap hroom
          have hcap' : 8 ≤ pushCap cap (st.length + 1) := by
            simp only [pushCap]
            split <;> omega
          have hge : cap ≤ pushCap cap (st.length + 1) := by
            simp only [pushCap]
            split <;> omega
          obtain ⟨cap1, g1, g2⟩ := hc' ((x, i + 1) :: st) (if post then queue else queue ++ [add]) _ hcap' (by
            rcases hroom with hr | hr | hr
            · exact Or.inl hr
            · exact Or.inr (Or.inl hr)
            · right; right; simp only [List.length_cons]; omega)
          obtain ⟨cap2, g3, g4⟩ := hc st ((if post then queue else queue ++ [add]) ++ (kidsFrom G p add 0).flatMap (ord post (kids G p) rk) ++
            (if post then [add] else [])) cap1 (by omega) hroom
          refine ⟨cap2, by omega, ?_⟩
          intro n
          rw [show c' + c + 1 + n = (c' + (c + n)) + 1 by omega]
          simp only [dfsLoop, h1, hskip, hl]
          rw [if_neg (by simp), if_neg (by simp), g2, g4, hk, List.flatMap_cons, kidsFrom_zero, ord_eq h post add]
          cases post <;> simp
    · by_cases hcond : i < (G.children x).length + (G.insts x).length ∧ p = false
      · -- the instances
        obtain ⟨hlt, hp⟩ := hcond
        subst hp
        have h1 : (G.children x)[i]? = none := List.getElem?_eq_none (by omega)
        have hV : ∀ z, isLeaf G z = true → ord post (kids G false) rk z = [z] := fun z hz => leaf_ord h hz
        have hrem : (G.insts x).drop (i - (G.children x).length) ≠ [] := by
          intro e
          have := congrArg List.length e
          simp only [List.length_drop, List.length_nil] at this
          omega
        have hk : ∀ m, (G.children x).length ≤ m → kidsFrom G false x m = ((G.insts x).drop (m - (G.children x).length)).filterMap id := by
          intro m hm
          simp [kidsFrom, List.drop_eq_nil_of_le hm]
        generalize hR : (G.insts x).drop (i - (G.children x).length) = rem at hrem
        have hlen : rem.length = (G.children x).length + (G.insts x).length - i := by
          rw [← hR, List.length_drop]; omega
        have hsub : ∀ z, some z ∈ rem → some z ∈ G.insts x := by
          intro z hz; rw [← hR] at hz; exact List.mem_of_mem_drop hz
        obtain ⟨j, a1, a2, a3, _, a5, a6⟩ := instLoop_spec G _ hV rem i []
        have hind : ∀ (rm : List (Option Nat)) (m : Nat) (q : List Nat), (instLoop G rm m q).1 = (instLoop G rm m []).1 ∧
            (instLoop G rm m q).2.1 = (instLoop G rm m []).2.1 ∧ (instLoop G rm m q).2.2 = q ++ (instLoop G rm m []).2.2 := by
          intro rm
          induction rm with
          | nil => intro m q; simp [instLoop]
          | cons o rm ihm =>
            intro m q
            cases o with
            | none => simpa [instLoop] using ihm (m + 1) q
            | some z =>
              by_cases hz : isLeaf G z = true
              · obtain ⟨b1, b2, b3⟩ := ihm (m + 1) (q ++ [z])
                obtain ⟨d1, d2, d3⟩ := ihm (m + 1) [z]
                simp only [instLoop, hz, if_true, List.nil_append]
                rw [b1, b2, b3, d1, d2, d3]
                simp
              · simp [instLoop, hz]
        have hj := a3 hrem
        obtain ⟨c, hc⟩ := ih (i + j) (by omega) (by omega)
        cases hq : (instLoop G rem i []).2.1 with
        | none =>
          refine ⟨c + 1, ?_⟩
          intro st queue cap hcap hroom
          obtain ⟨j', b1, b2, b3, b4, b5, b6⟩ := instLoop_spec G _ hV rem i queue
          obtain ⟨d1, d2, d3⟩ := hind rem i queue
          have hjj : j' = j := by omega
          subst hjj
          obtain ⟨cap', h2, h3⟩ := hc st (instLoop G rem i queue).2.2 cap hcap hroom
          refine ⟨cap', h2, ?_⟩
          intro n
          rw [show c + 1 + n = (c + n) + 1 by omega]
          have hres : instLoop G rem i queue = (i + j', none, (instLoop G rem i queue).2.2) := by
            rw [← b1, ← hq, ← d2]
          simp only [dfsLoop, h1]
          rw [if_pos ⟨hlt, trivial⟩, hR, hres]
          show dfsLoop G post false (c + n) cap ((x, i + j') :: st) (instLoop G rem i queue).2.2 = _
          rw [h3, hk i (by omega), hk (i + j') (by omega), hR]
          rw [d2, hq] at b4
          simp only [Option.toList_none, List.nil_append] at b4
          have e : (G.insts x).drop (i + j' - (G.children x).length) = rem.drop j' := by
            rw [← hR, List.drop_drop]; congr 1; omega
          rw [e, b4]
        | some add =>
          obtain ⟨hm, hnl⟩ := a6 add hq
          have hmi := hsub add hm
          have hmem : add ∈ kids G false x := by
            simp only [kids, Bool.false_eq_true, if_false, List.mem_append, List.mem_filterMap, id_eq, exists_eq_right]
            exact Or.inr hmi
          have hrk := h x add hmem
          have hpost : post = true := by
            rcases hpre with hp | hp | hp
            · exact hp
            · simp at hp
            · rw [hp x add hmi] at hnl; simp at hnl
          subst hpost
          obtain ⟨c', hc'⟩ := ihr (rk add) (by omega) add (Nat.le_refl _) _ 0 (by omega) (Nat.le_refl _)
          refine ⟨c' + c + 1, ?_⟩
          intro st queue cap hcap hroom
          obtain ⟨j', b1, b2, b3, b4, b5, b6⟩ := instLoop_spec G _ hV rem i queue
          obtain ⟨d1, d2, d3⟩ := hind rem i queue
          have hjj : j' = j := by omega
          subst hjj
          have hroom' : st.length + rk x ≤ 7 := by
            rcases hroom with hr | hr | hr
            · simp at hr
            · exact absurd hmi (hr x add)
            · exact hr
          obtain ⟨cap1, g1, g2⟩ := hc' ((x, i + j') :: st) (instLoop G rem i queue).2.2 cap hcap (by
            right; right; simp only [List.length_cons]; omega)
          obtain ⟨cap2, g3, g4⟩ := hc st ((instLoop G rem i queue).2.2 ++ (kidsFrom G false add 0).flatMap (ord true (kids G false) rk) ++
            (if true then [add] else [])) cap1 (by omega) hroom
          refine ⟨cap2, by omega, ?_⟩
          intro n
          rw [show c' + c + 1 + n = (c' + (c + n)) + 1 by omega]
          have hres : instLoop G rem i queue = (i + j', some add, (instLoop G rem i queue).2.2) := by
            rw [← b1, ← hq, ← d2]
          simp only [dfsLoop, h1]
          rw [if_pos ⟨hlt, trivial⟩, hR, hres]
          show (if st.length + 1 = cap then none else
            dfsLoop G true false (c' + (c + n)) cap ((add, 0) :: (x, i + j') :: st) (instLoop G rem i queue).2.2) = _
          rw [if_neg (by omega), g2, g4, hk i (by omega), hk (i + j') (by omega), hR]
          rw [d2, hq] at b4
          have e : (G.insts x).drop (i + j' - (G.children x).length) = rem.drop j' := by
            rw [← hR, List.drop_drop]; congr 1; omega
          rw [e]
          have b4' := b4.symm
          simp only [Option.toList_some, List.singleton_append, List.flatMap_cons] at b4'
          rw [b4', ord_eq h true add, kidsFrom_zero]
          simp
      · refine ⟨1, ?_⟩
        intro st queue cap hcap hroom
        refine ⟨cap, Nat.le_refl _, ?_⟩
        intro n
        have h1 : (G.children x)[i]? = none := List.getElem?_eq_none (Nat.le_of_not_lt hic)
        have h2 : kidsFrom G p x i = [] := by
          cases p with
          | true => simp [kidsFrom, List.drop_eq_nil_of_le (Nat.le_of_not_lt hic)]
          | false =>
            have hge : ¬ i < (G.children x).length + (G.insts x).length := fun hlt => hcond ⟨hlt, rfl⟩
            simp only [kidsFrom]
            rw [List.drop_eq_nil_of_le (by omega), List.drop_eq_nil_of_le (by omega)]
            simp
        rw [Nat.add_comm 1 n]
        simp only [dfsLoop, h1]
        rw [if_neg hcond, h2]
        cases post <;> simp

/-! ## The nodes that are listed -/

theorem mem_preOrder {k : Nat → List Nat} {rk : Nat → Nat} (h : Ranked k rk) : ∀ (d x z : Nat), rk x ≤ d → (z ∈ preOrder k d x ↔ Below k x z) := by
  intro d
  induction d with
  | zero =>
    intro x z hd
    have hk : ∀ y, y ∉ k x := by
      intro y hy; have := h x y hy; omega
    simp only [preOrder, List.mem_singleton]
    constructor
    · rintro rfl; exact .refl
    · intro hz
      rcases Relation.ReflTransGen.cases_head hz with e | ⟨c, hc, _⟩
      · exact e.symm
      · exact absurd hc (hk c)
  | succ d ih =>
    intro x z hd
    simp only [preOrder, List.mem_cons, List.mem_flatMap]
    constructor
    · rintro (rfl | ⟨y, hy, hz⟩)
      · exact .refl
      · have := h x y hy
        exact .head hy ((ih y z (by omega)).mp hz)
    · intro hz
      rcases Relation.ReflTransGen.cases_head hz with e | ⟨y, hy, hyz⟩
      · exact Or.inl e.symm
      · have := h x y hy
        exact Or.inr ⟨y, hy, (ih y z (by omega)).mpr hyz⟩

theorem post_perm_pre (k : Nat → List Nat) : ∀ d x, (postOrder k d x).Perm (preOrder k d x) := by
  intro d
  induction d with
  | zero => intro x; exact .refl _
  | succ d ih =>
    intro x
    simp only [postOrder, preOrder]
    refine List.perm_append_singleton _ _ |>.trans (List.Perm.cons _ ?_)
    generalize k x = l
    induction l with
    | nil => exact .refl _
    | cons y l ihl =>
      simp only [List.flatMap_cons]
      exact (ih y).append ihl

/-- Levels below a list of nodes. -/
def levels (k : Nat → List Nat) (L : List Nat) : Nat → List Nat
  | 0 => L
  | d + 1 => levels k (L.flatMap k) d

theorem levels_succ (k : Nat → List Nat) : ∀ d L, levels k L (d + 1) = (levels k L d).flatMap k := by
  intro d
  induction d with
  | zero => intro L; rfl
  | succ d ih => intro L; exact ih (L.flatMap k)

theorem level_levels (k : Nat → List Nat) (root : Nat) : ∀ d, level k root d = levels k [root] d := by
  intro d
  induction d with
  | zero => rfl
  | succ d ih => rw [levels_succ, ← ih]; rfl

theorem levels_perm (k : Nat → List Nat) : ∀ d L, ((List.range (d + 1)).flatMap (levels k L)).Perm (L.flatMap (preOrder k d)) := by
  intro d
  induction d with
  | zero =>
    intro L
    have : L.flatMap (preOrder k 0) = L := by
      have e : preOrder k 0 = fun x => [x] := rfl
      rw [e]; simp
    rw [this]; simp [levels]
  | succ d ih =>
    intro L
    rw [List.range_succ_eq_map, List.flatMap_cons, List.flatMap_map]
    show (L ++ (List.range (d + 1)).flatMap (levels k (L.flatMap k))).Perm _
    refine ((ih (L.flatMap k)).append_left L).trans ?_
    clear ih
    induction L with
    | nil => exact .refl _
    | cons x L ihL =>
      simp only [List.flatMap_cons, List.flatMap_append, preOrder, List.cons_append]
      refine List.Perm.cons _ ?_
      refine List.Perm.trans ?_ (ihL.append_left _)
      rw [← List.append_assoc, ← List.append_assoc]
      exact List.perm_append_comm.append_right _

theorem levelOrder_perm (k : Nat → List Nat) (d root : Nat) : (levelOrder k d root).Perm (preOrder k d root) := by
  have h1 : level k root = levels k [root] := by funext d; exact level_levels k root d
  simp only [levelOrder, h1]
  have := levels_perm k d [root]
  simpa using this

theorem below_rank {k : Nat → List Nat} {rk : Nat → Nat} (h : Ranked k rk) {x z : Nat} (hz : Below k x z) : rk z ≤ rk x := by
  induction hz with
  | refl => exact Nat.le_refl _
  | tail _ hc ih => have := h _ _ hc; omega

theorem below_chain {k : Nat → List Nat} (h : Tree k) {a z : Nat} (ha : Below k a z) : ∀ {b}, Below k b z → Below k a b ∨ Below k b a := by
  induction ha with
  | refl => intro b hb; exact Or.inr hb
  | tail hp hc ih =>
    intro b hb
    rcases Relation.ReflTransGen.cases_tail hb with e | ⟨q, hq, hqz⟩
    · subst e; exact Or.inl (.tail hp hc)
    · have := h.2 _ _ _ hc hqz
      subst this
      exact ih hq

theorem preOrder_nodup {k : Nat → List Nat} {rk : Nat → Nat} (h : Ranked k rk) (ht : Tree k) : ∀ (d x : Nat), rk x ≤ d → (preOrder k d x).Nodup := by
  intro d
  induction d with
  | zero => intro x _; simp [preOrder]
  | succ d ih =>
    intro x hd
    simp only [preOrder, List.nodup_cons, List.mem_flatMap, not_exists, not_and]
    refine ⟨?_, ?_⟩
    · intro y hy hx
      have := h x y hy
      have := below_rank h ((mem_preOrder h d y x (by omega)).mp hx)
      omega
    · rw [List.nodup_flatMap]
      refine ⟨fun y hy => ih y (by have := h x y hy; omega), ?_⟩
      refine List.Pairwise.imp_of_mem ?_ (ht.1 x)
      intro y y' hy hy' hne
      have r1 := h x y hy
      have r2 := h x y' hy'
      show List.Disjoint (preOrder k d y) (preOrder k d y')
      intro z hz hz'
      have b1 := (mem_preOrder h d y z (by omega)).mp hz
      have b2 := (mem_preOrder h d y' z (by omega)).mp hz'
      have key : ∀ u v, u ∈ k x → v ∈ k x → u ≠ v → ¬ Below k u v := by
        intro u v hu hv huv hb
        rcases Relation.ReflTransGen.cases_tail hb with e | ⟨q, hq, hqv⟩
        · exact huv e.symm
        · have := ht.2 _ _ _ hqv hv
          subst this
          have h1 := below_rank h hq
          have h2 := h _ _ hu
          omega
      rcases below_chain ht b1 b2 with hb | hb
      · exact key y y' hy hy' hne hb
      · exact key y' y hy' hy (Ne.symm hne) hb

end Verif.FIter
