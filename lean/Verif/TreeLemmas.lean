import Verif.TreeSpec

/-! Helper lemmas for the `fm::tree` model: balance invariant, in-order contents, climbing loops. -/

namespace Verif.FTree

variable {K V : Type}

/-- In-order contents. -/
def Tree.toList : Tree K V → List (K × V)
  | .nil => []
  | .node l k v _ r => l.toList ++ (k, v) :: r.toList

/-- Entries to the left of a hole. -/
def ctxL : List (Frame K V) → List (K × V)
  | [] => []
  | .left _ _ _ _ :: fs => ctxL fs
  | .right l k v _ :: fs => ctxL fs ++ (l.toList ++ [(k, v)])

/-- Entries to the right of a hole. -/
def ctxR : List (Frame K V) → List (K × V)
  | [] => []
  | .left k v _ r :: fs => ((k, v) :: r.toList) ++ ctxR fs
  | .right _ _ _ _ :: fs => ctxR fs

/-- Ancestors are balanced when the hole has depth `h`. -/
def CtxBal : List (Frame K V) → Nat → Prop
  | [], _ => True
  | .left _ _ w r :: fs, h => r.Bal ∧ w = (r.height : Int) - h ∧ -1 ≤ w ∧ w ≤ 1 ∧ CtxBal fs (max h r.height + 1)
  | .right l _ _ w :: fs, h => l.Bal ∧ w = (h : Int) - l.height ∧ -1 ≤ w ∧ w ≤ 1 ∧ CtxBal fs (max l.height h + 1)

theorem toList_plug (t : Tree K V) (fs : List (Frame K V)) :
    (plug t fs).toList = ctxL fs ++ t.toList ++ ctxR fs := by
  induction fs generalizing t with
  | nil => simp [plug, ctxL, ctxR]
  | cons f fs ih => cases f <;> simp [plug, Frame.fill, ih, Tree.toList, ctxL, ctxR, List.append_assoc]

theorem bal_plug (t : Tree K V) (fs : List (Frame K V)) (ht : t.Bal) (hc : CtxBal fs t.height) :
    (plug t fs).Bal := by
  induction fs generalizing t with
  | nil => simpa [plug]
  | cons f fs ih =>
    cases f <;> simp only [CtxBal] at hc <;> simp only [plug, Frame.fill] <;> apply ih <;>
      simp only [Tree.Bal, Tree.height] <;> grind

theorem ctxL_append (a b : List (Frame K V)) : ctxL (a ++ b) = ctxL b ++ ctxL a := by
  induction a with
  | nil => simp [ctxL]
  | cons f fs ih => cases f <;> simp [ctxL, ih]

theorem ctxR_append (a b : List (Frame K V)) : ctxR (a ++ b) = ctxR a ++ ctxR b := by
  induction a with
  | nil => simp [ctxR]
  | cons f fs ih => cases f <;> simp [ctxR, ih]

/-- A node whose children are balanced and whose weight is the depth difference, without the bound on it. -/
def NearBal : Tree K V → Prop
  | .nil => False
  | .node l _ _ w r => l.Bal ∧ r.Bal ∧ w = (r.height : Int) - l.height

theorem balanceRight_spec (t : Tree K V) (h : NearBal t) (hw : t.weight? = some 2) :
    ∃ t', balanceRight t = some t' ∧ t'.Bal ∧ t'.toList = t.toList ∧
      (∀ l k v w rl rk rv rw rr, t = .node l k v w (.node rl rk rv rw rr) →
        t'.height = (if rw = 0 then t.height else t.height - 1) ∧
        t'.weight? = some (if rw = 0 then -1 else 0)) := by
  rcases t with _ | ⟨l, k, v, w, r⟩
  · exact h.elim
  obtain ⟨hl, hr, hwe⟩ := h
  simp only [Tree.weight?, Option.some.injEq] at hw
  rcases r with _ | ⟨rl, rk, rv, rw, rr⟩
  · simp only [Tree.height] at hwe; omega
  obtain ⟨hrl, hrr, hrw, h1, h2⟩ := hr
  simp only [Tree.height] at hwe
  simp only [balanceRight]
  by_cases hneg : rw < 0
  · simp only [hneg, if_true]
    rcases rl with _ | ⟨a, ak, av, aw, b⟩
    · simp only [Tree.height] at *; omega
    obtain ⟨ha, hb, haw, h3, h4⟩ := hrl
    simp only [Tree.height] at hwe hrw
    simp only [rotateRight, rotateLeft, Option.bind_some]
    refine ⟨_, rfl, ?_, ?_, ?_⟩
    · simp only [Tree.Bal, Tree.height]
      refine ⟨⟨hl, ha, ?_⟩, ⟨hb, hrr, ?_⟩, ?_⟩ <;> grind
    · simp [Tree.toList]
    · intro l' k' v' w' rl' rk' rv' rw' rr' heq
      injection heq with e1 e2 e3 e4 e5
      injection e5 with e6 e7 e8 e9 e10
      subst e9
      simp only [Tree.height, Tree.weight?]
      refine ⟨?_, ?_⟩ <;> grind
  · simp only [hneg, if_false, rotateLeft]
    refine ⟨_, rfl, ?_, ?_, ?_⟩
    · simp only [Tree.Bal, Tree.height]
      refine ⟨⟨hl, hrl, ?_⟩, hrr, ?_⟩ <;> grind
    · simp [Tree.toList]
    · intro l' k' v' w' rl' rk' rv' rw' rr' heq
      injection heq with e1 e2 e3 e4 e5
      injection e5 with e6 e7 e8 e9 e10
      subst e9
      simp only [Tree.height, Tree.weight?]
      refine ⟨?_, ?_⟩ <;> grind

theorem balanceLeft_spec (t : Tree K V) (h : NearBal t) (hw : t.weight? = some (-2)) :
    ∃ t', balanceLeft t = some t' ∧ t'.Bal ∧ t'.toList = t.toList ∧
      (∀ l k v w ll lk lv lw lr, t = .node (.node ll lk lv lw lr) k v w l →
        t'.height = (if lw = 0 then t.height else t.height - 1) ∧
        t'.weight? = some (if lw = 0 then 1 else 0)) := by
  rcases t with _ | ⟨l, k, v, w, r⟩
  · exact h.elim
  obtain ⟨hl, hr, hwe⟩ := h
  simp only [Tree.weight?, Option.some.injEq] at hw
  rcases l with _ | ⟨ll, lk, lv, lw, lr⟩
  · simp only [Tree.height] at hwe; omega
  obtain ⟨hll, hlr, hlw, h1, h2⟩ := hl
  simp only [Tree.height] at hwe
  simp only [balanceLeft]
  by_cases hpos : lw > 0
  · simp only [hpos, if_true]
    rcases lr with _ | ⟨a, ak, av, aw, b⟩
    · simp only [Tree.height] at *; omega
    obtain ⟨ha, hb, haw, h3, h4⟩ := hlr
    simp only [Tree.height] at hwe hlw
    simp only [rotateRight, rotateLeft, Option.bind_some]
    refine ⟨_, rfl, ?_, ?_, ?_⟩
    · simp only [Tree.Bal, Tree.height]
      refine ⟨⟨hll, ha, ?_⟩, ⟨hb, hr, ?_⟩, ?_⟩ <;> grind
    · simp [Tree.toList]
    · intro l' k' v' w' ll' lk' lv' lw' lr' heq
      injection heq with e1 e2 e3 e4 e5
      injection e1 with e6 e7 e8 e9 e10
      subst e9
      simp only [Tree.height, Tree.weight?]
      refine ⟨?_, ?_⟩ <;> grind
  · simp only [hpos, if_false, rotateRight]
    refine ⟨_, rfl, ?_, ?_, ?_⟩
    · simp only [Tree.Bal, Tree.height]
      refine ⟨hll, ⟨hlr, hr, ?_⟩, ?_⟩ <;> grind
    · simp [Tree.toList]
    · intro l' k' v' w' ll' lk' lv' lw' lr' heq
      injection heq with e1 e2 e3 e4 e5
      injection e1 with e6 e7 e8 e9 e10
      subst e9
      simp only [Tree.height, Tree.weight?]
      refine ⟨?_, ?_⟩ <;> grind

/-- One child has just grown by one level (from a total depth `H`) and this node's weight has been updated. -/
def Grown : Tree K V → Nat → Prop
  | .nil, _ => False
  | .node l _ _ _ r, H =>
    (∃ h, l.height = h + 1 ∧ (-1 : Int) ≤ (r.height : Int) - h ∧ (r.height : Int) - h ≤ 1 ∧
        H = max h r.height + 1 ∧ (h = 0 ∨ l.weight? ≠ some 0)) ∨
    (∃ h, r.height = h + 1 ∧ (-1 : Int) ≤ (h : Int) - l.height ∧ (h : Int) - l.height ≤ 1 ∧
        H = max l.height h + 1 ∧ (h = 0 ∨ r.weight? ≠ some 0))

theorem climbInsert_spec (fs : List (Frame K V)) : ∀ (t : Tree K V) (H : Nat), NearBal t → Grown t H → CtxBal fs H →
    ∃ t', climbInsert t fs = some t' ∧ t'.Bal ∧ t'.toList = ctxL fs ++ t.toList ++ ctxR fs := by
  induction fs with
  | nil =>
    intro t H hn hg hc
    rcases t with _ | ⟨l, k, v, w, r⟩
    · exact hn.elim
    by_cases h2 : w > 1
    · have : w = 2 := by simp only [NearBal, Grown] at *; grind
      subst this
      obtain ⟨t', e, hb, ht, _⟩ := balanceRight_spec _ hn rfl
      exact ⟨t', by simp [climbInsert, e, plug], hb, by simp [ctxL, ctxR, ht]⟩
    · by_cases h3 : w < -1
      · have : w = -2 := by simp only [NearBal, Grown] at *; grind
        subst this
        obtain ⟨t', e, hb, ht, _⟩ := balanceLeft_spec _ hn rfl
        exact ⟨t', by simp [climbInsert, e, plug], hb, by simp [ctxL, ctxR, ht]⟩
      · refine ⟨.node l k v w r, ?_, ?_, by simp [ctxL, ctxR]⟩
        · unfold climbInsert; simp only [h2, h3, if_false]; split <;> rfl
        · simp only [NearBal] at hn; simp only [Tree.Bal]; grind
  | cons f fs ih =>
    intro t H hn hg hc
    rcases t with _ | ⟨l, k, v, w, r⟩
    · exact hn.elim
    by_cases h2 : w > 1
    · have : w = 2 := by simp only [NearBal, Grown] at *; grind
      subst this
      obtain ⟨t', e, hb, ht, hh⟩ := balanceRight_spec _ hn rfl
      refine ⟨plug t' (f :: fs), by simp [climbInsert, e], ?_, by rw [toList_plug, ht]⟩
      apply bal_plug _ _ hb
      have : t'.height = H := by
        rcases r with _ | ⟨rl, rk, rv, rw, rr⟩
        · simp only [NearBal, Grown, Tree.height] at *; grind
        · have := (hh _ _ _ _ _ _ _ _ _ rfl).1
          simp only [NearBal, Grown, Tree.height, Tree.weight?] at *; grind
      rwa [this]
    · by_cases h3 : w < -1
      · have : w = -2 := by simp only [NearBal, Grown] at *; grind
        subst this
        obtain ⟨t', e, hb, ht, hh⟩ := balanceLeft_spec _ hn rfl
        refine ⟨plug t' (f :: fs), by simp [climbInsert, e], ?_, by rw [toList_plug, ht]⟩
        apply bal_plug _ _ hb
        have : t'.height = H := by
          rcases l with _ | ⟨rl, rk, rv, rw, rr⟩
          · simp only [NearBal, Grown, Tree.height] at *; grind
          · have := (hh _ _ _ _ _ _ _ _ _ rfl).1
            simp only [NearBal, Grown, Tree.height, Tree.weight?] at *; grind
        rwa [this]
      · have hb : (Tree.node l k v w r).Bal := by
          simp only [NearBal] at hn; simp only [Tree.Bal]; grind
        by_cases h4 : w = 0
        · refine ⟨plug (.node l k v w r) (f :: fs), by unfold climbInsert; simp [h4], ?_, by rw [toList_plug]⟩
          apply bal_plug _ _ hb
          have : (Tree.node l k v w r).height = H := by
            simp only [NearBal, Grown, Tree.height] at *; grind
          rwa [this]
        · have hH : (Tree.node l k v w r).height = H + 1 := by
            simp only [NearBal, Grown, Tree.height] at *; grind
          have hstep : climbInsert (.node l k v w r) (f :: fs) = climbInsert (f.fillGrow (.node l k v w r)) fs := by
            conv => lhs; unfold climbInsert
            simp only [h2, h3, h4, if_false]
          rw [hstep]
          cases f with
          | left k' v' w' r' =>
            simp only [CtxBal] at hc
            obtain ⟨t', e, hb', ht⟩ := ih (.node (.node l k v w r) k' v' (w' - 1) r') (max H r'.height + 1)
              (by simp only [NearBal]; refine ⟨hb, hc.1, ?_⟩; grind)
              (by simp only [Grown]; left; exact ⟨H, hH, by omega, by omega, rfl, Or.inr (by simp [Tree.weight?, h4])⟩)
              hc.2.2.2.2
            exact ⟨t', e, hb', by simp [ht, ctxL, ctxR, Tree.toList]⟩
          | right l' k' v' w' =>
            simp only [CtxBal] at hc
            obtain ⟨t', e, hb', ht⟩ := ih (.node l' k' v' (w' + 1) (.node l k v w r)) (max l'.height H + 1)
              (by simp only [NearBal]; refine ⟨hc.1, hb, ?_⟩; grind)
              (by simp only [Grown]; right; exact ⟨H, hH, by omega, by omega, rfl, Or.inr (by simp [Tree.weight?, h4])⟩)
              hc.2.2.2.2
            exact ⟨t', e, hb', by simp [ht, ctxL, ctxR, Tree.toList]⟩

/-- One child has just shrunk by one level (from a total depth `H`) and this node's weight has been updated. -/
def Shrunk : Tree K V → Nat → Prop
  | .nil, _ => False
  | .node l _ _ _ r, H =>
    ((-1 : Int) ≤ (r.height : Int) - (l.height + 1) ∧ (r.height : Int) - (l.height + 1) ≤ 1 ∧
        H = max (l.height + 1) r.height + 1) ∨
    ((-1 : Int) ≤ ((r.height : Int) + 1) - l.height ∧ ((r.height : Int) + 1) - l.height ≤ 1 ∧
        H = max l.height (r.height + 1) + 1)

theorem rebalanceErase_spec (t : Tree K V) (H : Nat) (hn : NearBal t) (hs : Shrunk t H) :
    ∃ t' w, rebalanceErase t = some t' ∧ t'.Bal ∧ t'.toList = t.toList ∧ t'.weight? = some w ∧
      (w ≠ 0 → t'.height = H) ∧ (w = 0 → t'.height + 1 = H) := by
  rcases t with _ | ⟨l, k, v, w, r⟩
  · exact hn.elim
  by_cases h2 : w > 1
  · have : w = 2 := by simp only [NearBal, Shrunk] at *; grind
    subst this
    obtain ⟨t', e, hb, ht, hh⟩ := balanceRight_spec _ hn rfl
    rcases r with _ | ⟨rl, rk, rv, rw, rr⟩
    · simp only [NearBal, Tree.height] at *; omega
    obtain ⟨h5, h6⟩ := hh _ _ _ _ _ _ _ _ _ rfl
    refine ⟨t', _, by simpa [rebalanceErase] using e, hb, ht, h6, ?_, ?_⟩ <;>
      simp only [NearBal, Shrunk, Tree.height] at * <;> grind
  · by_cases h3 : w < -1
    · have : w = -2 := by simp only [NearBal, Shrunk] at *; grind
      subst this
      obtain ⟨t', e, hb, ht, hh⟩ := balanceLeft_spec _ hn rfl
      rcases l with _ | ⟨rl, rk, rv, rw, rr⟩
      · simp only [NearBal, Tree.height] at *; omega
      obtain ⟨h5, h6⟩ := hh _ _ _ _ _ _ _ _ _ rfl
      refine ⟨t', _, by simpa [rebalanceErase] using e, hb, ht, h6, ?_, ?_⟩ <;>
        simp only [NearBal, Shrunk, Tree.height] at * <;> grind
    · refine ⟨.node l k v w r, w, by simp [rebalanceErase, h2, h3], ?_, rfl, rfl, ?_, ?_⟩
      · simp only [NearBal] at hn; simp only [Tree.Bal]; grind
      · simp only [NearBal, Shrunk, Tree.height] at *; grind
      · simp only [NearBal, Shrunk, Tree.height] at *; grind

theorem climbErase_spec (fs : List (Frame K V)) : ∀ (t : Tree K V) (H : Nat), NearBal t → Shrunk t H → CtxBal fs H →
    ∃ t', climbErase t fs = some t' ∧ t'.Bal ∧ t'.toList = ctxL fs ++ t.toList ++ ctxR fs := by
  induction fs with
  | nil =>
    intro t H hn hs _
    obtain ⟨t', w, e, hb, ht, _⟩ := rebalanceErase_spec t H hn hs
    exact ⟨t', by simpa [climbErase] using e, hb, by simp [ctxL, ctxR, ht]⟩
  | cons f fs ih =>
    intro t H hn hs hc
    obtain ⟨t', w, e, hb, ht, hw, h1, h2⟩ := rebalanceErase_spec t H hn hs
    by_cases h0 : w = 0
    · have hH := h2 h0
      have hstep : climbErase t (f :: fs) = climbErase (f.fillShrink t') fs := by
        simp [climbErase, e, hw, h0]
      rw [hstep]
      cases f with
      | left k' v' w' r' =>
        simp only [CtxBal] at hc
        obtain ⟨t'', e', hb', ht'⟩ := ih (.node t' k' v' (w' + 1) r') (max H r'.height + 1)
          (by simp only [NearBal]; refine ⟨hb, hc.1, ?_⟩; grind)
          (by simp only [Shrunk]; left; refine ⟨?_, ?_, ?_⟩ <;> grind)
          hc.2.2.2.2
        exact ⟨t'', e', hb', by simp [ht', ctxL, ctxR, Tree.toList, ht]⟩
      | right l' k' v' w' =>
        simp only [CtxBal] at hc
        obtain ⟨t'', e', hb', ht'⟩ := ih (.node l' k' v' (w' - 1) t') (max l'.height H + 1)
          (by simp only [NearBal]; refine ⟨hc.1, hb, ?_⟩; grind)
          (by simp only [Shrunk]; right; refine ⟨?_, ?_, ?_⟩ <;> grind)
          hc.2.2.2.2
        exact ⟨t'', e', hb', by simp [ht', ctxL, ctxR, Tree.toList, ht]⟩
    · refine ⟨plug t' (f :: fs), by simp [climbErase, e, hw, h0], bal_plug _ _ hb ?_, by rw [toList_plug, ht]⟩
      rw [h1 h0]; exact hc

/-- Releasing a leaf. -/
theorem releaseAt_spec (fs : List (Frame K V)) (hc : CtxBal fs 1) :
    ∃ t', releaseAt fs = some t' ∧ t'.Bal ∧ t'.toList = ctxL fs ++ ctxR fs := by
  cases fs with
  | nil => exact ⟨.nil, rfl, trivial, by simp [Tree.toList, ctxL, ctxR]⟩
  | cons f fs =>
    cases f with
    | left k v w r =>
      simp only [CtxBal] at hc
      obtain ⟨t', e, hb, ht⟩ := climbErase_spec fs (.node .nil k v (w + 1) r) (max 1 r.height + 1)
        (by simp only [NearBal, Tree.Bal, Tree.height]; refine ⟨trivial, hc.1, ?_⟩; grind)
        (by simp only [Shrunk, Tree.height]; left; refine ⟨?_, ?_, ?_⟩ <;> grind) hc.2.2.2.2
      exact ⟨t', e, hb, by simp [ht, ctxL, ctxR, Tree.toList]⟩
    | right l k v w =>
      simp only [CtxBal] at hc
      obtain ⟨t', e, hb, ht⟩ := climbErase_spec fs (.node l k v (w - 1) .nil) (max l.height 1 + 1)
        (by simp only [NearBal, Tree.Bal, Tree.height]; refine ⟨hc.1, trivial, ?_⟩; grind)
        (by simp only [Shrunk, Tree.height]; right; refine ⟨?_, ?_, ?_⟩ <;> grind) hc.2.2.2.2
      exact ⟨t', e, hb, by simp [ht, ctxL, ctxR, Tree.toList]⟩

theorem height_eq_zero {t : Tree K V} : t.height = 0 ↔ t = .nil := by
  cases t <;> simp [Tree.height]

/-- Contents and balance of the rightmost node. -/
theorem rightmost_spec (t : Tree K V) : ∀ (fs : List (Frame K V)), t ≠ .nil → t.Bal → CtxBal fs t.height →
    ∃ k v w l gs, rightmost t fs = some (k, v, w, l, gs ++ fs) ∧ (Tree.node l k v w .nil).Bal ∧
      CtxBal (gs ++ fs) (Tree.node l k v w .nil).height ∧
      t.toList = ctxL gs ++ l.toList ++ [(k, v)] ∧ ctxR gs = [] := by
  induction t with
  | nil => intro fs h; exact absurd rfl h
  | node l k v w r _ ih =>
    intro fs _ hb hc
    rcases r with _ | ⟨rl, rk, rv, rw, rr⟩
    · exact ⟨k, v, w, l, [], by simp [rightmost], hb, by simpa using hc, by simp [ctxL, Tree.toList], rfl⟩
    have hb' := hb
    simp only [Tree.Bal] at hb
    obtain ⟨k', v', w', l', gs, e, h1, h2, h3, h4⟩ := ih (.right l k v w :: fs) (by simp)
      (by simp only [Tree.Bal]; exact hb.2.1)
      (by simp only [CtxBal]; simp only [Tree.height] at hb hc ⊢; exact ⟨hb.1, hb.2.2.1, hb.2.2.2.1, hb.2.2.2.2, hc⟩)
    refine ⟨k', v', w', l', gs ++ [.right l k v w], by simp [rightmost, e], h1, by simpa using h2, ?_, ?_⟩
    · rw [ctxL_append]; simp only [Tree.toList] at h3 ⊢; simp [h3, ctxL]
    · rw [ctxR_append, h4]; simp [ctxR]

theorem leftmost_spec (t : Tree K V) : ∀ (fs : List (Frame K V)), t ≠ .nil → t.Bal → CtxBal fs t.height →
    ∃ k v w r gs, leftmost t fs = some (k, v, w, r, gs ++ fs) ∧ (Tree.node .nil k v w r).Bal ∧
      CtxBal (gs ++ fs) (Tree.node .nil k v w r).height ∧
      t.toList = (k, v) :: r.toList ++ ctxR gs ∧ ctxL gs = [] := by
  induction t with
  | nil => intro fs h; exact absurd rfl h
  | node l k v w r ih _ =>
    intro fs _ hb hc
    rcases l with _ | ⟨ll, lk, lv, lw, lr⟩
    · exact ⟨_, _, _, _, [], by simp [leftmost], hb, by simpa using hc, by simp [ctxR, Tree.toList], rfl⟩
    have hb' := hb
    simp only [Tree.Bal] at hb
    obtain ⟨k', v', w', l', gs, e, h1, h2, h3, h4⟩ := ih (.left k v w r :: fs) (by simp)
      (by simp only [Tree.Bal]; exact hb.1)
      (by simp only [CtxBal]; simp only [Tree.height] at hb hc ⊢; exact ⟨hb.2.1, hb.2.2.1, hb.2.2.2.1, hb.2.2.2.2, hc⟩)
    refine ⟨k', v', w', l', gs ++ [.left k v w r], by simp [leftmost, e], h1, by simpa using h2, ?_, ?_⟩
    · rw [ctxR_append]; simp only [Tree.toList] at h3 ⊢; simp [h3, ctxR]
    · rw [ctxL_append, h4]; simp [ctxL]

/-- Contents and balance after erasing the node at a position. -/
theorem eraseAt_spec (l : Tree K V) (k : K) (v : V) (w : Int) (r : Tree K V) (fs : List (Frame K V))
    (hb : (Tree.node l k v w r).Bal) (hc : CtxBal fs (Tree.node l k v w r).height) :
    ∃ t', eraseAt (.node l k v w r) fs = some t' ∧ t'.Bal ∧
      t'.toList = ctxL fs ++ l.toList ++ r.toList ++ ctxR fs := by
  have hb0 := hb
  simp only [Tree.Bal] at hb
  obtain ⟨hl, hr, hw, hw1, hw2⟩ := hb
  by_cases hleaf : l = .nil ∧ r = .nil
  · obtain ⟨rfl, rfl⟩ := hleaf
    obtain ⟨t', e, h1, h2⟩ := releaseAt_spec fs (by simpa [Tree.height] using hc)
    exact ⟨t', by simpa [eraseAt] using e, h1, by simp [h2, Tree.toList]⟩
  · by_cases hlw : w ≤ 0 ∧ l.isNode = true
    · have hln : l ≠ .nil := by rintro rfl; simp [Tree.isNode] at hlw
      have hunf : eraseAt (.node l k v w r) fs = (rightmost l []).bind fun (k', v', w', l', gs) =>
          match l' with
          | .nil => releaseAt (gs ++ .left k' v' w r :: fs)
          | .node _ lk lv _ _ => releaseAt (.left lk lv w' .nil :: gs ++ .left k' v' w r :: fs) := by
        rcases l with _ | ⟨ll, lk, lv, lw, lr⟩
        · exact absurd rfl hln
        · simp [eraseAt, hlw]; rfl
      obtain ⟨k', v', w', l', gs, e, h1, h2, h3, h4⟩ := rightmost_spec l (.left k v w r :: fs) hln hl
        (by simp only [CtxBal]; exact ⟨hr, hw, hw1, hw2, hc⟩)
      -- the walk does not look at the frames it starts from
      have e' : rightmost l [] = some (k', v', w', l', gs) := by
        obtain ⟨k2, v2, w2, l2, gs2, e2, -⟩ := rightmost_spec l [] hln hl (by simp [CtxBal])
        have key : ∀ (t : Tree K V) (a b : List (Frame K V)),
            rightmost t (a ++ b) = (rightmost t a).map fun (k, v, w, l, g) => (k, v, w, l, g ++ b) := by
          intro t
          induction t with
          | nil => intros; rfl
          | node l k v w r _ ih =>
            intro a b
            rcases r with _ | ⟨rl, rk, rv, rw, rr⟩
            · simp [rightmost]
            · simp only [rightmost]; rw [← List.cons_append]; exact ih _ _
        have := key l [] (.left k v w r :: fs)
        rw [e2] at this
        simp only [List.nil_append, List.append_nil, Option.map_some] at this
        rw [e] at this
        simp only [Option.some.injEq, Prod.mk.injEq, List.append_cancel_right_eq] at this
        rw [e2]; simp [this]
      rw [hunf, e']
      simp only [Option.bind_some]
      have hcx : ∀ h, CtxBal (gs ++ .left k v w r :: fs) h → CtxBal (gs ++ .left k' v' w r :: fs) h := by
        clear e e' h2 h3 h4
        induction gs with
        | nil => intro h hh; simpa [CtxBal] using hh
        | cons f gs ih => intro h hh; cases f <;> simp only [List.cons_append, CtxBal] at hh ⊢ <;> grind
      rcases l' with _ | ⟨a, lk, lv, lw, b⟩
      · obtain ⟨t', et, hb', ht⟩ := releaseAt_spec (gs ++ .left k' v' w r :: fs) (hcx _ (by simpa [Tree.height] using h2))
        refine ⟨t', et, hb', ?_⟩
        rw [ht, ctxL_append, ctxR_append, h3, h4]; simp [ctxL, ctxR, Tree.toList]
      · simp only [Tree.Bal, Tree.height] at h1
        have ha : a = .nil := by rw [← height_eq_zero]; grind
        have hb2 : b = .nil := by rw [← height_eq_zero]; grind
        subst ha; subst hb2
        obtain ⟨t', et, hb', ht⟩ := releaseAt_spec (.left lk lv w' .nil :: gs ++ .left k' v' w r :: fs) (by
          simp only [List.cons_append, CtxBal, Tree.Bal, Tree.height] at h1 h2 ⊢
          refine ⟨trivial, by grind, by grind, by grind, hcx _ ?_⟩
          simpa [Tree.height] using h2)
        refine ⟨t', et, hb', ?_⟩
        rw [ht, List.cons_append, ctxL, ctxR, ctxL_append, ctxR_append, h3, h4]; simp [ctxL, ctxR, Tree.toList]
    · have hrn : r ≠ .nil := by
        rintro rfl
        rcases l with _ | ⟨ll, lk, lv, lw, lr⟩
        · simp at hleaf
        · simp only [Tree.height, Tree.isNode] at *; grind
      have hunf : eraseAt (.node l k v w r) fs = (leftmost r []).bind fun (k', v', w', r', gs) =>
          match r' with
          | .nil => releaseAt (gs ++ .right l k' v' w :: fs)
          | .node _ rk rv _ _ => releaseAt (.right .nil rk rv w' :: gs ++ .right l k' v' w :: fs) := by
        rcases r with _ | ⟨rl, rk, rv, rw, rr⟩
        · exact absurd rfl hrn
        · rcases l with _ | ⟨ll, lk, lv, lw, lr⟩
          · simp [eraseAt, Tree.isNode]; rfl
          · simp only [eraseAt]; rw [if_neg hlw]; rfl
      obtain ⟨k', v', w', r', gs, e, h1, h2, h3, h4⟩ := leftmost_spec r (.right l k v w :: fs) hrn hr
        (by simp only [CtxBal]; exact ⟨hl, hw, hw1, hw2, hc⟩)
      have e' : leftmost r [] = some (k', v', w', r', gs) := by
        obtain ⟨k2, v2, w2, l2, gs2, e2, -⟩ := leftmost_spec r [] hrn hr (by simp [CtxBal])
        have key : ∀ (t : Tree K V) (a b : List (Frame K V)),
            leftmost t (a ++ b) = (leftmost t a).map fun (k, v, w, l, g) => (k, v, w, l, g ++ b) := by
          intro t
          induction t with
          | nil => intros; rfl
          | node l k v w r ih _ =>
            intro a b
            rcases l with _ | ⟨ll, lk, lv, lw, lr⟩
            · simp [leftmost]
            · simp only [leftmost]; rw [← List.cons_append]; exact ih _ _
        have := key r [] (.right l k v w :: fs)
        rw [e2] at this
        simp only [List.nil_append, List.append_nil, Option.map_some] at this
        rw [e] at this
        simp only [Option.some.injEq, Prod.mk.injEq, List.append_cancel_right_eq] at this
        rw [e2]; simp [this]
      rw [hunf, e']
      simp only [Option.bind_some]
      have hcx : ∀ h, CtxBal (gs ++ .right l k v w :: fs) h → CtxBal (gs ++ .right l k' v' w :: fs) h := by
        clear e e' h2 h3 h4
        induction gs with
        | nil => intro h hh; simpa [CtxBal] using hh
        | cons f gs ih => intro h hh; cases f <;> simp only [List.cons_append, CtxBal] at hh ⊢ <;> grind
      rcases r' with _ | ⟨a, lk, lv, lw, b⟩
      · obtain ⟨t', et, hb', ht⟩ := releaseAt_spec (gs ++ .right l k' v' w :: fs) (hcx _ (by simpa [Tree.height] using h2))
        refine ⟨t', et, hb', ?_⟩
        rw [ht, ctxL_append, ctxR_append, h3, h4]; simp [ctxL, ctxR, Tree.toList]
      · simp only [Tree.Bal, Tree.height] at h1
        have ha : a = .nil := by rw [← height_eq_zero]; grind
        have hb2 : b = .nil := by rw [← height_eq_zero]; grind
        subst ha; subst hb2
        obtain ⟨t', et, hb', ht⟩ := releaseAt_spec (.right .nil lk lv w' :: gs ++ .right l k' v' w :: fs) (by
          simp only [List.cons_append, CtxBal, Tree.Bal, Tree.height] at h1 h2 ⊢
          refine ⟨trivial, by grind, by grind, by grind, hcx _ ?_⟩
          simpa [Tree.height] using h2)
        refine ⟨t', et, hb', ?_⟩
        rw [ht, List.cons_append, ctxL, ctxR, ctxL_append, ctxR_append, h3, h4]; simp [ctxL, ctxR, Tree.toList]

end Verif.FTree
