import Verif.OwnerOps

/-! # The operations of the ownership model in well formed worlds -/

namespace Verif.FOwn

theorem putFold_spec : ∀ (kinds : List (Nat × Bool)) (w : World),
    (kinds.foldl (fun w k => putC w k.1 (some (if k.2 then .list [] else .ref none))) w).objs = w.objs ∧
    (kinds.foldl (fun w k => putC w k.1 (some (if k.2 then .list [] else .ref none))) w).freed = w.freed ∧
    (∀ c, c ∉ kinds.map Prod.fst → (kinds.foldl (fun w k => putC w k.1 (some (if k.2 then .list [] else .ref none))) w).cons c = w.cons c) ∧
    (∀ c ∈ kinds.map Prod.fst, ∃ v, (kinds.foldl (fun w k => putC w k.1 (some (if k.2 then .list [] else .ref none))) w).cons c = some v ∧
      v.items = []) := by
  intro kinds
  induction kinds with
  | nil => intro w; simp
  | cons k kinds ih =>
    intro w
    obtain ⟨h1, h2, h3, h4⟩ := ih (putC w k.1 (some (if k.2 then .list [] else .ref none)))
    rw [List.foldl_cons]
    refine ⟨h1, h2, ?_, ?_⟩
    · intro c hc
      simp only [List.map_cons, List.mem_cons, not_or] at hc
      rw [h3 c hc.2]
      simp [putC, hc.1]
    · intro c hc
      by_cases hm : c ∈ kinds.map Prod.fst
      · exact h4 c hm
      · rw [h3 c hm]
        have : c = k.1 := by simp only [List.map_cons, List.mem_cons] at hc; tauto
        subst this
        refine ⟨_, by simp [putC]; rfl, ?_⟩
        cases k.2 <;> rfl

theorem create_ok {w : World} {x : Nat} {kinds : List (Nat × Bool)} (hg : Good w) (h : Legal w (.create x kinds)) :
    ∃ w', Steps w (.create x kinds) w' ∧ Good w' ∧ Fresh w (kinds.map Prod.fst) (some x) w' := by
  obtain ⟨h1, h2, h3, h4⟩ := h
  obtain ⟨e1, e2, e3, e4⟩ := putFold_spec kinds w
  refine ⟨_, ⟨0, fun n _ => by simp only [run, create]; rw [if_pos ⟨h1, h2, h3⟩]⟩, ?_⟩
  have hf : Fresh w (kinds.map Prod.fst) (some x)
      (putO (kinds.foldl (fun w k => putC w k.1 (some (if k.2 then .list [] else .ref none))) w) x (some ⟨none, kinds.map Prod.fst⟩)) := by
    refine ⟨?_, e3, ?_, ?_, e2⟩
    · intro c hc
      refine ⟨?_, e4 c hc⟩
      obtain ⟨k, hk, rfl⟩ := List.mem_map.mp hc
      exact h3 k hk
    · intro y hy
      obtain rfl := Option.some.inj hy
      exact ⟨h1, h2, by simp [putO]⟩
    · intro y hy
      have : y ≠ x := by rintro rfl; exact hy rfl
      simp only [putO]
      rw [Function.update_of_ne this, e1]
  exact ⟨fresh_good hg h4 hf, hf⟩

theorem newOwner_ok {w : World} {c : Nat} {b : Bool} (hg : Good w) (h : Legal w (.newOwner c b)) :
    ∃ w', Steps w (.newOwner c b) w' ∧ Good w' ∧ Fresh w [c] none w' := by
  have h' : w.cons c = none := h
  refine ⟨_, ⟨0, fun n _ => by simp only [run, newOwner]; rw [if_pos h']⟩, ?_⟩
  have hf : Fresh w [c] none (putC w c (some (if b then .list [] else .ref none))) := by
    refine ⟨?_, ?_, by simp, fun _ _ => rfl, rfl⟩
    · intro d hd
      simp only [List.mem_singleton] at hd
      subst hd
      exact ⟨h', _, by simp [putC]; rfl, by cases b <;> rfl⟩
    · intro d hd
      simp only [List.mem_singleton] at hd
      simp [putC, hd]
  exact ⟨fresh_good hg (by simp) hf, hf⟩

theorem attach_put {w : World} {c x : Nat} {v v' : Content} (hc : w.cons c = some v) (hm : MayOwn w c x) (hp : v'.items.Perm (x :: v.items)) :
    ∃ w1, attach w c x = some w1 ∧ Linked w c x (putC w1 c (some v')) ∧ attach (putC w c (some v')) c x = some (putC w1 c (some v')) := by
  obtain ⟨⟨o, ho, how⟩, hn⟩ := hm
  refine ⟨putO w x (some { o with owner := some c }), by simp [attach, ho, how], ⟨⟨o, ho, how, by simp [putO, putC]⟩, ?_, ?_, ?_, rfl⟩, ?_⟩
  · intro z hz
    simp [putO, putC, hz]
  · exact ⟨v, v', hc, by simp [putC], hp⟩
  · intro d hd
    simp [putC, putO, hd]
  · have : (putC w c (some v')).objs x = some o := ho
    simp only [attach]
    rw [this, Option.bind_some, if_pos how]
    rfl

theorem pushBack_ok {w : World} {c x : Nat} {l : List Nat} (hg : Good w) (hc : w.cons c = some (.list l)) (hm : MayOwn w c x) :
    ∃ w', Steps w (.pushBack c x) w' ∧ Good w' ∧ Linked w c x w' ∧ w'.cons c = some (.list (l ++ [x])) := by
  obtain ⟨w1, h1, h2, _⟩ := attach_put (v' := .list (l ++ [x])) hc hm (by
    show (l ++ [x]).Perm (x :: l)
    exact List.perm_append_singleton x l)
  refine ⟨_, ⟨0, fun n _ => ?_⟩, linked_good hg h2 hm.2, h2, by simp [putC]⟩
  simp only [run, pushBack, getList, hc]
  rw [Option.bind_some, h1, Option.bind_some]

theorem insert_ok {w : World} {c k x : Nat} {l : List Nat} (hg : Good w) (hc : w.cons c = some (.list l)) (hk : k ≤ l.length) (hm : MayOwn w c x) :
    ∃ w', Steps w (.insert c k x) w' ∧ Good w' ∧ Linked w c x w' ∧ w'.cons c = some (.list (l.take k ++ x :: l.drop k)) := by
  obtain ⟨w1, h1, h2, _⟩ := attach_put (v' := .list (l.take k ++ x :: l.drop k)) hc hm (by
    show (l.take k ++ x :: l.drop k).Perm (x :: l)
    have := (List.perm_middle (a := x) (l₁ := l.take k) (l₂ := l.drop k))
    rwa [List.take_append_drop] at this)
  refine ⟨_, ⟨0, fun n _ => ?_⟩, linked_good hg h2 hm.2, h2, by simp [putC]⟩
  simp only [run, insert, getList, hc]
  rw [Option.bind_some, if_pos hk, h1, Option.bind_some]

theorem eraseAt_eq {l : List Nat} (hn : l.Nodup) {k x : Nat} (hk : l[k]? = some x) :
    Content.list (l.take k ++ l.drop (k + 1)) = (Content.list l).without (· = x) := by
  obtain ⟨hlt, rfl⟩ := List.getElem?_eq_some_iff.mp hk
  have e : l = l.take k ++ l[k] :: l.drop (k + 1) := by
    rw [List.getElem_cons_drop, List.take_append_drop]
  rw [← without_erase hn]
  congr 1
  have hnt : l[k] ∉ l.take k := by
    intro h
    have hn' := hn
    rw [e] at hn'
    exact (List.nodup_append.mp hn').2.2 _ h _ List.mem_cons_self rfl
  have : l.erase l[k] = (l.take k ++ l[k] :: l.drop (k + 1)).erase l[k] := by rw [← e]
  rw [this, List.erase_append_right _ hnt, List.erase_cons_head]

theorem eraseAt_core {w : World} {c k x : Nat} {l : List Nat} (hg : Good w) (hc : w.cons c = some (.list l)) (hk : l[k]? = some x) :
    ∃ w', (∃ N, ∀ n ≥ N, eraseAt n w c k = some w') ∧ Good w' ∧ Gone w (Desc w x) (Parts w (Desc w x)) w' := by
  have hn : l.Nodup := by
    obtain ⟨rk, hi⟩ := hg
    exact (hi 0).nodup c _ hc
  obtain ⟨w', ⟨N, hN⟩, h2, h3⟩ := erase_top hg hc (x := x) (List.mem_of_getElem? hk)
  refine ⟨w', ⟨N, fun n hn' => ?_⟩, h2, h3⟩
  simp only [eraseAt, getList, hc]
  rw [Option.bind_some, hk, Option.bind_some, eraseAt_eq hn hk]
  exact hN n hn'

theorem popBack_ok {w : World} {c : Nat} {l : List Nat} {x : Nat} (hg : Good w) (hc : w.cons c = some (.list l)) (hx : l.getLast? = some x) :
    ∃ w', Steps w (.popBack c) w' ∧ Good w' ∧ Gone w (Desc w x) (Parts w (Desc w x)) w' := by
  rw [List.getLast?_eq_getElem?] at hx
  obtain ⟨w', ⟨N, hN⟩, h⟩ := eraseAt_core hg hc hx
  refine ⟨w', ⟨N, fun n hn => ?_⟩, h⟩
  have hne : l ≠ [] := by rintro rfl; simp at hx
  simp only [run, popBack, getList, hc]
  rw [Option.bind_some, if_neg hne, hN n hn]

theorem popFront_ok {w : World} {c : Nat} {l : List Nat} {x : Nat} (hg : Good w) (hc : w.cons c = some (.list l)) (hx : l.head? = some x) :
    ∃ w', Steps w (.popFront c) w' ∧ Good w' ∧ Gone w (Desc w x) (Parts w (Desc w x)) w' := by
  rw [List.head?_eq_getElem?] at hx
  obtain ⟨w', ⟨N, hN⟩, h⟩ := eraseAt_core hg hc hx
  refine ⟨w', ⟨N, fun n hn => ?_⟩, h⟩
  have hne : l ≠ [] := by rintro rfl; simp at hx
  simp only [run, popFront, getList, hc]
  rw [Option.bind_some, if_neg hne, hN n hn]

theorem erase_ok {w : World} {c : Nat} {l : List Nat} {x : Nat} (hg : Good w) (hc : w.cons c = some (.list l)) (hx : x ∈ l) :
    ∃ w', Steps w (.erase c x) w' ∧ Good w' ∧ Gone w (Desc w x) (Parts w (Desc w x)) w' := by
  obtain ⟨w', ⟨N, hN⟩, h⟩ := eraseAt_core hg hc (x := x) (k := l.idxOf x) (by
    rw [List.getElem?_eq_getElem (List.idxOf_lt_length_iff.mpr hx), List.getElem_idxOf])
  refine ⟨w', ⟨N, fun n hn => ?_⟩, h⟩
  simp only [run, erase, getList, hc]
  rw [Option.bind_some, if_pos hx, hN n hn]

theorem clear_op_ok {w : World} {c : Nat} {l : List Nat} (hg : Good w) (hc : w.cons c = some (.list l)) :
    ∃ w', Steps w (.clear c) w' ∧ Good w' ∧ Gone w (Below w c) (Parts w (Below w c)) w' ∧ w'.cons c = some (.list []) := by
  obtain ⟨w', ⟨N, hN⟩, h2, h3, h4⟩ := clear_top hg hc
  refine ⟨w', ⟨N, fun n hn => ?_⟩, h2, h3, ?_⟩
  · simp only [run, getList, hc]
    rw [Option.bind_some, hN n hn]
  · classical
    rw [h3.kept c h4, hc]
    simp only [Option.map_some, Content.without, Option.some.injEq, Content.list.injEq, List.filter_eq_nil_iff]
    intro a ha
    have : Below w c a := ⟨a, ⟨_, hc, ha⟩, Relation.ReflTransGen.refl⟩
    simp [this]

theorem detach_op_ok {w : World} {c : Nat} {l : List Nat} {x : Nat} (hg : Good w) (hc : w.cons c = some (.list l)) (hx : x ∈ l) :
    ∃ w', Steps w (.detach c x) w' ∧ Good w' ∧ Unlinked w x w' ∧ w'.cons c = some (.list (l.erase x)) := by
  obtain ⟨rk, hi⟩ := id hg
  have hn : l.Nodup := (hi 0).nodup c _ hc
  obtain ⟨w1, h1, h2⟩ := unlink_of_put (hi 0) hc (x := x) hx
  refine ⟨w1, ⟨0, fun n _ => ?_⟩, unlinked_good hg h2, h2, ?_⟩
  · simp only [run, detachFrom, getList, hc]
    rw [Option.bind_some, if_pos hx, without_erase hn, h1]
  · rw [h2.cons, hc, Option.map_some, without_erase hn]

theorem assign_ok {w : World} {c : Nat} {q p : Option Nat} (hg : Good w) (hc : w.cons c = some (.ref q)) (hp : ∀ x, p = some x → MayOwn w c x) :
    ∃ w', Steps w (.assign c p) w' ∧ Good w' ∧ w'.cons c = some (.ref p) ∧
      ∃ w1, Gone w (Below w c) (Parts w (Below w c)) w1 ∧ (p = none → w' = w1) ∧ (∀ x, p = some x → Linked w1 c x w') := by
  have hrel : ∃ w1, (∃ N, ∀ n ≥ N, releasePtr n w q = some w1) ∧ Good w1 ∧ Gone w (Below w c) (Parts w (Below w c)) w1 ∧
      w1.cons c = some (.ref none) := by
    obtain ⟨wc, _, _, _, hnp⟩ := clear_top hg hc
    cases q with
    | none =>
      have hb : Below w c = fun _ => False := by
        funext z
        simp [Below, Lists, hc, Content.items]
      refine ⟨w, ⟨0, fun _ _ => rfl⟩, hg, ?_, hc⟩
      rw [hb]
      have : Parts w (fun _ => False) = fun _ => False := by funext z; simp [Parts]
      rw [this]
      exact gone_refl w
    | some x =>
      have hl : ∀ z, Lists w c z ↔ z = x := by
        intro z
        simp only [Lists, hc, Option.some.injEq, exists_eq_left', Content.items, Option.toList_some, List.mem_singleton]
      have hb : Below w c = Desc w x := by
        funext z
        simp [Below, hl]
      obtain ⟨rk, hi⟩ := id hg
      obtain ⟨o, ho, _⟩ := ((hi 0).own c x).mp ((hl x).mpr rfl)
      obtain ⟨w1, hN, h2, h3⟩ := release_top hg (x := x) (by simp [ho])
      refine ⟨w1, hN, h2, by rw [hb]; exact h3, ?_⟩
      rw [hb] at hnp
      classical
      rw [h3.kept c hnp, hc]
      have : Desc w x x := Relation.ReflTransGen.refl
      simp [Content.without, Option.filter, this]
  obtain ⟨w1, ⟨N, hN⟩, hg1, hd, hc1⟩ := hrel
  cases p with
  | none =>
    have e : putC w1 c (some (.ref none)) = w1 := by
      simp only [putC]
      rw [← hc1, Function.update_eq_self]
    refine ⟨w1, ⟨N, fun n hn => ?_⟩, hg1, hc1, w1, hd, fun _ => rfl, by simp⟩
    simp only [run, assign, hc]
    rw [hN n hn, Option.bind_some, if_pos hc1, e]
    rfl
  | some x =>
    have hm := hp x rfl
    obtain ⟨o, ho, how⟩ := hm.1
    have hns : ¬ Below w c x := by
      rintro ⟨z, hz, hd⟩
      obtain ⟨rk, hi⟩ := hg
      have : ∃ d, Lists w d x := by
        cases hd with
        | refl => exact ⟨c, hz⟩
        | tail _ h => obtain ⟨d, _, h⟩ := h; exact ⟨d, h⟩
      obtain ⟨d, hd⟩ := this
      obtain ⟨o', h1, h2⟩ := ((hi 0).own d x).mp hd
      rw [ho] at h1
      obtain rfl := Option.some.inj h1
      rw [how] at h2
      exact absurd h2 (by simp)
    have hm1 : MayOwn w1 c x := by
      refine ⟨⟨o, by rw [(hd.objs x).2 hns, ho], how⟩, ?_⟩
      intro y hy hmy
      exact hm.2 y (desc_mono (fun a b h => (gone_owns hd a b h).1) hy) ((gone_member hd y c).mp hmy).1
    obtain ⟨w2, h1, h2, h3⟩ := attach_put (v' := .ref (some x)) hc1 hm1 (by simp [Content.items])
    refine ⟨_, ⟨N, fun n hn => ?_⟩, linked_good hg1 h2 hm1.2, by simp [putC], w1, hd, by simp, ?_⟩
    · simp only [run, assign, hc]
      rw [hN n hn, Option.bind_some, if_pos hc1]
      exact h3
    · intro y hy
      obtain rfl := Option.some.inj hy
      exact h2

/-- No object is lost: the objects that were alive are alive or have been released, and what was released stays so. -/
def Keeps (w w' : World) : Prop := w.freed <+: w'.freed ∧ ∀ x, (w.objs x).isSome → (w'.objs x).isSome ∨ x ∈ w'.freed

theorem keeps_refl (w : World) : Keeps w w := ⟨List.prefix_refl _, fun _ h => Or.inl h⟩

theorem keeps_gone {w w' : World} {S K : Nat → Prop} (h : Gone w S K w') : Keeps w w' := by
  obtain ⟨l, h1, _, h3⟩ := h.freed
  refine ⟨⟨l, h1.symm⟩, ?_⟩
  intro x hx
  by_cases hs : S x
  · right
    rw [h1]
    exact List.mem_append_right _ ((h3 x).mpr hs)
  · left
    rwa [(h.objs x).2 hs]

theorem keeps_fresh {w w' : World} {cs : List Nat} {x : Option Nat} (h : Fresh w cs x w') : Keeps w w' := by
  refine ⟨by rw [h.freed]; exact List.prefix_refl _, ?_⟩
  intro z hz
  left
  by_cases e : x = some z
  · rw [(h.obj z e).2.2]; rfl
  · rwa [h.objs z e]

theorem keeps_linked {w w' : World} {c x : Nat} (h : Linked w c x w') : Keeps w w' := by
  refine ⟨by rw [h.freed]; exact List.prefix_refl _, ?_⟩
  intro z hz
  left
  by_cases e : z = x
  · obtain ⟨o, _, _, h3⟩ := h.self
    rw [e, h3]; rfl
  · rwa [h.objs z e]

theorem keeps_unlinked {w w' : World} {x : Nat} (h : Unlinked w x w') : Keeps w w' := by
  refine ⟨by rw [h.freed]; exact List.prefix_refl _, ?_⟩
  intro z hz
  left
  by_cases e : z = x
  · obtain ⟨o, _, h3⟩ := h.self
    rw [e, h3]; rfl
  · rwa [h.objs z e]

theorem keeps_trans {w w1 w2 : World} (h : Keeps w w1) (h' : Keeps w1 w2) : Keeps w w2 := by
  refine ⟨h.1.trans h'.1, ?_⟩
  intro x hx
  rcases h.2 x hx with h1 | h1
  · exact h'.2 x h1
  · exact Or.inr (h'.1.subset h1)

/-- Every allowed operation ends, without undefined behaviour, and keeps the world well formed. -/
theorem step_ok {w : World} {op : Op} (hg : Good w) (hl : Legal w op) : ∃ w', Steps w op w' ∧ Good w' ∧ Keeps w w' := by
  cases op with
  | create x kinds => obtain ⟨w', h1, h2, h3⟩ := create_ok hg hl; exact ⟨w', h1, h2, keeps_fresh h3⟩
  | newOwner c b => obtain ⟨w', h1, h2, h3⟩ := newOwner_ok hg hl; exact ⟨w', h1, h2, keeps_fresh h3⟩
  | deleteOwner c =>
    obtain ⟨v, hv⟩ := Option.isSome_iff_exists.mp hl.1
    obtain ⟨w', h1, h2, h3⟩ := delete_top hg hv hl.2
    exact ⟨w', h1, h2, keeps_gone h3⟩
  | pushBack c x =>
    obtain ⟨⟨l, hc⟩, hm⟩ := hl
    obtain ⟨w', h1, h2, h3, _⟩ := pushBack_ok hg hc hm
    exact ⟨w', h1, h2, keeps_linked h3⟩
  | insert c k x =>
    obtain ⟨⟨l, hc, hk⟩, hm⟩ := hl
    obtain ⟨w', h1, h2, h3, _⟩ := insert_ok hg hc hk hm
    exact ⟨w', h1, h2, keeps_linked h3⟩
  | eraseAt c k =>
    obtain ⟨l, hc, hk⟩ := hl
    obtain ⟨w', h1, h2, h3⟩ := eraseAt_core hg hc (List.getElem?_eq_getElem hk)
    exact ⟨w', h1, h2, keeps_gone h3⟩
  | popBack c =>
    obtain ⟨l, hc⟩ := hl
    cases hx : l.getLast? with
    | none =>
      have : l = [] := List.getLast?_eq_none_iff.mp hx
      exact ⟨w, ⟨0, fun n _ => by simp [run, popBack, getList, hc, this]⟩, hg, keeps_refl w⟩
    | some x =>
      obtain ⟨w', h1, h2, h3⟩ := popBack_ok hg hc hx
      exact ⟨w', h1, h2, keeps_gone h3⟩
  | popFront c =>
    obtain ⟨l, hc⟩ := hl
    cases hx : l.head? with
    | none =>
      have : l = [] := List.head?_eq_none_iff.mp hx
      exact ⟨w, ⟨0, fun n _ => by simp [run, popFront, getList, hc, this]⟩, hg, keeps_refl w⟩
    | some x =>
      obtain ⟨w', h1, h2, h3⟩ := popFront_ok hg hc hx
      exact ⟨w', h1, h2, keeps_gone h3⟩
  | erase c x =>
    obtain ⟨l, hc⟩ := hl
    by_cases hx : x ∈ l
    · obtain ⟨w', h1, h2, h3⟩ := erase_ok hg hc hx
      exact ⟨w', h1, h2, keeps_gone h3⟩
    · exact ⟨w, ⟨0, fun n _ => by simp [run, erase, getList, hc, hx]⟩, hg, keeps_refl w⟩
  | clear c =>
    obtain ⟨l, hc⟩ := hl
    obtain ⟨w', h1, h2, h3, _⟩ := clear_op_ok hg hc
    exact ⟨w', h1, h2, keeps_gone h3⟩
  | detach c x =>
    obtain ⟨l, hc⟩ := hl
    by_cases hx : x ∈ l
    · obtain ⟨w', h1, h2, h3, _⟩ := detach_op_ok hg hc hx
      exact ⟨w', h1, h2, keeps_unlinked h3⟩
    · exact ⟨w, ⟨0, fun n _ => by simp [run, detachFrom, getList, hc, hx]⟩, hg, keeps_refl w⟩
  | assign c p =>
    obtain ⟨⟨q, hc⟩, hm⟩ := hl
    obtain ⟨w', h1, h2, _, w1, h3, h4, h5⟩ := assign_ok hg hc hm
    refine ⟨w', h1, h2, keeps_trans (keeps_gone h3) ?_⟩
    cases p with
    | none => rw [h4 rfl]; exact keeps_refl w1
    | some x => exact keeps_linked (h5 x rfl)
  | release x =>
    obtain ⟨w', h1, h2, h3⟩ := release_top hg hl
    exact ⟨w', h1, h2, keeps_gone h3⟩

theorem reach_good {w : World} (h : Reach w) : Good w := by
  induction h with
  | start => exact start_good
  | step _ hl hs ih =>
    obtain ⟨w', h1, h2, _⟩ := step_ok ih hl
    rwa [steps_unique hs h1]

end Verif.FOwn
