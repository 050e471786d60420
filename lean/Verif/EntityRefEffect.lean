import Verif.EntityRefLemmas

/-!
# What changing the placeholder of a reference does
-/

namespace Verif.FRef

/-- The ids of the entities of the released document. -/
def lostIds (w : World) (gone : Option Nat) : Nat → Option Text := deadIds w.ents fun E => gone = some E.doc

/-- Reference `r` left placeholder `leaves`; `gone` is the document released with it. -/
structure Effect (w : World) (r : Nat) (leaves gone : Option Nat) (w1 : World) : Prop where
  docs : ∀ d, w1.docs d = if gone = some d then none else w.docs d
  ents : w1.ents = w.ents.filter fun E => !decide (gone = some E.doc)
  next : w1.next = w.next
  others : ∀ k, k ≠ r → w1.refs k = (w.refs k).map (onEntityReleased (lostIds w gone))
  self : ∀ R, w.refs r = some R → ∃ R', w1.refs r = some R' ∧ R'.entity = (onEntityReleased (lostIds w gone) R).entity ∧
    (R'.entity = R.entity → R'.id = R.id)
  back : ∀ K ∈ w1.holders, ∃ K0 ∈ w.holders, K0.name = K.name ∧ K0.target = K.target ∧ K0.url = K.url
  fwd : ∀ K0 ∈ w.holders, (leaves = some K0.name → ∃ k ∈ K0.refs, k ≠ r) →
    ∃ K ∈ w1.holders, K.name = K0.name ∧ K.target = K0.target ∧ K.url = K0.url
  lost : ∀ K0 ∈ w.holders, leaves = some K0.name → (∀ k ∈ K0.refs, k = r) → ∀ K ∈ w1.holders, K.name ≠ K0.name
  gone_iff : ∀ d, gone = some d ↔ ∃ H ∈ w.holders, leaves = some H.name ∧ (∀ k ∈ H.refs, k = r) ∧ H.target = some d ∧
    (w.docs d).map (·.top) = some false ∧ ∀ K ∈ w.holders, K.target = some d → K.name = H.name

theorem lostIds_none (w : World) : lostIds w none = fun _ => none := by
  funext e
  simp [lostIds, deadIds]

theorem onEntityReleased_none (R : Ref) : onEntityReleased (fun _ => none) R = R := by
  unfold onEntityReleased
  cases R.entity <;> rfl

theorem map_onEntityReleased_none (o : Option Ref) : o.map (onEntityReleased fun _ => none) = o := by
  cases o with
  | none => rfl
  | some R => rw [Option.map_some, onEntityReleased_none]

theorem effect_refl (w : World) (r : Nat) : Effect w r none none w := by
  refine ⟨fun d => by simp, by simp, rfl, ?_, ?_, ?_, ?_, by simp, by simp⟩
  · intro k _; rw [lostIds_none, map_onEntityReleased_none]
  · intro R hR; refine ⟨R, hR, ?_, fun _ => rfl⟩; rw [lostIds_none, onEntityReleased_none]
  · intro K hK; exact ⟨K, hK, rfl, rfl, rfl⟩
  · intro K hK _; exact ⟨K, hK, rfl, rfl, rfl⟩

theorem erase_eq_nil_iff {l : List Nat} {r : Nat} (hr : r ∈ l) (hn : l.Nodup) : l.erase r = [] ↔ ∀ k ∈ l, k = r := by
  constructor
  · intro h k hk
    by_contra hne
    have := (List.mem_erase_of_ne hne).2 hk
    rw [h] at this; simp at this
  · intro h
    rw [List.eq_nil_iff_forall_not_mem]
    intro k hk
    have h1 := h k (List.mem_of_mem_erase hk)
    subst h1
    exact hn.not_mem_erase hk

/-- Leaving a placeholder. -/
theorem leave_spec {w : World} {exc : Option Nat} (hi : Inv exc w) {r h : Nat} {R : Ref} (hR : w.refs r = some R) (hh : R.holder = some h) :
    ∃ w1 gone, leaveHolder w r h = some w1 ∧ Effect w r (some h) gone w1 ∧ Inv exc (modRef w1 r fun R => { R with holder := none }) := by
  obtain ⟨H, hH, rfl, hmem, heq⟩ := leave_eq hi hR hh
  have hnil := erase_eq_nil_iff hmem (hi.nodup H hH)
  by_cases he : H.refs.erase r = []
  · rw [if_pos he] at heq
    have hall := hnil.1 he
    have hinv := inv_leave_none hi hR hH hh he
    have key : ∀ (w2 : World) (gone : Option Nat),
        destroyHolder { w with holders := w.holders.filter fun K => K.name ≠ H.name } H.target = some w2 →
        (∀ d, w2.docs d = if gone = some d then none else w.docs d) →
        (w2.ents = w.ents.filter fun E => !decide (gone = some E.doc)) → w2.next = w.next →
        (∀ k, w2.refs k = (w.refs k).map (onEntityReleased (lostIds w gone))) →
        (w2.holders = w.holders.filter fun K => K.name ≠ H.name) →
        (∀ d, gone = some d ↔ H.target = some d ∧ (w.docs d).map (·.top) = some false ∧ ∀ K ∈ w.holders, K.target = some d → K.name = H.name) →
        Inv exc (modRef w2 r fun R => { R with holder := none }) →
        ∃ w1 gone, leaveHolder w r H.name = some w1 ∧ Effect w r (some H.name) gone w1 ∧ Inv exc (modRef w1 r fun R => { R with holder := none }) := by
      intro w2 gone h1 h2 h3 h4 h5 h6 h7 h8
      refine ⟨modRef w2 r fun R => { R with holder := none }, gone, ?_, ⟨h2, h3, h4, ?_, ?_, ?_, ?_, ?_, ?_⟩, ?_⟩
      · rw [heq, h1]; rfl
      · intro k hk; rw [modRef_ne hk]; exact h5 k
      · intro R0 hR0
        have h5r := h5 r
        rw [hR0, Option.map_some] at h5r
        refine ⟨_, modRef_self h5r, rfl, ?_⟩
        intro he'
        show (onEntityReleased (lostIds w gone) R0).id = R0.id
        have he' : (onEntityReleased (lostIds w gone) R0).entity = R0.entity := he'
        unfold onEntityReleased at he' ⊢
        cases hb : R0.entity.bind (lostIds w gone) with
        | none => rfl
        | some id =>
          rw [hb] at he'
          simp only at he'
          rw [← he'] at hb
          simp at hb
      · intro K hK
        have hK : K ∈ w2.holders := hK
        rw [h6] at hK
        exact ⟨K, (List.mem_filter.1 hK).1, rfl, rfl, rfl⟩
      · intro K hK hl
        refine ⟨K, ?_, rfl, rfl, rfl⟩
        show K ∈ w2.holders
        rw [h6]
        refine List.mem_filter.2 ⟨hK, ?_⟩
        simp only [ne_eq, decide_not, Bool.not_eq_eq_eq_not, Bool.not_true, decide_eq_false_iff_not]
        intro e
        have := holder_inj hi hK hH e
        subst this
        obtain ⟨k, hk, hk2⟩ := hl rfl
        exact hk2 (hall k hk)
      · intro K0 hK0 hl _ K hK
        have hK : K ∈ w2.holders := hK
        rw [h6] at hK
        have := (List.mem_filter.1 hK).2
        simp only [Option.some.injEq] at hl
        rw [← hl]
        simpa using this
      · intro d
        rw [h7 d]
        constructor
        · rintro ⟨a, b, c⟩
          exact ⟨H, hH, rfl, hall, a, b, c⟩
        · rintro ⟨K, hK, hn, _, a, b, c⟩
          simp only [Option.some.injEq] at hn
          have := holder_inj hi hK hH hn.symm
          subst this
          exact ⟨a, b, c⟩
      · refine inv_same (w := modRef w2 r fun R => { R with holder := none }) ⟨rfl, rfl, rfl, rfl, ?_⟩ h8
        intro k
        by_cases hk : k = r
        · subst hk
          cases hx : w2.refs k with
          | none => simp [modRef, hx]
          | some R0 => simp [modRef, hx]
        · rw [modRef_ne hk]
    cases ht : H.target with
    | none =>
      refine key { w with holders := w.holders.filter fun K => K.name ≠ H.name } none (by rw [ht]; rfl) (fun d => by simp) (by simp) rfl ?_ rfl (by simp [ht]) hinv
      intro k; rw [lostIds_none, map_onEntityReleased_none]
    | some d =>
      obtain ⟨D, hD⟩ := Option.ne_none_iff_exists'.1 (hi.safe.target H hH d ht)
      by_cases hc : D.top = true ∨ ((w.holders.filter fun K => K.name ≠ H.name).any fun H => H.target = some d) = true
      · refine key { w with holders := w.holders.filter fun K => K.name ≠ H.name } none ?_ (fun d => by simp) (by simp) rfl ?_ rfl ?_ hinv
        · rw [ht]; simp only [destroyHolder, hD]; rw [if_pos hc]
        · intro k; rw [lostIds_none, map_onEntityReleased_none]
        · intro x
          simp only [reduceCtorEq, ht, Option.some.injEq, false_iff, not_and]
          rintro rfl hx hall'
          rw [hD] at hx
          rcases hc with hc | hc
          · simp [hc] at hx
          · obtain ⟨K, hK, hKt⟩ := List.any_eq_true.1 hc
            obtain ⟨hK1, hK2⟩ := List.mem_filter.1 hK
            have := hall' K hK1 (by simpa using hKt)
            simp [this] at hK2
      · have hdocs : { w with holders := w.holders.filter fun K => K.name ≠ H.name }.docs d ≠ none := by rw [show _ = w.docs d from rfl, hD]; simp
        have hinv' : Inv exc (modRef { w with holders := w.holders.filter fun K => K.name ≠ H.name } r fun R => { R with holder := none }) := hinv
        obtain ⟨w', hw', hiw'⟩ := inv_releaseDoc hinv' (d := d) hdocs
        obtain ⟨w2, hw2, hsame⟩ := releaseDoc_same hw'
        have hw2' := hw2
        unfold releaseDoc at hw2'
        have hDD : { w with holders := w.holders.filter fun K => K.name ≠ H.name }.docs d = some D := hD
        rw [hDD] at hw2'
        simp only [Option.some.injEq] at hw2'
        push Not at hc
        refine key w2 (some d) ?_ ?_ ?_ ?_ ?_ ?_ ?_ (inv_same hsame hiw')
        · rw [ht]; simp only [destroyHolder, hD]
          rw [if_neg (by simpa using hc)]
          exact hw2
        · intro x
          rw [← hw2']
          show (if x = d then none else w.docs x) = _
          by_cases e : x = d
          · simp [e]
          · simp only [e, if_false, Option.some.injEq]
            rw [if_neg (fun e' => e e'.symm)]
        · rw [← hw2']
          show w.ents.filter _ = _
          congr 1
          funext E
          simp only [Option.some.injEq]
          congr 1
          simp only [decide_eq_decide]
          exact eq_comm
        · rw [← hw2']; rfl
        · intro k
          rw [← hw2']
          show (w.refs k).map _ = _
          unfold lostIds
          congr 3
          funext E
          simp only [Option.some.injEq, decide_eq_decide]
          exact eq_comm
        · rw [← hw2']
          show (w.holders.filter _).map _ = _
          conv_rhs => rw [← List.map_id (List.filter _ _)]
          apply List.map_congr_left
          intro K hK
          unfold onTargetReleased
          split
          · rename_i hKt
            exfalso
            apply hc.2
            exact List.any_eq_true.2 ⟨K, hK, by simpa using hKt⟩
          · rfl
        · intro x
          constructor
          · intro e
            simp only [Option.some.injEq] at e
            subst e
            refine ⟨ht, ?_, ?_⟩
            · rw [hD]
              have := hc.1
              cases hb : D.top with
              | true => exact absurd hb this
              | false => simp [hb]
            · intro K hK hKt
              by_contra hne
              apply hc.2
              exact List.any_eq_true.2 ⟨K, List.mem_filter.2 ⟨hK, by simpa using hne⟩, by simpa using hKt⟩
          · rintro ⟨a, _, _⟩
            rw [ht] at a
            exact a
  · rw [if_neg he] at heq
    have hex : ∃ k ∈ H.refs, k ≠ r := by
      by_contra hc
      push Not at hc
      exact he (hnil.2 hc)
    have hm := modHolder_mem w H.name (fun H => { H with refs := H.refs.erase r })
    refine ⟨_, none, heq, ⟨fun d => by simp [modHolder], by simp [modHolder], rfl, ?_, ?_, ?_, ?_, ?_, ?_⟩, inv_leave_some hi hR hH hh he⟩
    · intro k _; rw [lostIds_none, map_onEntityReleased_none]; rfl
    · intro R0 hR0; refine ⟨R0, hR0, ?_, fun _ => rfl⟩; rw [lostIds_none, onEntityReleased_none]
    · intro K hK
      obtain ⟨K0, h0, rfl⟩ := (hm K).1 hK
      refine ⟨K0, h0, ?_, ?_, ?_⟩ <;> split <;> rfl
    · intro K hK _
      refine ⟨_, (hm _).2 ⟨K, hK, rfl⟩, ?_, ?_, ?_⟩ <;> split <;> rfl
    · intro K0 hK0 hl hall
      simp only [Option.some.injEq] at hl
      have := holder_inj hi hH hK0 hl
      subst this
      obtain ⟨k, hk, hk2⟩ := hex
      exact absurd (hall k hk) hk2
    · intro d
      simp only [reduceCtorEq, false_iff]
      rintro ⟨K, hK, hl, hall, _⟩
      simp only [Option.some.injEq] at hl
      have := holder_inj hi hH hK hl
      subst this
      obtain ⟨k, hk, hk2⟩ := hex
      exact absurd (hall k hk) hk2

/-- Joining a placeholder keeps the rest. -/
theorem effect_join {w w1 w' : World} {r : Nat} {leaves gone new : Option Nat} (h : Effect w r leaves gone w1) (hr : w.refs r ≠ none)
    (hj : joinHolder w1 r new = some w') : Effect w r leaves gone w' ∧ ∃ R', w'.refs r = some R' ∧ R'.holder = new := by
  obtain ⟨R, hR⟩ := Option.ne_none_iff_exists'.1 hr
  obtain ⟨R1, hR1, _⟩ := h.self R hR
  have base : Effect w r leaves gone (modRef w1 r fun R => { R with holder := new }) := by
    refine ⟨h.docs, h.ents, h.next, ?_, ?_, h.back, h.fwd, h.lost, h.gone_iff⟩
    · intro k hk; rw [modRef_ne hk]; exact h.others k hk
    · intro R0 hR0
      obtain ⟨R2, a, b, c⟩ := h.self R0 hR0
      exact ⟨_, modRef_self a, b, c⟩
  cases new with
  | none =>
    simp only [joinHolder, Option.some.injEq] at hj
    subst hj
    exact ⟨base, _, modRef_self hR1, rfl⟩
  | some q =>
    simp only [joinHolder] at hj
    split at hj
    · simp only [Option.some.injEq] at hj
      subst hj
      have hm := modHolder_mem (modRef w1 r fun R => { R with holder := some q }) q (fun H => { H with refs := H.refs ++ [r] })
      refine ⟨⟨base.docs, base.ents, base.next, base.others, base.self, ?_, ?_, ?_, base.gone_iff⟩, _, modRef_self hR1, rfl⟩
      · intro K hK
        obtain ⟨K0, h0, rfl⟩ := (hm K).1 hK
        obtain ⟨K1, a, b, c, d⟩ := base.back K0 h0
        refine ⟨K1, a, ?_, ?_, ?_⟩ <;> split <;> assumption
      · intro K0 h0 hl
        obtain ⟨K1, a, b, c, d⟩ := base.fwd K0 h0 hl
        refine ⟨_, (hm _).2 ⟨K1, a, rfl⟩, ?_, ?_, ?_⟩ <;> split <;> assumption
      · intro K0 h0 hl hall K hK
        obtain ⟨K1, a, rfl⟩ := (hm K).1 hK
        have := base.lost K0 h0 hl hall K1 a
        split <;> exact this
    · simp at hj

/-- The placeholder a reference leaves when it is given another. -/
def leavesOf (R : Ref) (new : Option Nat) : Option Nat := if R.holder = new then none else R.holder

/-- `SetPlaceHolder`. -/
theorem setHolder_spec {w : World} {new : Option Nat} (hi : Inv new w) {r : Nat} {R : Ref} (hR : w.refs r = some R)
    (hq : ∀ q, new = some q → ∃ H ∈ w.holders, H.name = q) :
    ∃ w' gone, setHolder w r new = some w' ∧ Inv none w' ∧ Effect w r (leavesOf R new) gone w' ∧ ∃ R', w'.refs r = some R' ∧ R'.holder = new := by
  unfold setHolder leavesOf
  rw [hR]
  simp only
  by_cases hn : R.holder = new
  · rw [if_pos hn, if_pos hn]
    refine ⟨w, none, rfl, ?_, effect_refl w r, R, hR, hn⟩
    refine { hi with nonempty := ?_ }
    intro H hH _
    by_cases hx : new = some H.name
    · intro he
      have : r ∈ H.refs := (hi.mem H hH r).2 ⟨R, hR, hn.trans hx⟩
      rw [he] at this; simp at this
    · exact hi.nonempty H hH hx
  · rw [if_neg hn, if_neg hn]
    cases hh : R.holder with
    | none =>
      obtain ⟨w', h1, h2⟩ := inv_join hi hR hh hq
      obtain ⟨h3, h4⟩ := effect_join (effect_refl w r) (by simp [hR]) h1
      exact ⟨w', none, h1, h2, h3, h4⟩
    | some h =>
      obtain ⟨w1, gone, h1, h2, h3⟩ := leave_spec hi hR hh
      simp only [h1, Option.bind_some]
      obtain ⟨R1, hR1, _⟩ := h2.self R hR
      have hq' : ∀ q, new = some q → ∃ H ∈ w1.holders, H.name = q := by
        intro q hqn
        obtain ⟨H, hH, rfl⟩ := hq q hqn
        obtain ⟨K, hK, hKn, _⟩ := h2.fwd H hH (fun e => absurd (by rw [hh, e, hqn]) hn)
        exact ⟨K, hK, hKn⟩
      obtain ⟨w', h4, h5⟩ := inv_join h3 (modRef_self hR1) rfl hq'
      rw [joinHolder_modRef] at h4
      obtain ⟨h6, h7⟩ := effect_join h2 (by simp [hR]) h4
      exact ⟨w', gone, h4, h5, h6, h7⟩

end Verif.FRef
