import Verif.EntityRefSpec
import Mathlib.Data.List.Nodup

/-!
# Lemmas about entity references
-/

namespace Verif.FRef

/-- The invariant; the placeholder `exc` may be without references. -/
structure Inv (exc : Option Nat) (w : World) : Prop where
  names : (w.holders.map (·.name)).Nodup
  entNames : (w.ents.map (·.name)).Nodup
  noHome : w.docs home = none
  holderLt : ∀ H ∈ w.holders, H.name < w.next
  entLt : ∀ E ∈ w.ents, E.name < w.next
  docLt : ∀ d, w.docs d ≠ none → d < w.next
  refLt : ∀ r, w.refs r ≠ none → r < w.next
  pos : 0 < w.next
  mem : ∀ H ∈ w.holders, ∀ r, r ∈ H.refs ↔ ∃ R, w.refs r = some R ∧ R.holder = some H.name
  nodup : ∀ H ∈ w.holders, H.refs.Nodup
  nonempty : ∀ H ∈ w.holders, exc ≠ some H.name → H.refs ≠ []
  safe : NothingDangles w

theorem inv_start : Inv none start := by
  refine ⟨?_, ?_, rfl, ?_, ?_, ?_, ?_, ?_, ?_, ?_, ?_, ⟨?_, ?_, ?_, ?_⟩⟩ <;> simp [start]

theorem inv_weaken {w : World} {exc : Option Nat} (h : Inv none w) : Inv exc w :=
  { h with nonempty := fun H hH _ => h.nonempty H hH (by simp) }

theorem holder?_eq {w : World} {exc : Option Nat} (hi : Inv exc w) {H : Holder} (hH : H ∈ w.holders) : holder? w H.name = some H := by
  have hn := hi.names
  unfold holder?
  generalize w.holders = l at *
  induction l with
  | nil => simp at hH
  | cons a l ih =>
    rw [List.map_cons, List.nodup_cons] at hn
    rcases List.mem_cons.1 hH with rfl | hm
    · simp
    · have : a.name ≠ H.name := fun e => hn.1 (e ▸ List.mem_map.2 ⟨H, hm, rfl⟩)
      rw [List.find?_cons_of_neg (by simpa using this)]
      exact ih hm hn.2

theorem holder?_mem {w : World} {h : Nat} {H : Holder} (e : holder? w h = some H) : H ∈ w.holders ∧ H.name = h := by
  unfold holder? at e
  exact ⟨List.mem_of_find?_eq_some e, by simpa using List.find?_some e⟩

theorem ent?_eq {w : World} {exc : Option Nat} (hi : Inv exc w) {E : Ent} (hE : E ∈ w.ents) : ent? w E.name = some E := by
  have hn := hi.entNames
  unfold ent?
  generalize w.ents = l at *
  induction l with
  | nil => simp at hE
  | cons a l ih =>
    rw [List.map_cons, List.nodup_cons] at hn
    rcases List.mem_cons.1 hE with rfl | hm
    · simp
    · have : a.name ≠ E.name := fun e => hn.1 (e ▸ List.mem_map.2 ⟨E, hm, rfl⟩)
      rw [List.find?_cons_of_neg (by simpa using this)]
      exact ih hm hn.2

theorem ent_inj {w : World} {exc : Option Nat} (hi : Inv exc w) {E E' : Ent} (h : E ∈ w.ents) (h' : E' ∈ w.ents) (e : E.name = E'.name) : E = E' := by
  have h1 := ent?_eq hi h
  have h2 := ent?_eq hi h'
  rw [e, h2] at h1
  exact (Option.some.inj h1).symm

theorem holder_inj {w : World} {exc : Option Nat} (hi : Inv exc w) {H H' : Holder} (h : H ∈ w.holders) (h' : H' ∈ w.holders)
    (e : H.name = H'.name) : H = H' := by
  have h1 := holder?_eq hi h
  have h2 := holder?_eq hi h'
  rw [e, h2] at h1
  exact (Option.some.inj h1).symm

/-- Two worlds that differ at most in the ids that references hold. -/
structure Same (w w' : World) : Prop where
  docs : w'.docs = w.docs
  ents : w'.ents = w.ents
  holders : w'.holders = w.holders
  next : w'.next = w.next
  refs : ∀ r, (w'.refs r).map (fun R => (R.entity, R.holder)) = (w.refs r).map fun R => (R.entity, R.holder)

theorem same_ref {w w' : World} (h : Same w w') {r : Nat} {R : Ref} (e : w.refs r = some R) :
    ∃ R', w'.refs r = some R' ∧ R'.entity = R.entity ∧ R'.holder = R.holder := by
  have := h.refs r
  rw [e] at this
  cases e' : w'.refs r with
  | none => simp [e'] at this
  | some R' => rw [e'] at this; simp at this; exact ⟨R', rfl, this.1, this.2⟩

theorem same_symm {w w' : World} (h : Same w w') : Same w' w :=
  ⟨h.docs.symm, h.ents.symm, h.holders.symm, h.next.symm, fun r => (h.refs r).symm⟩

theorem same_ne {w w' : World} (h : Same w w') (r : Nat) : w'.refs r ≠ none ↔ w.refs r ≠ none := by
  have := h.refs r
  cases e : w.refs r <;> cases e' : w'.refs r <;> simp [e, e'] at this ⊢

theorem inv_same {w w' : World} {exc : Option Nat} (h : Same w w') (hi : Inv exc w) : Inv exc w' := by
  have hs := same_symm h
  refine ⟨?_, ?_, ?_, ?_, ?_, ?_, ?_, ?_, ?_, ?_, ?_, ⟨?_, ?_, ?_, ?_⟩⟩
  · rw [h.holders]; exact hi.names
  · rw [h.ents]; exact hi.entNames
  · rw [h.docs]; exact hi.noHome
  · rw [h.holders, h.next]; exact hi.holderLt
  · rw [h.ents, h.next]; exact hi.entLt
  · rw [h.docs, h.next]; exact hi.docLt
  · intro r hr; rw [h.next]; exact hi.refLt r ((same_ne h r).1 hr)
  · rw [h.next]; exact hi.pos
  · intro H hH r
    rw [h.holders] at hH
    rw [hi.mem H hH r]
    constructor
    · rintro ⟨R, e, e2⟩
      obtain ⟨R', a, _, c⟩ := same_ref h e
      exact ⟨R', a, c.trans e2⟩
    · rintro ⟨R, e, e2⟩
      obtain ⟨R', a, _, c⟩ := same_ref hs e
      exact ⟨R', a, c.trans e2⟩
  · rw [h.holders]; exact hi.nodup
  · rw [h.holders]; exact hi.nonempty
  · intro r R e h1 h2
    obtain ⟨R', a, b, _⟩ := same_ref hs h1
    rw [h.ents]
    exact hi.safe.entity r R' e a (b.trans h2)
  · intro r R q h1 h2
    obtain ⟨R', a, _, c⟩ := same_ref hs h1
    rw [h.holders]
    exact hi.safe.holder r R' q a (c.trans h2)
  · rw [h.holders, h.docs]; exact hi.safe.target
  · rw [h.ents, h.docs]; exact hi.safe.doc

theorem modRef_self {w : World} {r : Nat} {f : Ref → Ref} {R : Ref} (h : w.refs r = some R) : (modRef w r f).refs r = some (f R) := by
  simp [modRef, h]

theorem modRef_ne {w : World} {r k : Nat} {f : Ref → Ref} (h : k ≠ r) : (modRef w r f).refs k = w.refs k := by
  simp [modRef, h]

/-- Changing a reference without changing its placeholder. -/
theorem inv_modRef {w : World} {exc : Option Nat} (hi : Inv exc w) (r : Nat) (f : Ref → Ref) (hh : ∀ R, (f R).holder = R.holder)
    (he : ∀ R e, w.refs r = some R → (f R).entity = some e → ∃ E ∈ w.ents, E.name = e) : Inv exc (modRef w r f) := by
  refine ⟨hi.names, hi.entNames, hi.noHome, hi.holderLt, hi.entLt, hi.docLt, ?_, hi.pos, ?_, hi.nodup, hi.nonempty, ⟨?_, ?_, hi.safe.target, hi.safe.doc⟩⟩
  · intro k hk
    apply hi.refLt k
    by_cases e : k = r
    · intro h0
      simp [modRef, h0] at hk
    · rwa [modRef_ne e] at hk
  · intro H hH k
    rw [hi.mem H hH k]
    by_cases e : k = r
    · subst e
      cases h0 : w.refs k with
      | none => simp [modRef, h0]
      | some R => simp [modRef, h0, hh]
    · rw [modRef_ne e]
  · intro k R e h1 h2
    by_cases hk : k = r
    · subst hk
      cases h0 : w.refs k with
      | none => simp [modRef, h0] at h1
      | some R0 =>
        rw [modRef_self h0] at h1
        injection h1 with h1
        exact he R0 e h0 (h1 ▸ h2)
    · rw [modRef_ne hk] at h1
      exact hi.safe.entity k R e h1 h2
  · intro k R q h1 h2
    by_cases hk : k = r
    · subst hk
      cases h0 : w.refs k with
      | none => simp [modRef, h0] at h1
      | some R0 =>
        rw [modRef_self h0] at h1
        injection h1 with h1
        exact hi.safe.holder k R0 q h0 (by rw [← hh, h1]; exact h2)
    · rw [modRef_ne hk] at h1
      exact hi.safe.holder k R q h1 h2

theorem inv_addHolder {w : World} (hi : Inv none w) (t : Option Nat) (url : Text) (ht : ∀ d, t = some d → w.docs d ≠ none) :
    Inv (some w.next) (addHolder w t url) := by
  refine ⟨?_, hi.entNames, hi.noHome, ?_, ?_, ?_, ?_, ?_, ?_, ?_, ?_, ⟨hi.safe.entity, ?_, ?_, hi.safe.doc⟩⟩
  · simp only [addHolder, List.map_append, List.map_cons, List.map_nil]
    rw [List.nodup_append]
    refine ⟨hi.names, by simp, ?_⟩
    intro a ha b hb
    obtain ⟨H, hH, rfl⟩ := List.mem_map.1 ha
    have := hi.holderLt H hH
    simp at hb
    omega
  · intro H hH
    show H.name < w.next + 1
    rcases List.mem_append.1 hH with h | h
    · have := hi.holderLt H h; omega
    · simp at h; subst h; simp
  · intro E hE
    show E.name < w.next + 1
    have := hi.entLt E hE; omega
  · intro d hd
    show d < w.next + 1
    have := hi.docLt d hd; omega
  · intro d hd
    show d < w.next + 1
    have := hi.refLt d hd; omega
  · show 0 < w.next + 1
    omega
  · intro H hH r
    rcases List.mem_append.1 hH with h | h
    · exact hi.mem H h r
    · simp at h; subst h
      simp only [List.not_mem_nil, false_iff]
      rintro ⟨R, h1, h2⟩
      obtain ⟨H, h3, h4⟩ := hi.safe.holder r R _ h1 h2
      have := hi.holderLt H h3
      omega
  · intro H hH
    rcases List.mem_append.1 hH with h | h
    · exact hi.nodup H h
    · simp at h; subst h; simp
  · intro H hH hx
    rcases List.mem_append.1 hH with h | h
    · exact hi.nonempty H h (by simp)
    · simp at h; subst h; simp at hx
  · intro r R q h1 h2
    obtain ⟨H, h3, h4⟩ := hi.safe.holder r R q h1 h2
    exact ⟨H, List.mem_append_left _ h3, h4⟩
  · intro H hH d hd
    rcases List.mem_append.1 hH with h | h
    · exact hi.safe.target H h d hd
    · simp at h; subst h; exact ht d hd

theorem onEntityReleased_holder (dead : Nat → Option Text) (R : Ref) : (onEntityReleased dead R).holder = R.holder := by
  unfold onEntityReleased
  split <;> rfl

theorem onEntityReleased_entity (dead : Nat → Option Text) (R : Ref) :
    (onEntityReleased dead R).entity = match R.entity with | none => none | some e => if (dead e).isSome then none else some e := by
  unfold onEntityReleased
  cases h : R.entity with
  | none => simp [h]
  | some e => cases hd : dead e <;> simp [h, hd]

theorem deadIds_isSome {es : List Ent} (hn : (es.map (·.name)).Nodup) {E : Ent} (hE : E ∈ es) (p : Ent → Bool) :
    deadIds es p E.name = if p E then some E.id else none := by
  unfold deadIds
  induction es with
  | nil => simp at hE
  | cons a l ih =>
    rw [List.map_cons, List.nodup_cons] at hn
    rcases List.mem_cons.1 hE with rfl | hm
    · by_cases hp : p E
      · rw [List.find?_cons_of_pos (by simp [hp])]; simp [hp]
      · rw [List.find?_cons_of_neg (by simp [hp])]
        rw [if_neg hp]
        rw [Option.map_eq_none_iff, List.find?_eq_none]
        intro x hx
        have : x.name ≠ E.name := fun e => hn.1 (e ▸ List.mem_map.2 ⟨x, hx, rfl⟩)
        simp [this]
    · have : a.name ≠ E.name := fun e => hn.1 (e ▸ List.mem_map.2 ⟨E, hm, rfl⟩)
      rw [List.find?_cons_of_neg (by simp [this])]
      exact ih hn.2 hm

theorem releaseEnts_ref {w : World} (p : Ent → Bool) {r : Nat} {R : Ref} (h : (releaseEnts w p).refs r = some R) :
    ∃ R0, w.refs r = some R0 ∧ R = onEntityReleased (deadIds w.ents p) R0 := by
  simp only [releaseEnts, Option.map_eq_some_iff] at h
  obtain ⟨R0, h1, h2⟩ := h
  exact ⟨R0, h1, h2.symm⟩

/-- After the release of entities every reference points to an entity that is left. -/
theorem releaseEnts_entity {w : World} (hn : (w.ents.map (·.name)).Nodup)
    (hs : ∀ r R e, w.refs r = some R → R.entity = some e → ∃ E ∈ w.ents, E.name = e) (p : Ent → Bool) {r : Nat} {R : Ref} {e : Nat}
    (h : (releaseEnts w p).refs r = some R) (he : R.entity = some e) : ∃ E ∈ (releaseEnts w p).ents, E.name = e := by
  obtain ⟨R0, h1, rfl⟩ := releaseEnts_ref p h
  rw [onEntityReleased_entity] at he
  cases h0 : R0.entity with
  | none => rw [h0] at he; simp at he
  | some e0 =>
    rw [h0] at he
    obtain ⟨E, hE, rfl⟩ := hs r R0 e0 h1 h0
    simp only [deadIds_isSome hn hE] at he
    by_cases hp : p E
    · simp [hp] at he
    · simp [hp] at he
      exact ⟨E, List.mem_filter.2 ⟨hE, by simp [hp]⟩, he⟩

theorem inv_releaseEnts {w : World} {exc : Option Nat} (hi : Inv exc w) (p : Ent → Bool) : Inv exc (releaseEnts w p) := by
  refine ⟨hi.names, ?_, hi.noHome, hi.holderLt, ?_, hi.docLt, ?_, hi.pos, ?_, hi.nodup, hi.nonempty, ⟨?_, ?_, hi.safe.target, ?_⟩⟩
  · exact hi.entNames.sublist (List.Sublist.map _ List.filter_sublist)
  · intro E hE; exact hi.entLt E (List.mem_filter.1 hE).1
  · intro k hk
    apply hi.refLt
    intro h0
    simp [releaseEnts, h0] at hk
  · intro H hH r
    rw [hi.mem H hH r]
    constructor
    · rintro ⟨R, h1, h2⟩
      exact ⟨_, by simp only [releaseEnts, h1]; rfl, by rw [onEntityReleased_holder]; exact h2⟩
    · rintro ⟨R, h1, h2⟩
      obtain ⟨R0, h3, rfl⟩ := releaseEnts_ref p h1
      rw [onEntityReleased_holder] at h2
      exact ⟨R0, h3, h2⟩
  · intro r R e h1 h2
    exact releaseEnts_entity hi.entNames hi.safe.entity p h1 h2
  · intro r R q h1 h2
    obtain ⟨R0, h3, rfl⟩ := releaseEnts_ref p h1
    rw [onEntityReleased_holder] at h2
    exact hi.safe.holder r R0 q h3 h2
  · intro E hE
    exact hi.safe.doc E (List.mem_filter.1 hE).1

theorem onTargetReleased_fields (d : Nat) (url : Text) (H : Holder) :
    (onTargetReleased d url H).name = H.name ∧ (onTargetReleased d url H).refs = H.refs ∧
    (onTargetReleased d url H).target = if H.target = some d then none else H.target := by
  unfold onTargetReleased
  split <;> simp_all

theorem inv_releaseDoc {w : World} {exc : Option Nat} (hi : Inv exc w) {d : Nat} (hd : w.docs d ≠ none) :
    ∃ w', releaseDoc w d = some w' ∧ Inv exc w' := by
  obtain ⟨D, hD⟩ := Option.ne_none_iff_exists'.1 hd
  refine ⟨_, by simp only [releaseDoc, hD]; rfl, ?_⟩
  have hdh : d ≠ home := fun e => hd (e ▸ hi.noHome)
  refine ⟨?_, ?_, ?_, ?_, ?_, ?_, ?_, hi.pos, ?_, ?_, ?_, ⟨?_, ?_, ?_, ?_⟩⟩
  · simp only [releaseEnts, List.map_map]
    have : ((fun x : Holder => x.name) ∘ onTargetReleased d D.url) = fun x => x.name := funext fun H => (onTargetReleased_fields d D.url H).1
    rw [this]
    exact hi.names
  · exact hi.entNames.sublist (List.Sublist.map _ List.filter_sublist)
  · show (if home = d then none else w.docs home) = none
    rw [hi.noHome, ite_self]
  · intro H hH
    obtain ⟨H0, h0, rfl⟩ := List.mem_map.1 hH
    rw [(onTargetReleased_fields d D.url H0).1]
    exact hi.holderLt H0 h0
  · intro E hE; exact hi.entLt E (List.mem_filter.1 hE).1
  · intro k hk
    apply hi.docLt
    intro h0
    apply hk
    show (if k = d then none else w.docs k) = none
    rw [h0, ite_self]
  · intro k hk
    apply hi.refLt
    intro h0
    simp [releaseEnts, h0] at hk
  · intro H hH r
    obtain ⟨H0, h0, rfl⟩ := List.mem_map.1 hH
    rw [(onTargetReleased_fields d D.url H0).1, (onTargetReleased_fields d D.url H0).2.1, hi.mem H0 h0 r]
    constructor
    · rintro ⟨R, h1, h2⟩
      exact ⟨_, by simp only [releaseEnts, h1]; rfl, by rw [onEntityReleased_holder]; exact h2⟩
    · rintro ⟨R, h1, h2⟩
      obtain ⟨R0, h3, rfl⟩ := releaseEnts_ref _ h1
      rw [onEntityReleased_holder] at h2
      exact ⟨R0, h3, h2⟩
  · intro H hH
    obtain ⟨H0, h0, rfl⟩ := List.mem_map.1 hH
    rw [(onTargetReleased_fields d D.url H0).2.1]
    exact hi.nodup H0 h0
  · intro H hH hx
    obtain ⟨H0, h0, rfl⟩ := List.mem_map.1 hH
    rw [(onTargetReleased_fields d D.url H0).1] at hx
    rw [(onTargetReleased_fields d D.url H0).2.1]
    exact hi.nonempty H0 h0 hx
  · intro r R e h1 h2
    exact releaseEnts_entity (w := { w with docs := _, holders := _ }) hi.entNames hi.safe.entity _ h1 h2
  · intro r R q h1 h2
    obtain ⟨R0, h3, rfl⟩ := releaseEnts_ref _ h1
    rw [onEntityReleased_holder] at h2
    obtain ⟨H, h4, h5⟩ := hi.safe.holder r R0 q h3 h2
    exact ⟨_, List.mem_map.2 ⟨H, h4, rfl⟩, by rw [(onTargetReleased_fields d D.url H).1]; exact h5⟩
  · intro H hH x hx
    obtain ⟨H0, h0, rfl⟩ := List.mem_map.1 hH
    rw [(onTargetReleased_fields d D.url H0).2.2] at hx
    split at hx
    · simp at hx
    · rename_i hne
      have : x ≠ d := fun e => hne (e ▸ hx)
      show (if x = d then none else w.docs x) ≠ none
      rw [if_neg this]
      exact hi.safe.target H0 h0 x hx
  · intro E hE
    obtain ⟨h1, h2⟩ := List.mem_filter.1 hE
    rcases hi.safe.doc E h1 with h | h
    · exact .inl h
    · refine .inr ?_
      have : E.doc ≠ d := by simpa using h2
      show (if E.doc = d then none else w.docs E.doc) ≠ none
      rw [if_neg this]
      exact h

/-- What leaving a placeholder does, when the invariant holds. -/
theorem leave_eq {w : World} {exc : Option Nat} (hi : Inv exc w) {r h : Nat} {R : Ref} (hR : w.refs r = some R) (hh : R.holder = some h) :
    ∃ H ∈ w.holders, H.name = h ∧ r ∈ H.refs ∧
      leaveHolder w r h =
        if H.refs.erase r = [] then
          (destroyHolder { w with holders := w.holders.filter fun H => H.name ≠ h } H.target).map fun w2 =>
            modRef w2 r fun R => { R with holder := none }
        else some (modHolder w h fun H => { H with refs := H.refs.erase r }) := by
  obtain ⟨H, hH, hn⟩ := hi.safe.holder r R h hR hh
  have hmem : r ∈ H.refs := (hi.mem H hH r).2 ⟨R, hR, by rw [hn]; exact hh⟩
  refine ⟨H, hH, hn, hmem, ?_⟩
  unfold leaveHolder
  rw [← hn, holder?_eq hi hH]
  simp only
  split
  · rename_i he
    congr 1
    unfold releaseHolder
    have hf : holder? (modHolder w H.name fun H => { H with refs := H.refs.erase r }) H.name = some { H with refs := H.refs.erase r } := by
      have := holder?_eq hi hH
      unfold holder? at this ⊢
      simp only [modHolder]
      generalize w.holders = l at this
      induction l with
      | nil => simp at this
      | cons a l ih =>
        by_cases ha : a.name = H.name
        · rw [List.find?_cons_of_pos (by simpa using ha)] at this
          injection this with this
          subst this
          simp
        · rw [List.find?_cons_of_neg (by simpa using ha)] at this
          rw [List.map_cons, if_neg ha, List.find?_cons_of_neg (by simpa using ha)]
          exact ih this
    rw [hf]
    simp only
    congr 1
    unfold detachHolder modHolder
    simp only [World.mk.injEq, true_and, and_true]
    constructor
    · have : ∀ l : List Holder, List.filter (fun H' => decide (H'.name ≠ H.name)) (l.map fun H' => if H'.name = H.name then { H' with refs := H'.refs.erase r } else H') =
          l.filter fun H' => decide (H'.name ≠ H.name) := by
        intro l
        induction l with
        | nil => rfl
        | cons a l ih =>
          rw [List.map_cons]
          by_cases ha : a.name = H.name
          · rw [if_pos ha, List.filter_cons_of_neg (by simpa using ha), List.filter_cons_of_neg (by simpa using ha), ih]
          · rw [if_neg ha, List.filter_cons_of_pos (by simpa using ha), List.filter_cons_of_pos (by simpa using ha), ih]
      exact this _
    · funext k
      cases hk : w.refs k with
      | none => rfl
      | some R' =>
        rw [Option.map_some]
        congr 1
        split
        · rename_i hc
          exfalso
          have hkm : k ∈ H.refs := (hi.mem H hH k).2 ⟨R', hk, hc.1⟩
          have hkr : k ≠ r := fun e => hc.2 (by rw [e])
          have : k ∈ H.refs.erase r := (List.mem_erase_of_ne hkr).2 hkm
          rw [he] at this
          simp at this
        · rfl
  · rfl

theorem modHolder_mem (w : World) (h : Nat) (f : Holder → Holder) (H : Holder) :
    H ∈ (modHolder w h f).holders ↔ ∃ H0 ∈ w.holders, H = if H0.name = h then f H0 else H0 := by
  simp only [modHolder, List.mem_map]
  constructor <;> rintro ⟨a, b, c⟩ <;> exact ⟨a, b, c.symm⟩

theorem modHolder_names (w : World) (h : Nat) (f : Holder → Holder) (hf : ∀ H, (f H).name = H.name) :
    (modHolder w h f).holders.map (·.name) = w.holders.map (·.name) := by
  simp only [modHolder, List.map_map]
  congr 1
  funext H
  simp only [Function.comp]
  split <;> simp [hf]

/-- The invariant after the reference left its placeholder, when others remain. -/
theorem inv_leave_some {w : World} {exc : Option Nat} (hi : Inv exc w) {r : Nat} {R : Ref} {H : Holder} (hR : w.refs r = some R)
    (hH : H ∈ w.holders) (hh : R.holder = some H.name) (hne : H.refs.erase r ≠ []) :
    Inv exc (modRef (modHolder w H.name fun H => { H with refs := H.refs.erase r }) r fun R => { R with holder := none }) := by
  have hr : ∀ k, (modRef (modHolder w H.name fun H => { H with refs := H.refs.erase r }) r fun R => { R with holder := none }).refs k =
      if k = r then some { R with holder := none } else w.refs k := by
    intro k
    by_cases e : k = r
    · subst e; rw [if_pos rfl]; exact modRef_self (w := modHolder w H.name _) hR
    · rw [if_neg e]; exact modRef_ne e
  have hm := modHolder_mem w H.name (fun H => { H with refs := H.refs.erase r })
  refine ⟨?_, hi.entNames, hi.noHome, ?_, hi.entLt, hi.docLt, ?_, hi.pos, ?_, ?_, ?_, ⟨?_, ?_, ?_, hi.safe.doc⟩⟩
  · exact (modHolder_names w H.name (fun H => { H with refs := H.refs.erase r }) (fun _ => rfl)).symm ▸ hi.names
  · intro K hK
    obtain ⟨K0, h0, rfl⟩ := (hm _).1 hK
    have := hi.holderLt K0 h0
    split <;> exact this
  · intro k hk
    rw [hr] at hk
    by_cases e : k = r
    · subst e; exact hi.refLt k (by simp [hR])
    · rw [if_neg e] at hk; exact hi.refLt k hk
  · intro K hK k
    obtain ⟨K0, h0, rfl⟩ := (hm _).1 hK
    rw [hr]
    by_cases hk : K0.name = H.name
    · have hKH : K0 = H := holder_inj hi h0 hH hk
      subst hKH
      rw [if_pos rfl]
      simp only
      by_cases e : k = r
      · subst e
        rw [if_pos rfl]
        constructor
        · intro h; exact absurd h ((hi.nodup K0 h0).not_mem_erase)
        · rintro ⟨R', h1, h2⟩; injection h1 with h1; subst h1; simp at h2
      · rw [if_neg e, List.mem_erase_of_ne e]
        exact hi.mem K0 h0 k
    · rw [if_neg hk]
      by_cases e : k = r
      · subst e
        rw [if_pos rfl]
        constructor
        · intro h
          obtain ⟨R', h1, h2⟩ := (hi.mem K0 h0 k).1 h
          rw [hR] at h1; injection h1 with h1; subst h1
          rw [hh] at h2; injection h2 with h2
          exact absurd h2.symm hk
        · rintro ⟨R', h1, h2⟩; injection h1 with h1; subst h1; simp at h2
      · rw [if_neg e]
        exact hi.mem K0 h0 k
  · intro K hK
    obtain ⟨K0, h0, rfl⟩ := (hm _).1 hK
    split
    · exact (hi.nodup K0 h0).erase r
    · exact hi.nodup K0 h0
  · intro K hK hx
    obtain ⟨K0, h0, rfl⟩ := (hm _).1 hK
    by_cases hk : K0.name = H.name
    · have hKH : K0 = H := holder_inj hi h0 hH hk
      subst hKH
      rw [if_pos rfl]; exact hne
    · rw [if_neg hk] at hx ⊢
      exact hi.nonempty K0 h0 hx
  · intro k R' e h1 h2
    rw [hr] at h1
    by_cases e' : k = r
    · rw [if_pos e'] at h1; injection h1 with h1; subst h1
      exact hi.safe.entity r R e hR h2
    · rw [if_neg e'] at h1
      exact hi.safe.entity k R' e h1 h2
  · intro k R' q h1 h2
    rw [hr] at h1
    by_cases e' : k = r
    · rw [if_pos e'] at h1; injection h1 with h1; subst h1
      simp at h2
    · rw [if_neg e'] at h1
      obtain ⟨K, h3, h4⟩ := hi.safe.holder k R' q h1 h2
      exact ⟨_, (hm _).2 ⟨K, h3, rfl⟩, by split <;> exact h4⟩
  · intro K hK d hd
    obtain ⟨K0, h0, rfl⟩ := (hm _).1 hK
    apply hi.safe.target K0 h0 d
    split at hd <;> exact hd

/-- The invariant after the last reference left its placeholder and the placeholder is gone. -/
theorem inv_leave_none {w : World} {exc : Option Nat} (hi : Inv exc w) {r : Nat} {R : Ref} {H : Holder} (hR : w.refs r = some R)
    (hH : H ∈ w.holders) (hh : R.holder = some H.name) (hne : H.refs.erase r = []) :
    Inv exc (modRef { w with holders := w.holders.filter fun K => K.name ≠ H.name } r fun R => { R with holder := none }) := by
  have hr : ∀ k, (modRef { w with holders := w.holders.filter fun K => K.name ≠ H.name } r fun R => { R with holder := none }).refs k =
      if k = r then some { R with holder := none } else w.refs k := by
    intro k
    by_cases e : k = r
    · subst e; rw [if_pos rfl]; exact modRef_self (w := { w with holders := _ }) hR
    · rw [if_neg e]; exact modRef_ne e
  refine ⟨?_, hi.entNames, hi.noHome, ?_, hi.entLt, hi.docLt, ?_, hi.pos, ?_, ?_, ?_, ⟨?_, ?_, ?_, hi.safe.doc⟩⟩
  · exact hi.names.sublist (List.Sublist.map _ List.filter_sublist)
  · intro K hK
    exact hi.holderLt K (List.mem_filter.1 hK).1
  · intro k hk
    rw [hr] at hk
    by_cases e : k = r
    · subst e; exact hi.refLt k (by simp [hR])
    · rw [if_neg e] at hk; exact hi.refLt k hk
  · intro K hK k
    obtain ⟨h0, h1⟩ := List.mem_filter.1 hK
    have h1 : K.name ≠ H.name := by simpa using h1
    rw [hr, hi.mem K h0 k]
    by_cases e : k = r
    · subst e
      rw [if_pos rfl]
      constructor
      · rintro ⟨R', h2, h3⟩
        rw [hR] at h2; injection h2 with h2; subst h2
        rw [hh] at h3; injection h3 with h3
        exact absurd h3.symm h1
      · rintro ⟨R', h2, h3⟩; injection h2 with h2; subst h2; simp at h3
    · rw [if_neg e]
  · intro K hK
    exact hi.nodup K (List.mem_filter.1 hK).1
  · intro K hK hx
    exact hi.nonempty K (List.mem_filter.1 hK).1 hx
  · intro k R' e h1 h2
    rw [hr] at h1
    by_cases e' : k = r
    · rw [if_pos e'] at h1; injection h1 with h1; subst h1
      exact hi.safe.entity r R e hR h2
    · rw [if_neg e'] at h1
      exact hi.safe.entity k R' e h1 h2
  · intro k R' q h1 h2
    rw [hr] at h1
    by_cases e' : k = r
    · rw [if_pos e'] at h1; injection h1 with h1; subst h1
      simp at h2
    · rw [if_neg e'] at h1
      obtain ⟨K, h3, h4⟩ := hi.safe.holder k R' q h1 h2
      refine ⟨K, List.mem_filter.2 ⟨h3, ?_⟩, h4⟩
      have : K.name ≠ H.name := by
        intro e
        have hKH := holder_inj hi h3 hH e
        subst hKH
        have : k ∈ K.refs := (hi.mem K h3 k).2 ⟨R', h1, by rw [h4]; exact h2⟩
        have := (List.mem_erase_of_ne e').2 this
        rw [hne] at this
        simp at this
      simpa using this
  · intro K hK d hd
    exact hi.safe.target K (List.mem_filter.1 hK).1 d hd

theorem modRef_releaseEnts_same (w : World) (p : Ent → Bool) (r : Nat) :
    Same (releaseEnts (modRef w r fun R => { R with holder := none }) p) (modRef (releaseEnts w p) r fun R => { R with holder := none }) := by
  refine ⟨rfl, rfl, rfl, rfl, ?_⟩
  intro k
  simp only [releaseEnts, modRef]
  by_cases e : k = r
  · rw [if_pos e, if_pos e]
    cases w.refs k with
    | none => rfl
    | some R =>
      simp only [Option.map_some, Option.some.injEq, Prod.mk.injEq, onEntityReleased_holder, and_true]
      rw [onEntityReleased_entity, onEntityReleased_entity]
  · rw [if_neg e, if_neg e]

theorem releaseDoc_same {w w' : World} {d r : Nat} (h : releaseDoc (modRef w r fun R => { R with holder := none }) d = some w') :
    ∃ w2, releaseDoc w d = some w2 ∧ Same w' (modRef w2 r fun R => { R with holder := none }) := by
  unfold releaseDoc at h
  cases hd : w.docs d with
  | none => simp [modRef, hd] at h
  | some D =>
    have hd' : (modRef w r fun R => { R with holder := none }).docs d = some D := hd
    rw [hd'] at h
    simp only [Option.some.injEq] at h
    subst h
    refine ⟨_, by simp only [releaseDoc, hd]; rfl, ?_⟩
    exact modRef_releaseEnts_same { w with docs := _, holders := _ } _ r

theorem joinHolder_modRef (w : World) (r : Nat) (new : Option Nat) :
    joinHolder (modRef w r fun R => { R with holder := none }) r new = joinHolder w r new := by
  have : ∀ f : Ref → Ref, (∀ R : Ref, f { R with holder := none } = f R) → modRef (modRef w r fun R => { R with holder := none }) r f = modRef w r f := by
    intro f hf
    simp only [modRef, World.mk.injEq, true_and, and_true]
    funext k
    by_cases e : k = r
    · simp only [if_pos e, Option.map_map]
      congr 1
      funext R
      exact hf R
    · simp [e]
  unfold joinHolder
  rw [this _ (fun _ => rfl)]

/-- Joining a placeholder restores the whole invariant. -/
theorem inv_join {w : World} {new : Option Nat} (hi : Inv new w) {r : Nat} {R : Ref} (hR : w.refs r = some R) (hh : R.holder = none)
    (hq : ∀ q, new = some q → ∃ H ∈ w.holders, H.name = q) : ∃ w', joinHolder w r new = some w' ∧ Inv none w' := by
  cases new with
  | none =>
    refine ⟨_, rfl, ?_⟩
    refine inv_same (w := w) ⟨rfl, rfl, rfl, rfl, ?_⟩ hi
    intro k
    by_cases e : k = r
    · subst e; rw [modRef_self hR, hR]; simp [hh]
    · rw [modRef_ne e]
  | some q =>
    obtain ⟨H, hH, rfl⟩ := hq q rfl
    have hsome : (holder? (modRef w r fun R => { R with holder := some H.name }) H.name).isSome := by
      show (holder? w H.name).isSome
      rw [holder?_eq hi hH]; rfl
    have hr : ∀ k, (modRef w r fun R => { R with holder := some H.name }).refs k = if k = r then some { R with holder := some H.name } else w.refs k := by
      intro k
      by_cases e : k = r
      · subst e; rw [if_pos rfl]; exact modRef_self hR
      · rw [if_neg e]; exact modRef_ne e
    refine ⟨_, by simp only [joinHolder, hsome, if_true]; rfl, ?_⟩
    have hm := modHolder_mem w H.name (fun H => { H with refs := H.refs ++ [r] })
    refine ⟨?_, hi.entNames, hi.noHome, ?_, hi.entLt, hi.docLt, ?_, hi.pos, ?_, ?_, ?_, ⟨?_, ?_, ?_, hi.safe.doc⟩⟩
    · exact (modHolder_names w H.name (fun H => { H with refs := H.refs ++ [r] }) (fun _ => rfl)).symm ▸ hi.names
    · intro K hK
      obtain ⟨K0, h0, rfl⟩ := (hm _).1 hK
      have := hi.holderLt K0 h0
      split <;> exact this
    · intro k hk
      have hk : (modRef w r fun R => { R with holder := some H.name }).refs k ≠ none := hk
      rw [hr] at hk
      by_cases e : k = r
      · subst e; exact hi.refLt k (by simp [hR])
      · rw [if_neg e] at hk; exact hi.refLt k hk
    · intro K hK k
      obtain ⟨K0, h0, rfl⟩ := (hm _).1 hK
      show _ ↔ ∃ R', (modRef w r fun R => { R with holder := some H.name }).refs k = some R' ∧ _
      rw [hr]
      have hrk : r ∉ K0.refs := by
        intro h
        obtain ⟨R', h1, h2⟩ := (hi.mem K0 h0 r).1 h
        rw [hR] at h1; injection h1 with h1; subst h1
        rw [hh] at h2; simp at h2
      by_cases hk : K0.name = H.name
      · have hKH : K0 = H := holder_inj hi h0 hH hk
        subst hKH
        rw [if_pos rfl]
        simp only [List.mem_append, List.mem_singleton]
        by_cases e : k = r
        · subst e; simp
        · simp only [e, or_false, if_false]
          exact hi.mem K0 h0 k
      · rw [if_neg hk]
        by_cases e : k = r
        · subst e
          rw [if_pos rfl]
          constructor
          · intro h; exact absurd h hrk
          · rintro ⟨R', h1, h2⟩
            injection h1 with h1; subst h1
            simp only [Option.some.injEq] at h2
            exact absurd h2.symm hk
        · rw [if_neg e]
          exact hi.mem K0 h0 k
    · intro K hK
      obtain ⟨K0, h0, rfl⟩ := (hm _).1 hK
      have hrk : r ∉ K0.refs := by
        intro h
        obtain ⟨R', h1, h2⟩ := (hi.mem K0 h0 r).1 h
        rw [hR] at h1; injection h1 with h1; subst h1
        rw [hh] at h2; simp at h2
      split
      · simp only
        rw [List.nodup_append]
        refine ⟨hi.nodup K0 h0, by simp, ?_⟩
        intro a ha b hb
        simp at hb
        subst hb
        exact fun e => hrk (e ▸ ha)
      · exact hi.nodup K0 h0
    · intro K hK _
      obtain ⟨K0, h0, rfl⟩ := (hm _).1 hK
      by_cases hk : K0.name = H.name
      · rw [if_pos hk]; simp
      · rw [if_neg hk]
        exact hi.nonempty K0 h0 (by simp only [ne_eq, Option.some.injEq]; exact fun e => hk e.symm)
    · intro k R' e h1 h2
      have h1 : (modRef w r fun R => { R with holder := some H.name }).refs k = some R' := h1
      rw [hr] at h1
      by_cases e' : k = r
      · rw [if_pos e'] at h1; injection h1 with h1; subst h1
        exact hi.safe.entity r R e hR h2
      · rw [if_neg e'] at h1
        exact hi.safe.entity k R' e h1 h2
    · intro k R' q h1 h2
      have h1 : (modRef w r fun R => { R with holder := some H.name }).refs k = some R' := h1
      rw [hr] at h1
      have key : ∃ K ∈ w.holders, K.name = q := by
        by_cases e' : k = r
        · rw [if_pos e'] at h1; injection h1 with h1; subst h1
          simp only [Option.some.injEq] at h2
          exact ⟨H, hH, h2⟩
        · rw [if_neg e'] at h1
          exact hi.safe.holder k R' q h1 h2
      obtain ⟨K, h3, h4⟩ := key
      exact ⟨_, (hm _).2 ⟨K, h3, rfl⟩, by split <;> exact h4⟩
    · intro K hK d hd
      obtain ⟨K0, h0, rfl⟩ := (hm _).1 hK
      apply hi.safe.target K0 h0 d
      split at hd <;> exact hd

end Verif.FRef
