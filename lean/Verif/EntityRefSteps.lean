import Verif.EntityRefEffect

/-!
# Every call on entity references keeps the invariant
-/

namespace Verif.FRef

theorem findByUrl_some {w : World} {url : Text} {h : Nat} (e : findByUrl w url = some h) :
    ∃ H ∈ w.holders, H.name = h ∧ getUrl w H = some url := by
  unfold findByUrl at e
  obtain ⟨H, h1, h2⟩ := Option.map_eq_some_iff.1 e
  exact ⟨H, List.mem_of_find?_eq_some h1, h2, by simpa using List.find?_some h1⟩

theorem findByDoc_some {w : World} {d : Nat} {h : Nat} (e : findByDoc w d = some h) :
    ∃ H ∈ w.holders, H.name = h ∧ H.target = some d := by
  unfold findByDoc at e
  obtain ⟨H, h1, h2⟩ := Option.map_eq_some_iff.1 e
  exact ⟨H, List.mem_of_find?_eq_some h1, h2, by simpa using List.find?_some h1⟩

theorem findByDoc_none {w : World} {d : Nat} (e : findByDoc w d = none) : ∀ H ∈ w.holders, H.target ≠ some d := by
  unfold findByDoc at e
  rw [Option.map_eq_none_iff, List.find?_eq_none] at e
  intro H hH h
  exact e H hH (by simp [h])

/-- The world in which `SetUri` looks for the placeholder, and the placeholder. -/
theorem setUri_spec {w : World} (hi : Inv none w) {r : Nat} {R : Ref} (hR : w.refs r = some R) (file : Option Text) (frag : Text) :
    ∃ w0 new w' gone, setUri w r file frag = some w' ∧ Inv none w' ∧
      w0.docs = w.docs ∧ w0.ents = w.ents ∧ w0.refs = (modRef w r fun R => { R with id := frag }).refs ∧
      (w0.holders = w.holders ∨ ∃ url, file = some url ∧ w0.holders = w.holders ++ [⟨w.next, none, url, []⟩]) ∧
      Effect w0 r (leavesOf R new) gone w' ∧ (∃ R', w'.refs r = some R' ∧ R'.holder = new) ∧
      (file = none → new = none) ∧ (∀ url, file = some url → ∃ H ∈ w0.holders, new = some H.name ∧ getUrl w0 H = some url) := by
  have h1 : Inv none (modRef w r fun R => { R with id := frag }) :=
    inv_modRef hi r _ (fun _ => rfl) (fun R e h1 h2 => hi.safe.entity r R e h1 h2)
  have hR1 : (modRef w r fun R => { R with id := frag }).refs r = some { R with id := frag } := modRef_self hR
  unfold setUri
  rw [hR]
  simp only
  cases file with
  | none =>
    obtain ⟨w', gone, a, b, c, d⟩ := setHolder_spec (new := none) h1 hR1 (by simp)
    exact ⟨(modRef w r fun R => { R with id := frag }), none, w', gone, a, b, rfl, rfl, rfl, .inl rfl, c, d, fun _ => rfl, by simp⟩
  | some url =>
    simp only
    cases hf : findByUrl (modRef w r fun R => { R with id := frag }) url with
    | some h =>
      obtain ⟨H, hH, rfl, hu⟩ := findByUrl_some hf
      obtain ⟨w', gone, a, b, c, d⟩ := setHolder_spec (new := some H.name) (inv_weaken h1) hR1 (by rintro q ⟨⟩; exact ⟨H, hH, rfl⟩)
      refine ⟨(modRef w r fun R => { R with id := frag }), some H.name, w', gone, a, b, rfl, rfl, rfl, .inl rfl, c, d, by simp, ?_⟩
      rintro u ⟨⟩
      exact ⟨H, hH, rfl, hu⟩
    | none =>
      have h2 := inv_addHolder h1 none url (by simp)
      have hmem : (⟨w.next, none, url, []⟩ : Holder) ∈ (addHolder (modRef w r fun R => { R with id := frag }) none url).holders :=
        List.mem_append_right _ (List.mem_singleton.2 rfl)
      obtain ⟨w', gone, a, b, c, d⟩ := setHolder_spec (new := some w.next) h2 hR1 (by rintro q ⟨⟩; exact ⟨_, hmem, rfl⟩)
      refine ⟨addHolder (modRef w r fun R => { R with id := frag }) none url, some w.next, w', gone, a, b, rfl, rfl, rfl, .inr ⟨url, rfl, rfl⟩, c, d, by simp, ?_⟩
      rintro u ⟨⟩
      exact ⟨_, hmem, rfl, rfl⟩

/-- The same for `SetEntity`. -/
theorem setEntity_spec {w : World} (hi : Inv none w) {r : Nat} {R : Ref} (hR : w.refs r = some R) (x : Option Ent) (hx : ∀ E, x = some E → E ∈ w.ents) :
    ∃ w0 new w' gone, setEntity w r (x.map (·.name)) = some w' ∧ Inv none w' ∧
      w0.docs = w.docs ∧ w0.ents = w.ents ∧
      w0.refs = (modRef w r fun R => { R with entity := x.map (·.name), id := match x with | none => R.id | some E => E.id }).refs ∧
      (w0.holders = w.holders ∨ ∃ d url, w0.holders = w.holders ++ [⟨w.next, some d, url, []⟩] ∧ ∀ H ∈ w.holders, H.target ≠ some d) ∧
      Effect w0 r (leavesOf R new) gone w' ∧ (∃ R', w'.refs r = some R' ∧ R'.holder = new) ∧
      (x = none → new = none) ∧
      (∀ E, x = some E → (E.doc = home ∧ new = none) ∨ (E.doc ≠ home ∧ ∃ H ∈ w0.holders, new = some H.name ∧ H.target = some E.doc)) := by
  unfold setEntity
  rw [hR]
  simp only
  cases x with
  | none =>
    have h1 : Inv none (modRef w r fun R => { R with entity := none }) := inv_modRef hi r _ (fun _ => rfl) (fun R e _ h2 => by simp at h2)
    have hR1 : (modRef w r fun R => { R with entity := none }).refs r = some { R with entity := none } := modRef_self hR
    obtain ⟨w', gone, a, b, c, d⟩ := setHolder_spec (new := none) h1 hR1 (by simp)
    exact ⟨(modRef w r fun R => { R with entity := none }), none, w', gone, a, b, rfl, rfl, rfl, .inl rfl, c, d, fun _ => rfl, by simp⟩
  | some E =>
    have hE := hx E rfl
    simp only [Option.map_some, ent?_eq hi hE]
    have h1 : Inv none (modRef w r fun R => { R with entity := some E.name, id := E.id }) :=
      inv_modRef hi r _ (fun _ => rfl) (fun R e _ h2 => by simp only [Option.some.injEq] at h2; exact ⟨E, hE, h2⟩)
    have hR1 : (modRef w r fun R => { R with entity := some E.name, id := E.id }).refs r = some { R with entity := some E.name, id := E.id } :=
      modRef_self hR
    unfold setEntityDocument
    simp only
    by_cases hd : E.doc = home
    · rw [if_pos hd]
      obtain ⟨w', gone, a, b, c, d⟩ := setHolder_spec (new := none) h1 hR1 (by simp)
      refine ⟨(modRef w r fun R => { R with entity := some E.name, id := E.id }), none, w', gone, a, b, rfl, rfl, rfl, .inl rfl, c, d, by simp, ?_⟩
      rintro _ ⟨⟩
      exact .inl ⟨hd, rfl⟩
    · rw [if_neg hd]
      cases hf : findByDoc (modRef w r fun R => { R with entity := some E.name, id := E.id }) E.doc with
      | some h =>
        obtain ⟨H, hH, rfl, hu⟩ := findByDoc_some hf
        obtain ⟨w', gone, a, b, c, d⟩ := setHolder_spec (new := some H.name) (inv_weaken h1) hR1 (by rintro q ⟨⟩; exact ⟨H, hH, rfl⟩)
        refine ⟨(modRef w r fun R => { R with entity := some E.name, id := E.id }), some H.name, w', gone, a, b, rfl, rfl, rfl, .inl rfl, c, d, by simp, ?_⟩
        rintro _ ⟨⟩
        exact .inr ⟨hd, H, hH, rfl, hu⟩
      | none =>
        have hlive : w.docs E.doc ≠ none := (hi.safe.doc E hE).resolve_left hd
        obtain ⟨D, hD⟩ := Option.ne_none_iff_exists'.1 hlive
        have hD' : (modRef w r fun R => { R with entity := some E.name, id := E.id }).docs E.doc = some D := hD
        simp only [hD']
        have h2 := inv_addHolder h1 (some E.doc) D.url (by rintro q ⟨⟩; exact hlive)
        have hmem : (⟨w.next, some E.doc, D.url, []⟩ : Holder) ∈
            (addHolder (modRef w r fun R => { R with entity := some E.name, id := E.id }) (some E.doc) D.url).holders :=
          List.mem_append_right _ (List.mem_singleton.2 rfl)
        obtain ⟨w', gone, a, b, c, d⟩ := setHolder_spec (new := some w.next) h2 hR1 (by rintro q ⟨⟩; exact ⟨_, hmem, rfl⟩)
        refine ⟨addHolder (modRef w r fun R => { R with entity := some E.name, id := E.id }) (some E.doc) D.url, some w.next, w', gone, a, b, rfl, rfl, rfl, .inr ⟨E.doc, D.url, rfl, findByDoc_none hf⟩, c, d, by simp, ?_⟩
        rintro _ ⟨⟩
        exact .inr ⟨hd, _, hmem, rfl, rfl⟩

theorem holder?_modHolder {w : World} {h : Nat} {H : Holder} (f : Holder → Holder) (hf : ∀ K, (f K).name = K.name) (e : holder? w h = some H) :
    holder? (modHolder w h f) h = some (f H) := by
  unfold holder? at e ⊢
  simp only [modHolder]
  generalize w.holders = l at e
  induction l with
  | nil => simp at e
  | cons a l ih =>
    by_cases ha : a.name = h
    · rw [List.find?_cons_of_pos (by simpa using ha)] at e
      injection e with e
      subst e
      rw [List.map_cons, if_pos ha, List.find?_cons_of_pos (by simpa [hf] using ha)]
    · rw [List.find?_cons_of_neg (by simpa using ha)] at e
      rw [List.map_cons, if_neg ha, List.find?_cons_of_neg (by simpa using ha)]
      exact ih e

/-- The placeholder that lists a reference forgets it first, then the destructor makes the reference leave it: the same as leaving it. -/
theorem forget_setHolder {w : World} (hi : Inv none w) {r : Nat} {R : Ref} (hR : w.refs r = some R) :
    setHolder { w with holders := w.holders.map fun H => { H with refs := H.refs.erase r } } r none = setHolder w r none := by
  have hlists : ∀ H ∈ w.holders, R.holder ≠ some H.name → { H with refs := H.refs.erase r } = H := by
    intro H hH hne
    have : r ∉ H.refs := by
      intro hm
      obtain ⟨R', h1, h2⟩ := (hi.mem H hH r).1 hm
      rw [hR] at h1; injection h1 with h1; subst h1
      exact hne h2
    rw [List.erase_of_not_mem this]
  cases hh : R.holder with
  | none =>
    have : w.holders.map (fun H => { H with refs := H.refs.erase r }) = w.holders := by
      conv_rhs => rw [← List.map_id w.holders]
      exact List.map_congr_left fun H hH => hlists H hH (by simp [hh])
    rw [this]
  | some h =>
    have hw : { w with holders := w.holders.map fun H => { H with refs := H.refs.erase r } } =
        modHolder w h fun H => { H with refs := H.refs.erase r } := by
      simp only [modHolder, World.mk.injEq, true_and, and_true]
      apply List.map_congr_left
      intro H hH
      split
      · rfl
      · rename_i hne
        exact hlists H hH (by rw [hh]; simp only [ne_eq, Option.some.injEq]; exact fun e => hne e.symm)
    rw [hw]
    obtain ⟨H, hH, hn⟩ := hi.safe.holder r R h hR hh
    have hhH : holder? w h = some H := hn ▸ holder?_eq hi hH
    have hee : (H.refs.erase r).erase r = H.refs.erase r := List.erase_of_not_mem (hi.nodup H hH).not_mem_erase
    have hidem : modHolder (modHolder w h fun H => { H with refs := H.refs.erase r }) h (fun H => { H with refs := H.refs.erase r }) =
        modHolder w h fun H => { H with refs := H.refs.erase r } := by
      simp only [modHolder, World.mk.injEq, true_and, and_true, List.map_map]
      apply List.map_congr_left
      intro K hK
      simp only [Function.comp]
      by_cases e : K.name = h
      · simp only [e, if_true]
        rw [List.erase_of_not_mem (hi.nodup K hK).not_mem_erase]
      · simp [e]
    have hl : leaveHolder (modHolder w h fun H => { H with refs := H.refs.erase r }) r h = leaveHolder w r h := by
      unfold leaveHolder
      rw [holder?_modHolder _ (by intro; rfl) hhH, hhH]
      simp only [hidem, hee]
    unfold setHolder
    have hR' : (modHolder w h fun H => { H with refs := H.refs.erase r }).refs r = some R := hR
    rw [hR', hR]
    simp only [hh, hl]
    rfl

theorem inv_removeRef {w : World} (hi : Inv none w) {r : Nat} {R : Ref} (hR : w.refs r = some R) (hh : R.holder = none) :
    Inv none { w with refs := fun k => if k = r then none else w.refs k } := by
  have hk : ∀ k R', (if k = r then none else w.refs k) = some R' ↔ k ≠ r ∧ w.refs k = some R' := by
    intro k R'
    by_cases e : k = r <;> simp [e]
  refine ⟨hi.names, hi.entNames, hi.noHome, hi.holderLt, hi.entLt, hi.docLt, ?_, hi.pos, ?_, hi.nodup, hi.nonempty, ⟨?_, ?_, hi.safe.target, hi.safe.doc⟩⟩
  · intro k h
    apply hi.refLt k
    intro h0
    apply h
    show (if k = r then none else w.refs k) = none
    rw [h0, ite_self]
  · intro H hH k
    rw [hi.mem H hH k]
    constructor
    · rintro ⟨R', h1, h2⟩
      refine ⟨R', (hk k R').2 ⟨?_, h1⟩, h2⟩
      rintro rfl
      rw [hR] at h1; injection h1 with h1; subst h1
      rw [hh] at h2; simp at h2
    · rintro ⟨R', h1, h2⟩
      exact ⟨R', ((hk k R').1 h1).2, h2⟩
  · intro k R' e h1 h2
    exact hi.safe.entity k R' e ((hk k R').1 h1).2 h2
  · intro k R' e h1 h2
    exact hi.safe.holder k R' e ((hk k R').1 h1).2 h2

/-- `Release` of a reference. -/
theorem releaseRef_spec {w : World} (hi : Inv none w) {r : Nat} {R : Ref} (hR : w.refs r = some R) :
    ∃ w1 gone, releaseRef w r = some { w1 with refs := fun k => if k = r then none else w1.refs k } ∧
      Effect w r R.holder gone w1 ∧ Inv none { w1 with refs := fun k => if k = r then none else w1.refs k } := by
  obtain ⟨w1, gone, a, b, c, R', d, e⟩ := setHolder_spec (new := none) hi hR (by simp)
  refine ⟨w1, gone, ?_, ?_, inv_removeRef b d e⟩
  · unfold releaseRef
    rw [hR]
    simp only [forget_setHolder hi hR, a, Option.map_some]
  · have : leavesOf R none = R.holder := by
      unfold leavesOf
      split
      · rename_i h; exact h.symm
      · rfl
    rwa [this] at c

theorem inv_newDoc {w : World} (hi : Inv none w) (url : Text) (top : Bool) : Inv none (newDoc w url top) := by
  have hd : ∀ d, w.docs d ≠ none → (newDoc w url top).docs d ≠ none := by
    intro d h
    show (if d = w.next then some (⟨url, top⟩ : Doc) else w.docs d) ≠ none
    split <;> simp [h]
  refine ⟨hi.names, hi.entNames, ?_, ?_, ?_, ?_, ?_, ?_, hi.mem, hi.nodup, hi.nonempty, ⟨hi.safe.entity, hi.safe.holder, ?_, ?_⟩⟩
  · show (if home = w.next then some (⟨url, top⟩ : Doc) else w.docs home) = none
    rw [if_neg (by have := hi.pos; unfold home; omega)]
    exact hi.noHome
  · intro H hH
    have := hi.holderLt H hH
    show H.name < w.next + 1
    omega
  · intro H hH
    have := hi.entLt H hH
    show H.name < w.next + 1
    omega
  · intro d h
    show d < w.next + 1
    have h : (if d = w.next then some (⟨url, top⟩ : Doc) else w.docs d) ≠ none := h
    by_cases e : d = w.next
    · omega
    · rw [if_neg e] at h
      have := hi.docLt d h
      omega
  · intro r h
    have := hi.refLt r h
    show r < w.next + 1
    omega
  · show 0 < w.next + 1
    omega
  · intro H hH d h
    exact hd d (hi.safe.target H hH d h)
  · intro E hE
    rcases hi.safe.doc E hE with h | h
    · exact .inl h
    · exact .inr (hd _ h)

/-- Entities are added at the end, with new numbers. -/
theorem inv_addEnts {w : World} {exc : Option Nat} (hi : Inv exc w) (es : List Ent) (n : Nat) (hn : w.next ≤ n) (hnd : (es.map (·.name)).Nodup)
    (hlt : ∀ E ∈ es, w.next ≤ E.name ∧ E.name < n) (hdoc : ∀ E ∈ es, E.doc = home ∨ w.docs E.doc ≠ none) :
    Inv exc { w with ents := w.ents ++ es, next := n } := by
  refine ⟨hi.names, ?_, hi.noHome, ?_, ?_, ?_, ?_, ?_, hi.mem, hi.nodup, hi.nonempty, ⟨?_, hi.safe.holder, hi.safe.target, ?_⟩⟩
  · simp only [List.map_append]
    rw [List.nodup_append]
    refine ⟨hi.entNames, hnd, ?_⟩
    intro a ha b hb
    obtain ⟨E, hE, rfl⟩ := List.mem_map.1 ha
    obtain ⟨E', hE', rfl⟩ := List.mem_map.1 hb
    have := hi.entLt E hE
    have := (hlt E' hE').1
    omega
  · intro H hH
    exact Nat.lt_of_lt_of_le (hi.holderLt H hH) hn
  · intro E hE
    rcases List.mem_append.1 hE with h | h
    · exact Nat.lt_of_lt_of_le (hi.entLt E h) hn
    · exact (hlt E h).2
  · intro d hd
    exact Nat.lt_of_lt_of_le (hi.docLt d hd) hn
  · intro d hd
    exact Nat.lt_of_lt_of_le (hi.refLt d hd) hn
  · exact Nat.lt_of_lt_of_le hi.pos hn
  · intro r R e h1 h2
    obtain ⟨E, h3, h4⟩ := hi.safe.entity r R e h1 h2
    exact ⟨E, List.mem_append_left _ h3, h4⟩
  · intro E hE
    rcases List.mem_append.1 hE with h | h
    · exact hi.safe.doc E h
    · exact hdoc E h

theorem inv_newRef {w : World} (hi : Inv none w) : Inv none (newRef w) := by
  have hnew : w.refs w.next = none := by
    by_contra h
    exact Nat.lt_irrefl _ (hi.refLt _ h)
  have hk : ∀ k R', (newRef w).refs k = some R' → (k = w.next ∧ R' = ⟨none, none, []⟩) ∨ (k ≠ w.next ∧ w.refs k = some R') := by
    intro k R' h
    have h : (if k = w.next then some (⟨none, none, []⟩ : Ref) else w.refs k) = some R' := h
    by_cases e : k = w.next
    · rw [if_pos e] at h; injection h with h; exact .inl ⟨e, h.symm⟩
    · rw [if_neg e] at h; exact .inr ⟨e, h⟩
  refine ⟨hi.names, hi.entNames, hi.noHome, ?_, ?_, ?_, ?_, ?_, ?_, hi.nodup, hi.nonempty, ⟨?_, ?_, hi.safe.target, hi.safe.doc⟩⟩
  · intro H hH
    have := hi.holderLt H hH
    show H.name < w.next + 1
    omega
  · intro H hH
    have := hi.entLt H hH
    show H.name < w.next + 1
    omega
  · intro d h
    have := hi.docLt d h
    show d < w.next + 1
    omega
  · intro r h
    show r < w.next + 1
    obtain ⟨R', hR'⟩ := Option.ne_none_iff_exists'.1 h
    rcases hk r R' hR' with h | h
    · omega
    · have := hi.refLt r (by simp [h.2])
      omega
  · show 0 < w.next + 1
    omega
  · intro H hH k
    rw [hi.mem H hH k]
    constructor
    · rintro ⟨R', h1, h2⟩
      refine ⟨R', ?_, h2⟩
      show (if k = w.next then some (⟨none, none, []⟩ : Ref) else w.refs k) = some R'
      rw [if_neg, h1]
      rintro rfl
      rw [hnew] at h1; simp at h1
    · rintro ⟨R', h1, h2⟩
      rcases hk k R' h1 with ⟨_, h⟩ | h
      · subst h; simp at h2
      · exact ⟨R', h.2, h2⟩
  · intro k R' e h1 h2
    rcases hk k R' h1 with ⟨_, h⟩ | h
    · subst h; simp at h2
    · exact hi.safe.entity k R' e h.2 h2
  · intro k R' e h1 h2
    rcases hk k R' h1 with ⟨_, h⟩ | h
    · subst h; simp at h2
    · exact hi.safe.holder k R' e h.2 h2

theorem newEnts_mem {d n : Nat} {ids : List Text} {E : Ent} (h : E ∈ newEnts d n ids) : E.doc = d ∧ n ≤ E.name ∧ E.name < n + ids.length ∧ E.id ∈ ids := by
  induction ids generalizing n with
  | nil => simp [newEnts] at h
  | cons id ids ih =>
    rcases List.mem_cons.1 h with rfl | h
    · simp
    · obtain ⟨a, b, c, e⟩ := ih h
      simp only [List.length_cons]
      refine ⟨a, by omega, by omega, List.mem_cons_of_mem _ e⟩

theorem newEnts_nodup (d n : Nat) (ids : List Text) : ((newEnts d n ids).map (·.name)).Nodup := by
  induction ids generalizing n with
  | nil => simp [newEnts]
  | cons id ids ih =>
    simp only [newEnts, List.map_cons, List.nodup_cons]
    refine ⟨?_, ih _⟩
    intro h
    obtain ⟨E, h1, h2⟩ := List.mem_map.1 h
    have := (newEnts_mem h1).2.1
    omega

theorem newEnts_ids (d n : Nat) (ids : List Text) (id : Text) (h : id ∈ ids) : ∃ E ∈ newEnts d n ids, E.id = id := by
  induction ids generalizing n with
  | nil => simp at h
  | cons a ids ih =>
    rcases List.mem_cons.1 h with rfl | h
    · exact ⟨_, List.mem_cons_self, rfl⟩
    · obtain ⟨E, h1, h2⟩ := ih (n + 1) h
      exact ⟨E, List.mem_cons_of_mem _ h1, h2⟩

/-- A placeholder is given a target. -/
theorem inv_setTarget {w : World} {exc : Option Nat} (hi : Inv exc w) (h d : Nat) (hd : w.docs d ≠ none) :
    Inv exc (modHolder w h fun H => { H with target := some d }) := by
  have hm := modHolder_mem w h (fun H => { H with target := some d })
  refine ⟨?_, hi.entNames, hi.noHome, ?_, hi.entLt, hi.docLt, hi.refLt, hi.pos, ?_, ?_, ?_, ⟨hi.safe.entity, ?_, ?_, hi.safe.doc⟩⟩
  · exact (modHolder_names w h (fun H => { H with target := some d }) (fun _ => rfl)).symm ▸ hi.names
  · intro K hK
    obtain ⟨K0, h0, rfl⟩ := (hm K).1 hK
    have := hi.holderLt K0 h0
    split <;> exact this
  · intro K hK k
    obtain ⟨K0, h0, rfl⟩ := (hm K).1 hK
    have := hi.mem K0 h0 k
    split <;> exact this
  · intro K hK
    obtain ⟨K0, h0, rfl⟩ := (hm K).1 hK
    have := hi.nodup K0 h0
    split <;> exact this
  · intro K hK hx
    obtain ⟨K0, h0, rfl⟩ := (hm K).1 hK
    have := hi.nonempty K0 h0
    split at hx
    · rename_i e
      rw [if_pos e]; exact this hx
    · rename_i e
      rw [if_neg e]; exact this hx
  · intro r R q h1 h2
    obtain ⟨K, h3, h4⟩ := hi.safe.holder r R q h1 h2
    exact ⟨_, (hm _).2 ⟨K, h3, rfl⟩, by split <;> exact h4⟩
  · intro K hK x hx
    obtain ⟨K0, h0, rfl⟩ := (hm K).1 hK
    split at hx
    · simp only [Option.some.injEq] at hx
      rw [← hx]; exact hd
    · exact hi.safe.target K0 h0 x hx

theorem inv_loadTarget {w : World} (hi : Inv none w) (h : Nat) (url : Text) (ids : List Text) : Inv none (loadTarget w h url ids) := by
  have h1 := inv_newDoc hi url false
  have hdoc : (newDoc w url false).docs w.next ≠ none := by simp [newDoc]
  have h2 := inv_addEnts h1 (newEnts w.next (w.next + 1) ids) (w.next + 1 + ids.length) (by show w.next + 1 ≤ _; omega) (newEnts_nodup _ _ _)
    (fun E hE => ⟨(newEnts_mem hE).2.1, (newEnts_mem hE).2.2.1⟩) (fun E hE => .inr ((newEnts_mem hE).1 ▸ hdoc))
  exact inv_setTarget h2 h w.next hdoc

theorem findEntity_some {w : World} {d : Nat} {id : Text} {e : Nat} (h : findEntity w d id = some e) :
    ∃ E ∈ w.ents, E.name = e ∧ E.doc = d ∧ E.id = id := by
  unfold findEntity at h
  obtain ⟨E, h1, h2⟩ := Option.map_eq_some_iff.1 h
  have := List.find?_some h1
  simp at this
  exact ⟨E, List.mem_of_find?_eq_some h1, h2, this.1, this.2⟩

theorem findEntity_none {w : World} {d : Nat} {id : Text} (h : findEntity w d id = none) : ∀ E ∈ w.ents, E.doc = d → E.id ≠ id := by
  unfold findEntity at h
  rw [Option.map_eq_none_iff, List.find?_eq_none] at h
  intro E hE h1 h2
  exact h E hE (by simp [h1, h2])

theorem entityDocument_spec {w : World} (hi : Inv none w) {r : Nat} {R : Ref} (hR : w.refs r = some R) (files : Text → Option (List Text)) (flag : Bool) :
    ∃ w1 d, entityDocument files flag w R = some (w1, d) ∧ Inv none w1 ∧ w1.refs = w.refs := by
  unfold entityDocument
  cases hh : R.holder with
  | none => exact ⟨w, some home, rfl, hi, rfl⟩
  | some h =>
    obtain ⟨H, hH, rfl⟩ := hi.safe.holder r R h hR hh
    simp only [holder?_eq hi hH]
    cases ht : H.target with
    | some d => exact ⟨w, some d, rfl, hi, rfl⟩
    | none =>
      cases flag with
      | false => exact ⟨w, none, rfl, hi, rfl⟩
      | true =>
        cases hf : files H.url with
        | none => exact ⟨w, none, by simp, hi, rfl⟩
        | some ids => exact ⟨loadTarget w H.name H.url ids, some w.next, by simp, inv_loadTarget hi H.name H.url ids, rfl⟩

theorem lookUp_inv {w : World} (hi : Inv none w) (r : Nat) (R : Ref) (d : Option Nat) : Inv none (lookUp r R (w, d)).1 := by
  unfold lookUp
  cases d with
  | none => exact hi
  | some d =>
    simp only
    split
    · exact hi
    · cases hf : findEntity w d R.id with
      | none => exact hi
      | some e =>
        obtain ⟨E, hE, hn, _⟩ := findEntity_some hf
        exact inv_modRef hi r _ (fun _ => rfl) (fun R e' _ h2 => by simp only [Option.some.injEq] at h2; exact ⟨E, hE, hn.trans h2⟩)

theorem getEntity_inv {w : World} (hi : Inv none w) {r : Nat} (hr : w.refs r ≠ none) (files : Text → Option (List Text)) (flag : Bool) :
    ∃ x, getEntity files flag w r = some x ∧ Inv none x.1 := by
  obtain ⟨R, hR⟩ := Option.ne_none_iff_exists'.1 hr
  unfold getEntity
  rw [hR]
  simp only
  cases he : R.entity with
  | some e => exact ⟨_, rfl, hi⟩
  | none =>
    obtain ⟨w1, d, h1, h2, _⟩ := entityDocument_spec hi hR files flag
    simp only [h1, Option.map_some]
    exact ⟨_, rfl, lookUp_inv h2 r R d⟩

theorem inv_detach {w : World} (hi : Inv none w) (h : Nat) : Inv none (detachHolder w h none) := by
  have hk : ∀ k R', (detachHolder w h none).refs k = some R' → ∃ R, w.refs k = some R ∧ R'.entity = R.entity ∧
      ((R.holder = some h ∧ R'.holder = none) ∨ (R.holder ≠ some h ∧ R'.holder = R.holder)) := by
    intro k R' e
    simp only [detachHolder, Option.map_eq_some_iff] at e
    obtain ⟨R, h1, h2⟩ := e
    refine ⟨R, h1, ?_⟩
    by_cases hc : R.holder = some h
    · simp [hc] at h2
      subst h2
      exact ⟨rfl, .inl ⟨hc, rfl⟩⟩
    · simp [hc] at h2
      subst h2
      exact ⟨rfl, .inr ⟨hc, rfl⟩⟩
  refine ⟨?_, hi.entNames, hi.noHome, ?_, hi.entLt, hi.docLt, ?_, hi.pos, ?_, ?_, ?_, ⟨?_, ?_, ?_, hi.safe.doc⟩⟩
  · exact hi.names.sublist (List.Sublist.map _ List.filter_sublist)
  · intro K hK; exact hi.holderLt K (List.mem_filter.1 hK).1
  · intro k hne
    apply hi.refLt k
    intro h0
    simp [detachHolder, h0] at hne
  · intro K hK k
    obtain ⟨h0, h1⟩ := List.mem_filter.1 hK
    have h1 : K.name ≠ h := by simpa using h1
    rw [hi.mem K h0 k]
    constructor
    · rintro ⟨R, h2, h3⟩
      have hc : R.holder ≠ some h := by rw [h3]; simpa using h1
      refine ⟨R, ?_, h3⟩
      simp [detachHolder, h2, hc]
    · rintro ⟨R', h2, h3⟩
      obtain ⟨R, h4, _, h5 | h5⟩ := hk k R' h2
      · rw [h5.2] at h3; simp at h3
      · exact ⟨R, h4, h5.2 ▸ h3⟩
  · intro K hK; exact hi.nodup K (List.mem_filter.1 hK).1
  · intro K hK; exact hi.nonempty K (List.mem_filter.1 hK).1
  · intro k R' e h1 h2
    obtain ⟨R, h4, h5, _⟩ := hk k R' h1
    exact hi.safe.entity k R e h4 (h5 ▸ h2)
  · intro k R' q h1 h2
    obtain ⟨R, h4, _, h5 | h5⟩ := hk k R' h1
    · rw [h5.2] at h2; simp at h2
    · rw [h5.2] at h2
      obtain ⟨K, h6, h7⟩ := hi.safe.holder k R q h4 h2
      refine ⟨K, List.mem_filter.2 ⟨h6, ?_⟩, h7⟩
      have : K.name ≠ h := by rintro rfl; exact h5.1 (h7 ▸ h2)
      simpa using this
  · intro K hK; exact hi.safe.target K (List.mem_filter.1 hK).1

theorem inv_destroy {w : World} (hi : Inv none w) (t : Option Nat) (ht : ∀ d, t = some d → w.docs d ≠ none) :
    ∃ w', destroyHolder w t = some w' ∧ Inv none w' := by
  cases t with
  | none => exact ⟨w, rfl, hi⟩
  | some d =>
    obtain ⟨D, hD⟩ := Option.ne_none_iff_exists'.1 (ht d rfl)
    simp only [destroyHolder, hD]
    split
    · exact ⟨w, rfl, hi⟩
    · exact inv_releaseDoc hi (ht d rfl)

/-- Every legal call has a defined result, and the invariant holds after it. -/
theorem inv_step {w : World} (hi : Inv none w) (op : Op) (hl : Legal w op) : ∃ w', step w op = some w' ∧ Inv none w' := by
  cases op with
  | newDoc url top => exact ⟨_, rfl, inv_newDoc hi url top⟩
  | newEnt d id =>
    have hc : d = home ∨ (w.docs d).isSome = true := by
      rcases hl with h | h
      · exact .inl h
      · exact .inr (Option.isSome_iff_ne_none.2 h)
    refine ⟨_, by simp only [step, newEnt, if_pos hc]; rfl, ?_⟩
    refine inv_addEnts hi [⟨w.next, d, id⟩] (w.next + 1) (by omega) (by simp) ?_ ?_
    · intro E hE
      rw [List.mem_singleton] at hE
      subst hE
      simp
    · intro E hE
      rw [List.mem_singleton] at hE
      subst hE
      exact hl
  | newRef => exact ⟨_, rfl, inv_newRef hi⟩
  | setUri r file frag =>
    obtain ⟨R, hR⟩ := Option.ne_none_iff_exists'.1 hl
    obtain ⟨_, _, w', _, h1, h2, _⟩ := setUri_spec hi hR file frag
    exact ⟨w', h1, h2⟩
  | setEntityId r id =>
    obtain ⟨R, hR⟩ := Option.ne_none_iff_exists'.1 hl
    refine ⟨_, by simp only [step, setEntityId, hR]; rfl, ?_⟩
    exact inv_modRef hi r _ (fun _ => rfl) (fun R e h1 h2 => hi.safe.entity r R e h1 h2)
  | setEntity r e =>
    obtain ⟨R, hR⟩ := Option.ne_none_iff_exists'.1 hl.1
    cases e with
    | none =>
      obtain ⟨_, _, w', _, h1, h2, _⟩ := setEntity_spec hi hR none (by simp)
      exact ⟨w', h1, h2⟩
    | some e =>
      obtain ⟨E, hE, rfl⟩ := hl.2 e rfl
      obtain ⟨_, _, w', _, h1, h2, _⟩ := setEntity_spec hi hR (some E) (by rintro _ ⟨⟩; exact hE)
      exact ⟨w', h1, h2⟩
  | getEntity files flag r =>
    obtain ⟨x, h1, h2⟩ := getEntity_inv hi hl files flag
    exact ⟨x.1, by simp only [step, h1, Option.map_some], h2⟩
  | releaseRef r =>
    obtain ⟨R, hR⟩ := Option.ne_none_iff_exists'.1 hl
    obtain ⟨w1, _, h1, _, h2⟩ := releaseRef_spec hi hR
    exact ⟨_, h1, h2⟩
  | releaseEnt e =>
    obtain ⟨E, hE, rfl⟩ := hl
    refine ⟨_, by simp only [step, releaseEnt, ent?_eq hi hE]; rfl, inv_releaseEnts hi _⟩
  | releaseDoc d => exact inv_releaseDoc hi hl
  | unloadTarget h =>
    obtain ⟨H, hH, rfl⟩ := hl
    simp only [step, unloadTarget, holder?_eq hi hH]
    cases ht : H.target with
    | none => exact ⟨w, rfl, hi⟩
    | some d => exact inv_releaseDoc hi (hi.safe.target H hH d ht)
  | releaseHolder h =>
    obtain ⟨H, hH, rfl⟩ := hl
    simp only [step, releaseHolder, holder?_eq hi hH]
    exact inv_destroy (inv_detach hi H.name) H.target (hi.safe.target H hH)

theorem reach_inv {w : World} (h : Reach w) : Inv none w := by
  induction h with
  | start => exact inv_start
  | step op _ hl e ih =>
    obtain ⟨w', h1, h2⟩ := inv_step ih op hl
    rw [e] at h1
    injection h1 with h1
    subst h1
    exact h2

theorem kept_entity {w w' : World} {r : Nat} {leaves gone : Option Nat} (he : Effect w r leaves gone w') {R : Ref} {E : Ent}
    (hn : (w.ents.map (·.name)).Nodup) (hR : w.refs r = some R) (hE : E ∈ w.ents) (hRE : R.entity = some E.name) (hg : gone ≠ some E.doc) :
    ∃ R', w'.refs r = some R' ∧ R'.entity = some E.name ∧ R'.id = R.id ∧ E ∈ w'.ents := by
  obtain ⟨R', h1, h2, h3⟩ := he.self R hR
  have h4 : R'.entity = some E.name := by
    rw [h2, onEntityReleased_entity, hRE]
    simp only [lostIds, deadIds_isSome hn hE]
    simp [hg]
  refine ⟨R', h1, h4, h3 (h4.trans hRE.symm), ?_⟩
  rw [he.ents]
  exact List.mem_filter.2 ⟨hE, by simp [hg]⟩

theorem lifetime_of_effect {w w0 w' : World} (hi : Inv none w) {r : Nat} {R : Ref} (hR : w.refs r = some R) {leaves gone : Option Nat}
    (hl : ∀ h, leaves = some h → R.holder = some h) (hd : w0.docs = w.docs)
    (hh : w0.holders = w.holders ∨ ∃ t url, w0.holders = w.holders ++ [⟨w.next, t, url, []⟩]) (heff : Effect w0 r leaves gone w')
    {d : Nat} {D : Doc} (hD : w.docs d = some D) :
    w'.docs d = none ↔ D.top = false ∧ (∃ H ∈ w.holders, H.target = some d) ∧ ¬ ∃ H ∈ w'.holders, H.target = some d := by
  have hsub : ∀ H ∈ w.holders, H ∈ w0.holders := by
    rcases hh with h | ⟨t, url, h⟩
    · rw [h]; exact fun _ h => h
    · rw [h]; exact fun H h => List.mem_append_left _ h
  have hback : ∀ H ∈ w0.holders, leaves = some H.name → H ∈ w.holders := by
    rcases hh with h | ⟨t, url, h⟩
    · rw [h]; exact fun _ h _ => h
    · rw [h]
      intro H h1 h2
      rcases List.mem_append.1 h1 with h3 | h3
      · exact h3
      · rw [List.mem_singleton] at h3
        subst h3
        obtain ⟨K, h4, h5⟩ := hi.safe.holder r R _ hR (hl _ h2)
        have := hi.holderLt K h4
        simp only at h5
        omega
  rw [heff.docs d, hd, hD]
  constructor
  · intro h
    have hg : gone = some d := by
      by_contra hg
      rw [if_neg hg] at h
      simp at h
    obtain ⟨H, h1, h2, h3, h4, h5, h6⟩ := (heff.gone_iff d).1 hg
    rw [hd, hD] at h5
    refine ⟨by simpa using h5, ⟨H, hback H h1 h2, h4⟩, ?_⟩
    rintro ⟨K, h7, h8⟩
    obtain ⟨K0, h9, h10, h11, _⟩ := heff.back K h7
    have := h6 K0 h9 (h11.trans h8)
    exact heff.lost H h1 h2 h3 K h7 (h10 ▸ this)
  · rintro ⟨h1, ⟨H, h2, h3⟩, h4⟩
    have hlost : ∀ K ∈ w0.holders, K.target = some d → leaves = some K.name ∧ ∀ k ∈ K.refs, k = r := by
      intro K hK hKt
      by_contra hc
      obtain ⟨K', h5, _, h6, _⟩ := heff.fwd K hK (fun hl' => by
        by_contra hne
        push Not at hne
        exact hc ⟨hl', hne⟩)
      exact h4 ⟨K', h5, h6.trans hKt⟩
    have hg : gone = some d := by
      refine (heff.gone_iff d).2 ⟨H, hsub H h2, (hlost H (hsub H h2) h3).1, (hlost H (hsub H h2) h3).2, h3, by rw [hd, hD]; simp [h1], ?_⟩
      intro K hK hKt
      have a := (hlost H (hsub H h2) h3).1
      have b := (hlost K hK hKt).1
      rw [a] at b
      exact (Option.some.inj b).symm
    rw [if_pos hg]

theorem leavesOf_some {R : Ref} {new : Option Nat} {h : Nat} (e : leavesOf R new = some h) : R.holder = some h := by
  unfold leavesOf at e
  split at e
  · simp at e
  · exact e

/-- No two placeholders have the same target. -/
def OneEach (w : World) : Prop := ∀ H ∈ w.holders, ∀ K ∈ w.holders, ∀ d, H.target = some d → K.target = some d → H.name = K.name

theorem oneEach_of {w w' : World} (h : OneEach w)
    (hb : ∀ K ∈ w'.holders, ∃ K0 ∈ w.holders, K0.name = K.name ∧ ∀ d, K.target = some d → K0.target = some d) : OneEach w' := by
  intro H hH K hK d h1 h2
  obtain ⟨H0, a, b, c⟩ := hb H hH
  obtain ⟨K0, a', b', c'⟩ := hb K hK
  rw [← b, ← b']
  exact h H0 a K0 a' d (c d h1) (c' d h2)

theorem releaseDoc_back {w w' : World} {d : Nat} (h : releaseDoc w d = some w') :
    ∀ K ∈ w'.holders, ∃ K0 ∈ w.holders, K0.name = K.name ∧ ∀ d, K.target = some d → K0.target = some d := by
  unfold releaseDoc at h
  cases hD : w.docs d with
  | none => simp [hD] at h
  | some D =>
    simp only [hD, Option.some.injEq] at h
    subst h
    intro K hK
    obtain ⟨K0, h0, rfl⟩ := List.mem_map.1 hK
    refine ⟨K0, h0, (onTargetReleased_fields d D.url K0).1.symm, ?_⟩
    intro x hx
    rw [(onTargetReleased_fields d D.url K0).2.2] at hx
    split at hx
    · simp at hx
    · exact hx

theorem oneEach_append {w w0 : World} (h : OneEach w) {t : Option Nat} {url : Text}
    (hh : w0.holders = w.holders ++ [⟨w.next, t, url, []⟩]) (ht : ∀ d, t = some d → ∀ H ∈ w.holders, H.target ≠ some d) : OneEach w0 := by
  intro H hH K hK d h1 h2
  rw [hh] at hH hK
  rcases List.mem_append.1 hH with a | a <;> rcases List.mem_append.1 hK with b | b
  · exact h H a K b d h1 h2
  · rw [List.mem_singleton] at b
    subst b
    exact absurd h1 (ht d h2 H a)
  · rw [List.mem_singleton] at a
    subst a
    exact absurd h2 (ht d h1 K b)
  · rw [List.mem_singleton] at a b
    rw [a, b]

theorem effect_oneEach {w0 w' : World} {r : Nat} {leaves gone : Option Nat} (h : OneEach w0) (he : Effect w0 r leaves gone w') : OneEach w' := by
  refine oneEach_of h ?_
  intro K hK
  obtain ⟨K0, a, b, c, _⟩ := he.back K hK
  exact ⟨K0, a, b, fun d hd => c.trans hd⟩

theorem oneEach_same {w w' : World} (h : OneEach w) (e : w'.holders = w.holders) : OneEach w' := by
  unfold OneEach
  rw [e]
  exact h

theorem oneEach_destroy {w w' : World} (h : OneEach w) {t : Option Nat} (e : destroyHolder w t = some w') : OneEach w' := by
  cases t with
  | none =>
    simp only [destroyHolder, Option.some.injEq] at e
    exact e ▸ h
  | some d =>
    unfold destroyHolder at e
    simp only at e
    cases hD : w.docs d with
    | none => simp [hD] at e
    | some D =>
      simp only [hD] at e
      split at e
      · injection e with e; exact e ▸ h
      · exact oneEach_of h (releaseDoc_back e)

theorem lookUp_same (r : Nat) (R : Ref) (x : World × Option Nat) : (lookUp r R x).1.docs = x.1.docs ∧ (lookUp r R x).1.holders = x.1.holders := by
  unfold lookUp
  cases x.2 with
  | none => exact ⟨rfl, rfl⟩
  | some d =>
    simp only
    split
    · exact ⟨rfl, rfl⟩
    · cases findEntity x.1 d R.id <;> exact ⟨rfl, rfl⟩

theorem oneEach_loadTarget {w : World} (hi : Inv none w) (h : OneEach w) {H : Holder} (hH : H ∈ w.holders) (url : Text) (ids : List Text) :
    OneEach (loadTarget w H.name url ids) := by
  have hm := modHolder_mem { w with docs := fun k => if k = w.next then some ⟨url, false⟩ else w.docs k, ents := w.ents ++ newEnts w.next (w.next + 1) ids, next := w.next + 1 + ids.length } H.name (fun K => { K with target := some w.next })
  have hno : ∀ K ∈ w.holders, K.target ≠ some w.next := by
    intro K hK hKt
    exact Nat.lt_irrefl _ (hi.docLt _ (hi.safe.target K hK _ hKt))
  intro A hA B hB d h1 h2
  obtain ⟨A0, a, rfl⟩ := (hm A).1 hA
  obtain ⟨B0, b, rfl⟩ := (hm B).1 hB
  by_cases e1 : A0.name = H.name <;> by_cases e2 : B0.name = H.name
  · simp [e1, e2]
  · simp only [e1, e2, if_true, if_false] at h1 h2
    rw [← h1] at h2
    exact absurd h2 (hno B0 b)
  · simp only [e1, e2, if_true, if_false] at h1 h2
    rw [← h2] at h1
    exact absurd h1 (hno A0 a)
  · simp only [e1, e2, if_false] at h1 h2 ⊢
    exact h A0 a B0 b d h1 h2

theorem reach_oneEach {w : World} (hw : Reach w) : OneEach w := by
  induction hw with
  | start => intro H hH; simp [start] at hH
  | @step w w' op hr hl hs ih =>
    have hi := reach_inv hr
    cases op with
    | newDoc url top => simp only [step, Option.some.injEq] at hs; subst hs; exact oneEach_same ih rfl
    | newEnt d id =>
      simp only [step, newEnt] at hs
      split at hs
      · injection hs with hs; subst hs; exact oneEach_same ih rfl
      · simp at hs
    | newRef => simp only [step, Option.some.injEq] at hs; subst hs; exact oneEach_same ih rfl
    | setEntityId r id =>
      obtain ⟨R, hR⟩ := Option.ne_none_iff_exists'.1 hl
      simp only [step, setEntityId, hR, Option.map_some, Option.some.injEq] at hs
      subst hs; exact oneEach_same ih rfl
    | setUri r file frag =>
      obtain ⟨R, hR⟩ := Option.ne_none_iff_exists'.1 hl
      obtain ⟨w0, new, w2, gone, h1, _, hd, _, _, hhold, heff, _⟩ := setUri_spec hi hR file frag
      rw [show step w (.setUri r file frag) = setUri w r file frag from rfl, h1] at hs
      injection hs with hs
      subst hs
      refine effect_oneEach ?_ heff
      rcases hhold with h | ⟨url, _, h⟩
      · exact oneEach_same ih h
      · exact oneEach_append ih h (by simp)
    | setEntity r e =>
      obtain ⟨R, hR⟩ := Option.ne_none_iff_exists'.1 hl.1
      have key : ∀ x : Option Ent, (∀ E, x = some E → E ∈ w.ents) → setEntity w r (x.map (·.name)) = some w' → OneEach w' := by
        intro x hx hs
        obtain ⟨w0, new, w2, gone, h1, _, hd, _, _, hhold, heff, _⟩ := setEntity_spec hi hR x hx
        rw [h1] at hs
        injection hs with hs
        subst hs
        refine effect_oneEach ?_ heff
        rcases hhold with h | ⟨t, url, h, hno⟩
        · exact oneEach_same ih h
        · exact oneEach_append ih h (by rintro _ ⟨⟩; exact hno)
      cases e with
      | none => exact key none (by simp) hs
      | some e =>
        obtain ⟨E, hE, rfl⟩ := hl.2 e rfl
        exact key (some E) (by rintro _ ⟨⟩; exact hE) hs
    | releaseRef r =>
      obtain ⟨R, hR⟩ := Option.ne_none_iff_exists'.1 hl
      obtain ⟨w1, gone, h1, heff, _⟩ := releaseRef_spec hi hR
      rw [show step w (.releaseRef r) = releaseRef w r from rfl, h1] at hs
      injection hs with hs
      subst hs
      exact oneEach_same (effect_oneEach ih heff) rfl
    | releaseEnt e =>
      obtain ⟨E, hE, rfl⟩ := hl
      simp only [step, releaseEnt, ent?_eq hi hE, Option.some.injEq] at hs
      subst hs
      exact oneEach_same ih rfl
    | releaseDoc d => exact oneEach_of ih (releaseDoc_back hs)
    | unloadTarget h =>
      obtain ⟨H, hH, rfl⟩ := hl
      simp only [step, unloadTarget, holder?_eq hi hH] at hs
      cases ht : H.target with
      | none => simp only [ht, Option.some.injEq] at hs; exact hs ▸ ih
      | some d => simp only [ht] at hs; exact oneEach_of ih (releaseDoc_back hs)
    | releaseHolder h =>
      obtain ⟨H, hH, rfl⟩ := hl
      simp only [step, releaseHolder, holder?_eq hi hH] at hs
      refine oneEach_destroy ?_ hs
      refine oneEach_of ih ?_
      intro K hK
      exact ⟨K, (List.mem_filter.1 hK).1, rfl, fun _ h => h⟩
    | getEntity files flag r =>
      obtain ⟨R, hR⟩ := Option.ne_none_iff_exists'.1 hl
      simp only [step, getEntity, hR] at hs
      cases he : R.entity with
      | some e =>
        simp only [he, Option.map_some, Option.some.injEq] at hs
        exact hs ▸ ih
      | none =>
        simp only [he] at hs
        unfold entityDocument at hs
        cases hh : R.holder with
        | none =>
          simp only [hh, Option.map_some, Option.some.injEq] at hs
          subst hs
          exact oneEach_same ih (lookUp_same _ _ _).2
        | some h =>
          obtain ⟨H, hH, rfl⟩ := hi.safe.holder r R h hR hh
          simp only [hh, holder?_eq hi hH] at hs
          cases ht : H.target with
          | some t =>
            simp only [ht, Option.map_some, Option.some.injEq] at hs
            subst hs
            exact oneEach_same ih (lookUp_same _ _ _).2
          | none =>
            simp only [ht] at hs
            by_cases hfl : flag = true
            · simp only [if_pos hfl] at hs
              cases hf : files H.url with
              | none =>
                simp only [hf, Option.map_some, Option.some.injEq] at hs
                subst hs
                exact oneEach_same ih (lookUp_same _ _ _).2
              | some ids =>
                simp only [hf, Option.map_some, Option.some.injEq] at hs
                subst hs
                exact oneEach_same (oneEach_loadTarget hi ih hH H.url ids) (lookUp_same _ _ _).2
            · simp only [if_neg hfl, Option.map_some, Option.some.injEq] at hs
              subst hs
              exact oneEach_same ih (lookUp_same _ _ _).2

end Verif.FRef
