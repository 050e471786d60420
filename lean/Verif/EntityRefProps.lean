import Verif.EntityRefAux
import Verif.EntityRefSteps

/-!
# Properties of entity references (C95, C96, C97)
-/

namespace Verif.FRef

/-! ## C95: what a reference answers -/

/-- **C95.** After `SetEntity(e)` the reference points to `e`: `GetEntity` returns it whatever could be loaded, `GetEntityId` is its id, and the
reference is external exactly when `e` is in another document, with a placeholder for that document. -/
theorem set_entity {w : World} (hw : Reach w) (r : Nat) (hr : w.refs r ≠ none) (E : Ent) (hE : E ∈ w.ents) :
    ∃ w', setEntity w r (some E.name) = some w' ∧ E ∈ w'.ents ∧ PointsTo w' r E ∧
      ∀ files flag, getEntity files flag w' r = some (w', some E.name) := by
  obtain ⟨R, hR⟩ := Option.ne_none_iff_exists'.1 hr
  have hi := reach_inv hw
  obtain ⟨w0, new, w', gone, h1, h2, hd, hen, hrefs, hhold, heff, ⟨R', hR', hnew⟩, _, hE'⟩ :=
    setEntity_spec hi hR (some E) (by rintro _ ⟨⟩; exact hE)
  have hcase := hE' E rfl
  have hR0 : w0.refs r = some { R with entity := some E.name, id := E.id } := by rw [hrefs]; exact modRef_self hR
  have hg : gone ≠ some E.doc := by
    intro hg
    obtain ⟨H, hH, hl, _, ht, hx, hall⟩ := (heff.gone_iff E.doc).1 hg
    rcases hcase with ⟨hdoc, _⟩ | ⟨_, K, hK, hKn, hKt⟩
    · have : w0.docs home ≠ none := by
        intro h0
        rw [hdoc] at hx
        rw [h0] at hx
        simp at hx
      rw [hd] at this
      exact this hi.noHome
    · have := hall K hK hKt
      unfold leavesOf at hl
      split at hl
      · simp at hl
      · rename_i hne
        apply hne
        rw [hl, hKn, this]
  obtain ⟨R1, a, b, c, d⟩ := kept_entity heff (by rw [hen]; exact hi.entNames) hR0 (by rw [hen]; exact hE) rfl hg
  rw [hR'] at a
  injection a with a
  subst a
  refine ⟨w', h1, d, ⟨⟨R', hR', b, c⟩, R', hR', ?_⟩, ?_⟩
  · rcases hcase with ⟨h3, h4⟩ | ⟨h3, K, hK, hKn, hKt⟩
    · exact .inl ⟨h3, hnew.trans h4⟩
    · right
      refine ⟨h3, ?_⟩
      obtain ⟨K', hK', e1, e2, _⟩ := heff.fwd K hK (fun hl => by
        unfold leavesOf at hl
        split at hl
        · simp at hl
        · rename_i hne
          exact absurd (hl.trans hKn.symm) hne)
      exact ⟨K', hK', by rw [hnew, hKn, e1], e2.trans hKt⟩
  · intro files flag
    unfold getEntity
    simp only [hR', b]

/-- **C95 (part).** After `SetUri` on a reference that has no entity yet, the reference has the id, and names the document, of the URI: it is
local when the URI has no file part, otherwise it goes through a placeholder for that file. What is missing: a reference that has an entity
(`set_uri_violated`, `set_uri_id_violated`). -/
theorem set_uri_partial {w : World} (hw : Reach w) (r : Nat) (R : Ref) (hR : w.refs r = some R) (he : R.entity = none) (file : Option Text) (frag : Text) :
    ∃ w' R', setUri w r file frag = some w' ∧ w'.refs r = some R' ∧ R'.entity = none ∧ R'.id = frag ∧
      (file = none → R'.holder = none) ∧
      (∀ url, file = some url → ∃ H ∈ w'.holders, R'.holder = some H.name ∧ getUrl w' H = some url) := by
  have hi := reach_inv hw
  obtain ⟨w0, new, w', gone, h1, h2, hd, hen, hrefs, hhold, heff, ⟨R', hR', hnew⟩, hf1, hf2⟩ := setUri_spec hi hR file frag
  have hR0 : w0.refs r = some { R with id := frag } := by rw [hrefs]; exact modRef_self hR
  obtain ⟨R1, a, b, c⟩ := heff.self _ hR0
  rw [hR'] at a
  injection a with a
  subst a
  rw [onEntityReleased_entity] at b
  simp only [he] at b
  refine ⟨w', R', h1, hR', b, c (b.trans he.symm), fun e => hnew.trans (hf1 e), ?_⟩
  intro url hu
  obtain ⟨H, hH, hn, hurl⟩ := hf2 url hu
  obtain ⟨K, hK, e1, e2, e3⟩ := heff.fwd H hH (fun hl => by
    unfold leavesOf at hl
    split at hl
    · simp at hl
    · rename_i hne
      exact absurd (hl.trans hn.symm) hne)
  refine ⟨K, hK, by rw [hnew, hn, e1], ?_⟩
  unfold getUrl at hurl ⊢
  rw [e2, e3]
  cases ht : H.target with
  | none => rw [ht] at hurl; exact hurl
  | some d =>
    rw [ht] at hurl
    have : w'.docs d ≠ none := h2.safe.target K hK d (e2.trans ht)
    have hdd := heff.docs d
    by_cases hg : gone = some d
    · rw [if_pos hg] at hdd; exact absurd hdd this
    · rw [if_neg hg] at hdd
      simp only [hdd]
      exact hurl

/-- **C95.** `GetEntity` on a reference without entity: what it returns is an entity with the reference's id in the document the reference names;
when it returns NULL there is none, because the id is empty, the document is not loaded (loading is switched off or fails), or nothing in the
document has the id. The answer is remembered. -/
theorem get_entity {w : World} (hw : Reach w) (r : Nat) (R : Ref) (hR : w.refs r = some R) (he : R.entity = none)
    (files : Text → Option (List Text)) (flag : Bool) :
    ∃ w' x, getEntity files flag w r = some (w', x) ∧ w'.refs r = some { R with entity := x } ∧
      (∀ e, x = some e → ∃ E ∈ w'.ents, E.name = e ∧ E.id = R.id ∧ LooksIn w' R E.doc) ∧
      (x = none → R.id = [] ∨
        (∃ H ∈ w.holders, R.holder = some H.name ∧ H.target = none ∧ (flag = false ∨ files H.url = none)) ∨
        (∃ d, LooksIn w' R d ∧ ∀ E ∈ w'.ents, E.doc = d → E.id ≠ R.id)) := by
  have hi := reach_inv hw
  unfold getEntity
  simp only [hR, he]
  -- what happens once the document is known
  have fin : ∀ (w1 : World) (d : Nat), w1.refs = w.refs → LooksIn w1 R d →
      ∃ w' x, some (lookUp r R (w1, some d)) = some (w', x) ∧ w'.refs r = some { R with entity := x } ∧
        (∀ e, x = some e → ∃ E ∈ w'.ents, E.name = e ∧ E.id = R.id ∧ LooksIn w' R E.doc) ∧
        (x = none → R.id = [] ∨ (∃ d, LooksIn w' R d ∧ ∀ E ∈ w'.ents, E.doc = d → E.id ≠ R.id)) := by
    intro w1 d hrefs hlook
    unfold lookUp
    simp only
    have hRn : ({ R with entity := none } : Ref) = R := by rw [← he]
    have hR1 : w1.refs r = some R := by rw [hrefs]; exact hR
    by_cases hid : R.id = []
    · rw [if_pos hid]
      exact ⟨w1, none, rfl, by rw [hRn]; exact hR1, by simp, fun _ => .inl hid⟩
    · rw [if_neg hid]
      cases hf : findEntity w1 d R.id with
      | none => exact ⟨w1, none, rfl, by rw [hRn]; exact hR1, by simp, fun _ => .inr ⟨d, hlook, findEntity_none hf⟩⟩
      | some e =>
        obtain ⟨E, hE, hn, hEd, hEi⟩ := findEntity_some hf
        refine ⟨_, some e, rfl, modRef_self hR1, ?_, by simp⟩
        rintro _ ⟨⟩
        exact ⟨E, hE, hn, hEi, hEd ▸ hlook⟩
  have lift : ∀ y : Option (World × Option Nat),
      (∃ w' x, y = some (w', x) ∧ w'.refs r = some { R with entity := x } ∧
        (∀ e, x = some e → ∃ E ∈ w'.ents, E.name = e ∧ E.id = R.id ∧ LooksIn w' R E.doc) ∧
        (x = none → R.id = [] ∨ (∃ d, LooksIn w' R d ∧ ∀ E ∈ w'.ents, E.doc = d → E.id ≠ R.id))) →
      ∃ w' x, y = some (w', x) ∧ w'.refs r = some { R with entity := x } ∧
        (∀ e, x = some e → ∃ E ∈ w'.ents, E.name = e ∧ E.id = R.id ∧ LooksIn w' R E.doc) ∧
        (x = none → R.id = [] ∨
          (∃ H ∈ w.holders, R.holder = some H.name ∧ H.target = none ∧ (flag = false ∨ files H.url = none)) ∨
          (∃ d, LooksIn w' R d ∧ ∀ E ∈ w'.ents, E.doc = d → E.id ≠ R.id)) := by
    rintro y ⟨w', x, a, b, c, d⟩
    exact ⟨w', x, a, b, c, fun hx => (d hx).imp_right .inr⟩
  have nodoc : ∀ H ∈ w.holders, R.holder = some H.name → H.target = none → (flag = false ∨ files H.url = none) →
      ∃ w' x, some (lookUp r R (w, none)) = some (w', x) ∧ w'.refs r = some { R with entity := x } ∧
        (∀ e, x = some e → ∃ E ∈ w'.ents, E.name = e ∧ E.id = R.id ∧ LooksIn w' R E.doc) ∧
        (x = none → R.id = [] ∨
          (∃ H ∈ w.holders, R.holder = some H.name ∧ H.target = none ∧ (flag = false ∨ files H.url = none)) ∨
          (∃ d, LooksIn w' R d ∧ ∀ E ∈ w'.ents, E.doc = d → E.id ≠ R.id)) := by
    intro H hH hn ht hc
    have hRn : ({ R with entity := none } : Ref) = R := by rw [← he]
    exact ⟨w, none, rfl, by rw [hRn]; exact hR, by simp, fun _ => .inr (.inl ⟨H, hH, hn, ht, hc⟩)⟩
  unfold entityDocument
  cases hh : R.holder with
  | none =>
    simp only [Option.map_some]
    have := lift _ (fin w home rfl (.inl ⟨hh, rfl⟩))
    rwa [hh] at this
  | some h =>
    obtain ⟨H, hH, rfl⟩ := hi.safe.holder r R h hR hh
    simp only [holder?_eq hi hH]
    rw [← hh]
    cases ht : H.target with
    | some d =>
      simp only [Option.map_some]
      exact lift _ (fin w d rfl (.inr ⟨H, hH, hh, ht⟩))
    | none =>
      by_cases hfl : flag = true
      · simp only [if_pos hfl]
        cases hf : files H.url with
        | none => exact nodoc H hH hh ht (.inr hf)
        | some ids =>
          refine lift _ (fin (loadTarget w H.name H.url ids) w.next rfl (.inr ⟨{ H with target := some w.next }, ?_, hh, rfl⟩))
          exact (modHolder_mem _ _ _ _).2 ⟨H, hH, by rw [if_pos rfl]⟩
      · simp only [if_neg hfl]
        exact nodoc H hH hh ht (.inl (by simpa using hfl))

/-- **C95.** The first `GetEntity` through a placeholder whose document is not loaded loads it, when loading is on and the file can be read; it
finds the entity of the file that has the reference's id. -/
theorem get_entity_loads {w : World} (hw : Reach w) (r : Nat) (R : Ref) (hR : w.refs r = some R) (he : R.entity = none) (H : Holder) (hH : H ∈ w.holders)
    (hn : R.holder = some H.name) (ht : H.target = none) (files : Text → Option (List Text)) (ids : List Text) (hf : files H.url = some ids)
    (hid : R.id ∈ ids) (hne : R.id ≠ []) :
    ∃ w' E D, getEntity files true w r = some (w', some E.name) ∧ E ∈ w'.ents ∧ E.id = R.id ∧ w.docs E.doc = none ∧ E.doc ≠ home ∧
      w'.docs E.doc = some D ∧ D.url = H.url ∧ ∀ id, id ∈ ids ↔ ∃ E' ∈ w'.ents, E'.doc = E.doc ∧ E'.id = id := by
  have hi := reach_inv hw
  unfold getEntity
  simp only [hR, he]
  unfold entityDocument
  rw [hn]
  simp only [holder?_eq hi hH, ht, if_true, hf, Option.map_some, lookUp, if_neg hne]
  have hdn : w.docs w.next = none := by
    by_contra h
    exact Nat.lt_irrefl _ (hi.docLt _ h)
  have hents : (loadTarget w H.name H.url ids).ents = w.ents ++ newEnts w.next (w.next + 1) ids := rfl
  have hall : ∀ id, id ∈ ids ↔ ∃ E' ∈ (loadTarget w H.name H.url ids).ents, E'.doc = w.next ∧ E'.id = id := by
    intro id
    rw [hents]
    constructor
    · intro h
      obtain ⟨E, h1, h2⟩ := newEnts_ids w.next (w.next + 1) ids id h
      exact ⟨E, List.mem_append_right _ h1, (newEnts_mem h1).1, h2⟩
    · rintro ⟨E, h1, h2, h3⟩
      rcases List.mem_append.1 h1 with h | h
      · rcases hi.safe.doc E h with h4 | h4
        · have := hi.pos; rw [h2] at h4; unfold home at h4; omega
        · rw [h2] at h4; exact absurd hdn h4
      · exact h3 ▸ (newEnts_mem h).2.2.2
  cases hfe : findEntity (loadTarget w H.name H.url ids) w.next R.id with
  | none =>
    obtain ⟨E, h1, h2, h3⟩ := (hall R.id).1 hid
    exact absurd h3 (findEntity_none hfe E h1 h2)
  | some e =>
    obtain ⟨E, h1, rfl, h2, h3⟩ := findEntity_some hfe
    refine ⟨_, E, ⟨H.url, false⟩, rfl, h1, h3, by rw [h2]; exact hdn, ?_, ?_, rfl, by rw [h2]; exact hall⟩
    · rw [h2]; have := hi.pos; unfold home; omega
    · rw [h2]
      show (if w.next = w.next then some (⟨H.url, false⟩ : Doc) else _) = _
      rw [if_pos rfl]

/-! ## C96: placeholders and documents -/

/-- **C96.** After any history of calls, every placeholder lists each of the references that go through it once, and there is at least one. -/
theorem placeholder_references {w : World} (hw : Reach w) : ∀ H ∈ w.holders, ListsItsReferences w H := by
  have hi := reach_inv hw
  exact fun H hH => ⟨hi.mem H hH, hi.nodup H hH, hi.nonempty H hH (by simp)⟩

/-- A call that changes references only. -/
def OnReferences : Op → Prop
  | .setUri _ _ _ | .setEntityId _ _ | .setEntity _ _ | .getEntity _ _ _ | .releaseRef _ | .newRef => True
  | _ => False

/-- **C96.** Calls on references release another document exactly when it is not a top document, had a placeholder, and has none left. Top
documents, documents some reference still goes through, and documents that never had a placeholder stay. -/
theorem document_lifetime {w w' : World} (hw : Reach w) (op : Op) (hop : OnReferences op) (hl : Legal w op) (hs : step w op = some w') (d : Nat) (D : Doc)
    (hD : w.docs d = some D) :
    w'.docs d = none ↔ D.top = false ∧ (∃ H ∈ w.holders, H.target = some d) ∧ ¬ ∃ H ∈ w'.holders, H.target = some d := by
  have hi := reach_inv hw
  have same : ∀ w' : World, w'.docs d = w.docs d → w'.holders = w.holders →
      (w'.docs d = none ↔ D.top = false ∧ (∃ H ∈ w.holders, H.target = some d) ∧ ¬ ∃ H ∈ w'.holders, H.target = some d) := by
    intro w' h1 h2
    rw [h1, h2, hD]
    constructor
    · intro h; simp at h
    · rintro ⟨_, a, b⟩; exact absurd a b
  cases op with
  | newDoc => exact hop.elim
  | newEnt => exact hop.elim
  | releaseEnt => exact hop.elim
  | releaseDoc => exact hop.elim
  | unloadTarget => exact hop.elim
  | releaseHolder => exact hop.elim
  | newRef =>
    simp only [step, Option.some.injEq] at hs
    subst hs
    exact same _ rfl rfl
  | setEntityId r id =>
    obtain ⟨R, hR⟩ := Option.ne_none_iff_exists'.1 hl
    simp only [step, setEntityId, hR, Option.map_some, Option.some.injEq] at hs
    subst hs
    exact same _ rfl rfl
  | setUri r file frag =>
    obtain ⟨R, hR⟩ := Option.ne_none_iff_exists'.1 hl
    obtain ⟨w0, new, w2, gone, h1, _, hd, _, _, hhold, heff, _⟩ := setUri_spec hi hR file frag
    rw [show step w (.setUri r file frag) = setUri w r file frag from rfl, h1] at hs
    injection hs with hs
    subst hs
    refine lifetime_of_effect hi hR (fun h e => leavesOf_some e) hd ?_ heff hD
    rcases hhold with h | ⟨url, _, h⟩
    · exact .inl h
    · exact .inr ⟨_, _, h⟩
  | setEntity r e =>
    obtain ⟨R, hR⟩ := Option.ne_none_iff_exists'.1 hl.1
    have key : ∀ x : Option Ent, (∀ E, x = some E → E ∈ w.ents) → setEntity w r (x.map (·.name)) = some w' →
        (w'.docs d = none ↔ D.top = false ∧ (∃ H ∈ w.holders, H.target = some d) ∧ ¬ ∃ H ∈ w'.holders, H.target = some d) := by
      intro x hx hs
      obtain ⟨w0, new, w2, gone, h1, _, hd, _, _, hhold, heff, _⟩ := setEntity_spec hi hR x hx
      rw [h1] at hs
      injection hs with hs
      subst hs
      refine lifetime_of_effect hi hR (fun h e => leavesOf_some e) hd ?_ heff hD
      rcases hhold with h | ⟨t, url, h, _⟩
      · exact .inl h
      · exact .inr ⟨_, _, h⟩
    cases e with
    | none => exact key none (by simp) hs
    | some e =>
      obtain ⟨E, hE, rfl⟩ := hl.2 e rfl
      exact key (some E) (by rintro _ ⟨⟩; exact hE) hs
  | releaseRef r =>
    obtain ⟨R, hR⟩ := Option.ne_none_iff_exists'.1 hl
    obtain ⟨w1, gone, h1, heff, _⟩ := releaseRef_spec hi hR
    rw [show step w (.releaseRef r) = releaseRef w r from rfl, h1] at hs
    injection hs with hs
    subst hs
    exact lifetime_of_effect hi hR (fun h e => e) rfl (.inl rfl) heff hD
  | getEntity files flag r =>
    obtain ⟨R, hR⟩ := Option.ne_none_iff_exists'.1 hl
    have hlk : ∀ x : World × Option Nat, (lookUp r R x).1.docs = x.1.docs ∧ (lookUp r R x).1.holders = x.1.holders := by
      intro x
      unfold lookUp
      cases x.2 with
      | none => exact ⟨rfl, rfl⟩
      | some d =>
        simp only
        split
        · exact ⟨rfl, rfl⟩
        · cases findEntity x.1 d R.id <;> exact ⟨rfl, rfl⟩
    simp only [step, getEntity, hR] at hs
    cases he : R.entity with
    | some e =>
      simp only [he, Option.map_some, Option.some.injEq] at hs
      subst hs
      exact same _ rfl rfl
    | none =>
      simp only [he] at hs
      unfold entityDocument at hs
      cases hh : R.holder with
      | none =>
        simp only [hh, Option.map_some, Option.some.injEq] at hs
        subst hs
        exact same _ (by rw [(hlk _).1]) (hlk _).2
      | some h =>
        obtain ⟨H, hH, rfl⟩ := hi.safe.holder r R h hR hh
        simp only [hh, holder?_eq hi hH] at hs
        cases ht : H.target with
        | some t =>
          simp only [ht, Option.map_some, Option.some.injEq] at hs
          subst hs
          exact same _ (by rw [(hlk _).1]) (hlk _).2
        | none =>
          simp only [ht] at hs
          by_cases hfl : flag = true
          · simp only [if_pos hfl] at hs
            cases hf : files H.url with
            | none =>
              simp only [hf, Option.map_some, Option.some.injEq] at hs
              subst hs
              exact same _ (by rw [(hlk _).1]) (hlk _).2
            | some ids =>
              simp only [hf, Option.map_some, Option.some.injEq] at hs
              subst hs
              rw [(hlk _).1, (hlk _).2]
              have hlt := hi.docLt d (by simp [hD])
              have hdd : (loadTarget w H.name H.url ids).docs d = some D := by
                show (if d = w.next then some (⟨H.url, false⟩ : Doc) else w.docs d) = some D
                rw [if_neg (by omega), hD]
              constructor
              · intro h
                rw [hdd] at h
                simp at h
              · rintro ⟨_, ⟨K, hK, hKt⟩, hno⟩
                exfalso
                apply hno
                refine ⟨K, (modHolder_mem _ _ _ _).2 ⟨K, hK, ?_⟩, hKt⟩
                rw [if_neg]
                intro e
                have := holder_inj hi hK hH e
                subst this
                rw [ht] at hKt
                simp at hKt
          · simp only [if_neg hfl, Option.map_some, Option.some.injEq] at hs
            subst hs
            exact same _ (by rw [(hlk _).1]) (hlk _).2

/-- **C96.** A loaded document has at most one placeholder in the home document. -/
theorem one_placeholder {w : World} (hw : Reach w) (H K : Holder) (hH : H ∈ w.holders) (hK : K ∈ w.holders) (d : Nat) (h1 : H.target = some d)
    (h2 : K.target = some d) : H = K :=
  holder_inj (reach_inv hw) hH hK (reach_oneEach hw H hH K hK d h1 h2)

/-! ## C97: nothing dangles -/

/-- **C97.** After any history of legal calls, releases of entities, documents, placeholders and references included, no reference points to an
entity or a placeholder that is gone, no placeholder to a document that is gone. -/
theorem no_dangling {w : World} (hw : Reach w) : NothingDangles w := (reach_inv hw).safe

/-- **C97.** Every legal call has a defined result: no destroyed object is used. -/
theorem calls_defined {w : World} (hw : Reach w) (op : Op) (hl : Legal w op) : step w op ≠ none := by
  obtain ⟨w', h, _⟩ := inv_step (reach_inv hw) op hl
  rw [h]; simp

/-- **C97.** Releasing an entity: exactly the references to it lose it; an external one keeps the id, so that it can find the entity again, a local
one forgets it. All else is as before. -/
theorem release_entity {w : World} (hw : Reach w) (E : Ent) (hE : E ∈ w.ents) :
    ∃ w', releaseEnt w E.name = some w' ∧ (∀ X, X ∈ w'.ents ↔ X ∈ w.ents ∧ X ≠ E) ∧ w'.docs = w.docs ∧ w'.holders = w.holders ∧
      ∀ k R, w.refs k = some R →
        (R.entity = some E.name → w'.refs k = some { R with entity := none, id := if R.holder = none then [] else E.id }) ∧
        (R.entity ≠ some E.name → w'.refs k = some R) := by
  have hi := reach_inv hw
  refine ⟨releaseEnts w fun X => X.name = E.name, by simp only [releaseEnt, ent?_eq hi hE], ?_, rfl, rfl, ?_⟩
  · intro X
    simp only [releaseEnts, List.mem_filter]
    constructor
    · rintro ⟨h1, h2⟩
      exact ⟨h1, by rintro rfl; simp at h2⟩
    · rintro ⟨h1, h2⟩
      refine ⟨h1, ?_⟩
      have : X.name ≠ E.name := fun e => h2 (ent_inj hi h1 hE e)
      simp [this]
  · intro k R hR
    have := releaseEnts_ref_eq hi (fun X => X.name = E.name) hR
    constructor
    · intro he
      exact this.1 E hE he (by simp)
    · intro he
      apply this.2
      intro X hX hXe
      have : X.name ≠ E.name := fun e => he (by rw [hXe, e])
      simp [this]

/-- **C97.** Releasing a document: its entities go, its placeholders stay with its URL but without target, exactly the references to its entities
lose them, and keep the ids when they are external. All else is as before. -/
theorem release_document {w : World} (hw : Reach w) (d : Nat) (D : Doc) (hD : w.docs d = some D) :
    ∃ w', releaseDoc w d = some w' ∧ (∀ x, w'.docs x = if x = d then none else w.docs x) ∧ (∀ X, X ∈ w'.ents ↔ X ∈ w.ents ∧ X.doc ≠ d) ∧
      w'.holders = w.holders.map (fun H => if H.target = some d then { H with target := none, url := D.url } else H) ∧
      ∀ k R, w.refs k = some R →
        (∀ E ∈ w.ents, R.entity = some E.name → E.doc = d → w'.refs k = some { R with entity := none, id := if R.holder = none then [] else E.id }) ∧
        ((∀ E ∈ w.ents, R.entity = some E.name → E.doc ≠ d) → w'.refs k = some R) := by
  have hi := reach_inv hw
  refine ⟨_, by simp only [releaseDoc, hD]; rfl, fun _ => rfl, ?_, rfl, ?_⟩
  · intro X
    simp [releaseEnts, List.mem_filter]
  · intro k R hR
    have := releaseEnts_ref_eq hi (fun X => X.doc = d) hR
    constructor
    · intro E hE he hd
      exact this.1 E hE he (by simp [hd])
    · intro h
      apply this.2
      intro X hX hXe
      simp [h X hX hXe]

/-- **C97.** A document that is unloaded comes back: a reference to one of its entities, with an id, gets the entity with the same id of the same
file when the document is loaded again. -/
theorem unload_reload {w : World} (hw : Reach w) (r : Nat) (E : Ent) (hE : E ∈ w.ents) (hp : PointsTo w r E) (hx : E.doc ≠ home) (hid : E.id ≠ []) (D : Doc)
    (hD : w.docs E.doc = some D) (files : Text → Option (List Text)) (ids : List Text) (hf : files D.url = some ids) (hm : E.id ∈ ids) :
    ∃ H ∈ w.holders, H.target = some E.doc ∧ ∃ w1 w2 E', unloadTarget w H.name = some w1 ∧ w1.docs E.doc = none ∧
      getEntity files true w1 r = some (w2, some E'.name) ∧ E' ∈ w2.ents ∧ E'.id = E.id ∧ (w2.docs E'.doc).map (·.url) = some D.url := by
  have hi := reach_inv hw
  obtain ⟨R, hR, he, _⟩ := hp.entity
  obtain ⟨R', hR', hext⟩ := hp.external
  rw [hR] at hR'
  injection hR' with hR'
  subst hR'
  obtain ⟨_, H, hH, hn, ht⟩ := hext.resolve_left (fun h => hx h.1)
  obtain ⟨w1, h1, h2, _, h3, h4⟩ := release_document hw E.doc D hD
  have hun : unloadTarget w H.name = some w1 := by
    simp only [unloadTarget, holder?_eq hi hH, ht]
    exact h1
  have hw1 : Reach w1 := Reach.step (.unloadTarget H.name) hw ⟨H, hH, rfl⟩ hun
  have hr1 := (h4 r R hR).1 E hE he rfl
  rw [hn] at hr1
  simp only [reduceCtorEq, if_false] at hr1
  have hH1 : ({ H with target := none, url := D.url } : Holder) ∈ w1.holders := by
    rw [h3]
    exact List.mem_map.2 ⟨H, hH, by rw [if_pos ht]⟩
  obtain ⟨w2, E', D', a, b, c, _, _, e, f, _⟩ := get_entity_loads hw1 r _ hr1 rfl { H with target := none, url := D.url } hH1 rfl rfl files ids hf hm hid
  refine ⟨H, hH, ht, w1, w2, E', hun, ?_, a, b, c, ?_⟩
  · rw [h2, if_pos rfl]
  · rw [e]; simp [f]

/-! ## Findings -/

/-- **C95, violated.** `SetUri` on a reference that has an entity: the reference is given the id of entity 2, which exists, but `GetEntity` still
returns entity 1. -/
theorem set_uri_violated : ∃ w w' : World, Reach w ∧ setUri w 3 none [2] = some w' ∧ (∃ R, w'.refs 3 = some R ∧ R.id = [2]) ∧
    (⟨2, home, [2]⟩ : Ent) ∈ w'.ents ∧ ∀ files flag, getEntity files flag w' 3 = some (w', some 1) := by
  obtain ⟨w, hw, he, hr, hh⟩ := witness_local
  refine ⟨w, modRef w 3 fun R => { R with id := [2] }, hw, ?_, ⟨_, modRef_self hr, rfl⟩, ?_, ?_⟩
  · simp [setUri, hr, setHolder, modRef]
  · show _ ∈ w.ents
    rw [he]; simp
  · intro files flag
    simp [getEntity, modRef, hr]

/-- **C95, violated.** `SetEntity(NULL)` does not clear the reference: the next `GetEntity` returns the old entity again. -/
theorem set_null_violated : ∃ w w' : World, Reach w ∧ setEntity w 3 none = some w' ∧
    ∀ files flag, ∃ w'', getEntity files flag w' 3 = some (w'', some 1) := by
  obtain ⟨w, hw, he, hr, hh⟩ := witness_local
  refine ⟨w, modRef w 3 fun R => { R with entity := none }, hw, ?_, ?_⟩
  · simp [setEntity, hr, setEntityDocument, setHolder, modRef]
  · intro files flag
    refine ⟨modRef (modRef w 3 fun R => { R with entity := none }) 3 fun R => { R with entity := some 1 }, ?_⟩
    have hf : findEntity (modRef w 3 fun R => { R with entity := none }) home [1] = some 1 := by
      show (w.ents.find? _).map _ = _
      rw [he]; rfl
    simp only [getEntity, modRef_self hr, entityDocument, Option.map_some, lookUp]
    rw [if_neg (by simp), hf]

/-- **C95, violated.** `SetUri` on the last reference to a document that is not a top document: the document is released while the reference moves,
and the id of its entity overwrites the new id; the local entity with the id of the URI is not found. -/
theorem set_uri_id_violated : ∃ w w' : World, Reach w ∧ setUri w 4 none [2] = some w' ∧ w'.refs 4 = some ⟨none, none, [1]⟩ ∧
    (⟨3, home, [2]⟩ : Ent) ∈ w'.ents ∧ ∀ files flag, getEntity files flag w' 4 = some (w', none) := by
  obtain ⟨w, hw, he, hr, hh, hd⟩ := witness_external
  have hi := reach_inv hw
  obtain ⟨w1, h1⟩ := Option.ne_none_iff_exists'.1 (calls_defined hw (.setUri 4 none [2]) (by simp [Legal, hr]))
  have h1 : setUri w 4 none [2] = some w1 := h1
  have h2 := h1
  simp [setUri, hr, setHolder, modRef, leaveHolder, holder?, hh, releaseHolder, modHolder, detachHolder, destroyHolder, hd, releaseDoc, releaseEnts, joinHolder, he] at h2
  have e4 : w1.refs 4 = some ⟨none, none, [1]⟩ := by
    rw [← h2]
    simp [hr, onEntityReleased, deadIds]
  have ee : w1.ents = [⟨3, home, [2]⟩] := by rw [← h2]
  refine ⟨w, w1, hw, h1, e4, by rw [ee]; simp, ?_⟩
  intro files flag
  simp [getEntity, e4, entityDocument, lookUp, findEntity, ee]

/-- **C96, violated for URLs.** Two placeholders can stand for one URL: a reference set by URI and a reference set to an entity of the loaded
document have different placeholders, and resolving the first loads the file a second time: the two references, both to id 1 of the same file, have
different entities. -/
theorem two_copies_violated : ∃ (w w' : World) (H K : Holder), Reach w ∧ H ∈ w.holders ∧ K ∈ w.holders ∧ H ≠ K ∧ getUrl w H = some [9] ∧ getUrl w K = some [9] ∧
    (∃ R, w.refs 4 = some R ∧ R.entity = some 2 ∧ R.id = [1]) ∧
    getEntity (fun _ => some [[1]]) true w 3 = some (w', some 8) ∧ (⟨8, 7, [1]⟩ : Ent) ∈ w'.ents :=
  ⟨_, _, ⟨5, none, [9], [3]⟩, ⟨6, some 1, [9], [4]⟩,
    .step (.setEntity 4 (some 2)) (.step (.setUri 3 (some [9]) [1]) (.step .newRef (.step .newRef (.step (.newEnt 1 [1])
        (.step (.newDoc [9] true) .start trivial rfl) (.inr (by simp [newDoc, start])) rfl) trivial rfl) trivial rfl) (by simp [Legal, newRef, newDoc, start]) rfl)
      ⟨by simp [modHolder, modRef, addHolder, newRef, newDoc, start], by rintro x ⟨⟩; exact ⟨⟨2, 1, [1]⟩, by simp [modHolder, modRef, addHolder, newRef, newDoc, start], rfl⟩⟩ rfl,
    by decide +kernel, by decide +kernel, by decide, rfl, rfl, ⟨_, rfl, rfl, rfl⟩, rfl, by decide +kernel⟩

/-! ## Non-vacuity -/

example : ∃ w, Reach w ∧ w.refs 3 ≠ none ∧ (⟨2, home, [2]⟩ : Ent) ∈ w.ents := by
  obtain ⟨w, hw, he, hr, hh⟩ := witness_local
  exact ⟨w, hw, by simp [hr], by rw [he]; simp⟩

/-- `unload_reload`, `release_document`, `document_lifetime`, `placeholder_references`: a reference to an entity of another document. -/
example : ∃ w, Reach w ∧ PointsTo w 4 ⟨2, 1, [1]⟩ ∧ w.docs 1 = some ⟨[9], false⟩ ∧ Legal w (.releaseRef 4) := by
  obtain ⟨w, hw, he, hr, hh, hd⟩ := witness_external
  refine ⟨w, hw, ⟨⟨_, hr, rfl, rfl⟩, _, hr, .inr ⟨by decide, ⟨5, some 1, [9], [4]⟩, by rw [hh]; simp, rfl, rfl⟩⟩, hd, by simp [Legal, hr]⟩

/-- Releasing the last reference releases the document. -/
example : ∃ w w', Reach w ∧ step w (.releaseRef 4) = some w' ∧ w.docs 1 ≠ none ∧ w'.docs 1 = none := by
  obtain ⟨w, hw, he, hr, hh, hd⟩ := witness_external
  obtain ⟨w', h1⟩ := Option.ne_none_iff_exists'.1 (calls_defined hw (.releaseRef 4) (by simp [Legal, hr]))
  refine ⟨w, w', hw, h1, by simp [hd], ?_⟩
  rw [document_lifetime hw (.releaseRef 4) trivial (by simp [Legal, hr]) h1 1 _ hd]
  refine ⟨rfl, ⟨_, by rw [hh]; exact List.mem_singleton.2 rfl, rfl⟩, ?_⟩
  have h2 : releaseRef w 4 = some w' := h1
  simp [releaseRef, hr, setHolder, modRef, leaveHolder, holder?, hh, releaseHolder, modHolder, detachHolder, destroyHolder, hd, releaseDoc, releaseEnts, joinHolder, he] at h2
  rw [← h2]
  simp

/-- `set_uri_partial`, `get_entity`, `get_entity_loads`: a reference given by URI whose document is not loaded. -/
example : ∃ w R H, Reach w ∧ w.refs 1 = some R ∧ R.entity = none ∧ R.id = [1] ∧ H ∈ w.holders ∧ R.holder = some H.name ∧ H.target = none :=
  ⟨_, _, _, .step (.setUri 1 (some [9]) [1]) (.step .newRef .start trivial rfl) (by simp [Legal, newRef, start]) rfl, rfl, rfl, rfl, List.mem_singleton.2 rfl, rfl, rfl⟩

end Verif.FRef
