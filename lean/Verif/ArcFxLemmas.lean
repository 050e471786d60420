import Verif.ArcFxSids

/-! # Lemmas about the saving and loading of codes, techniques and profiles -/

namespace Verif.FArc

open Verif.FEff (Text text)
open Verif.FConv (Ov Formats)
open Verif.FPass (Shader Pass Tech RState)

theorem enclose_has (s : Text) (n : Node) (around : List Node) (h : HasSid s n) : ∀ x ∈ enclose n around, HasSid s x := by
  induction around generalizing n with
  | nil => intro x hx; rw [List.mem_singleton.1 hx]; exact h
  | cons a as ih =>
    intro x hx
    rcases List.mem_cons.1 hx with rfl | hx
    · exact h
    · exact ih (Node.add n a) ((hasSid_add s n a).2 (Or.inr h)) x hx

/-- The scope of a new element has the sub-ids of the element above. -/
theorem scope_has (s : Text) (n p : Node) (around : List Node) (h1 : n.raw (text "id") = none) (h2 : n.raw (text "sid") = none) (h : HasSid s p) (scope : Node) (hs : scopeOf (enclose n (p :: around)) = some scope) : HasSid s scope := by
  have hx : scope ∈ enclose (Node.add n p) around := by
    obtain ⟨r, hr⟩ := enclose_cons (Node.add n p) around
    rw [enclose] at hs
    unfold scopeOf at hs
    rw [List.find?_cons_of_neg (by unfold isScope Node.has; rw [h1, h2]; simp), List.getLast?_cons_of_ne_nil (by rw [hr]; simp)] at hs
    cases hf : (enclose (Node.add n p) around).find? isScope with
    | some x => rw [hf, Option.some_or] at hs; obtain rfl := Option.some.inj hs; exact List.mem_of_find?_eq_some hf
    | none => rw [hf, Option.none_or] at hs; exact List.mem_of_getLast? hs
  exact enclose_has s _ around ((hasSid_add s n p).2 (Or.inl h)) scope hx

theorem hasSid_insert (s : Text) (c p : Node) : HasSid s (insertCode c p) ↔ HasSid s p ∨ HasSid s c := by
  cases p with
  | elem a b t ks =>
    rw [insertCode, hasSid_iff, hasSid_iff]
    have hm : ∀ k, k ∈ (Node.elem a b t ks).kids.takeWhile isEarly ++ c :: (Node.elem a b t ks).kids.dropWhile isEarly ↔ k ∈ ks ∨ k = c := by
      intro k
      have := List.takeWhile_append_dropWhile (p := isEarly) (l := ks)
      have h2 : k ∈ ks ↔ k ∈ ks.takeWhile isEarly ∨ k ∈ ks.dropWhile isEarly := by rw [← List.mem_append, this]
      rw [kids_elem, List.mem_append, List.mem_cons, h2]
      tauto
    simp only [hm]
    constructor
    · rintro (h | ⟨k, hk | rfl, h⟩)
      · exact Or.inl (Or.inl h)
      · exact Or.inl (Or.inr ⟨k, hk, h⟩)
      · exact Or.inr h
    · rintro ((h | ⟨k, hk, h⟩) | h)
      · exact Or.inl h
      · exact Or.inr ⟨k, Or.inl hk, h⟩
      · exact Or.inr ⟨c, Or.inr rfl, h⟩

/-- The element `k` holds the code `c`. -/
def CodeNode (urls : Urls) (c : FxCode) (k : Node) : Prop := (k.name = text "code" ∨ k.name = text "include") ∧ ∀ id, ∃ d, loadCode urls id k = some d ∧ d.id = id ∧ CodeBack urls c d

theorem codeElem_good (c : FxCode) : GoodSid (codeElem c) ∧ codeElem c ≠ [] := by
  unfold codeElem
  cases c.isInclude
  · exact ⟨⟨⟨by decide +kernel, by decide +kernel, by decide +kernel⟩, by decide +kernel⟩, by decide +kernel⟩
  · exact ⟨⟨⟨by decide +kernel, by decide +kernel, by decide +kernel⟩, by decide +kernel⟩, by decide +kernel⟩

/-- One code is saved: the element that is inserted, and the sub-id. -/
theorem code_spec (urls : Urls) (around : List Node) (ha : ∀ a ∈ around, PlainSids a) (p : Node) (hp : PlainSids p) (c : FxCode) (hc : GoodCode urls c) :
    ∃ k c', writeCode urls around p c = some (insertCode k p, c') ∧ CodeNode urls c' k ∧ isEarly k = true ∧ c' = { c with sid := c'.sid } ∧ FXml.ValidId false c'.sid ∧
      (c'.sid ≠ [] → ¬ HasSid c'.sid p ∧ HasSid c'.sid (insertCode k p)) ∧ PlainSids (insertCode k p) := by
  obtain ⟨hsid, hcont⟩ := hc
  have hw : GoodSid (if c.sid = [] then codeElem c else c.sid) ∧ (if c.sid = [] then codeElem c else c.sid) ≠ [] := by
    split
    · exact codeElem_good c
    · exact ⟨hsid, by assumption⟩
  obtain ⟨n0, hn0⟩ : ∃ n0, n0 = Node.elem (codeElem c) [] (if c.isInclude then [] else encode c.code) [] := ⟨_, rfl⟩
  have r1 : n0.raw (text "id") = none := by rw [hn0]; rfl
  have r2 : n0.raw (text "sid") = none := by rw [hn0]; rfl
  have hns : NoSid n0 := by rw [hn0]; exact noSid_elem rfl (fun _ h => nomatch h)
  obtain ⟨m, t, e1, e2, scope, e3, e4, -⟩ := putSid_spec (p :: around) n0 r1 r2 (noSid_plain hns) (by
    intro x hx
    rcases List.mem_cons.1 hx with rfl | hx
    · exact hp
    · exact ha x hx) _ hw.2
  have hv : FXml.ValidId false t := by
    rcases e2 with ⟨-, rfl | ⟨k, -, hk, rfl⟩⟩ | ⟨-, rfl⟩
    · exact hw.1.1
    · exact good_number hw.1 hw.2 k hk
    · trivial
  have hm : m.name = codeElem c ∧ m.kids = [] ∧ m.direct = (if c.isInclude then [] else encode c.code) ∧ m.raw (text "sid") = (if t = [] then none else some t) ∧ m.raw (text "url") = none := by
    rcases e2 with ⟨rfl, ht⟩ | ⟨rfl, rfl⟩
    · have htn : t ≠ [] := by
        rcases ht with rfl | ⟨k, -, -, rfl⟩
        · exact hw.2
        · intro e; exact hw.2 (List.append_eq_nil_iff.1 e).1
      refine ⟨by rw [put_elem, hn0]; rfl, by rw [put_elem, hn0]; rfl, by rw [put_elem, hn0]; rfl, by rw [raw_put, r2, if_pos rfl, if_neg htn]; rfl, ?_⟩
      rw [raw_put, if_neg (text_ne (by decide)), hn0]; rfl
    · rw [hn0]; exact ⟨rfl, rfl, rfl, rfl, rfl⟩
  obtain ⟨m1, m2, m3, m4, m5⟩ := hm
  have hprop : ∀ k : Node, k.raw (text "sid") = (if t = [] then none else some t) → prop (some k) (text "sid") = some t := by
    intro k hk
    by_cases h : t = []
    · rw [if_pos h] at hk; rw [h]; exact prop_absent hk
    · rw [if_neg h] at hk; exact prop_raw hk (valid_plain hv)
  have hhas : ∀ k : Node, k.kids = [] → k.raw (text "sid") = (if t = [] then none else some t) → ∀ s, HasSid s k ↔ t ≠ [] ∧ s = t := by
    intro k h1 h2 s
    cases k with
    | elem a b x ks =>
      have h1 : ks = [] := h1
      subst h1
      rw [hasSid_iff, h2]
      by_cases h : t = []
      · simp [h]
      · simp [h, eq_comm]
  obtain ⟨k, hk⟩ : ∃ k, k = if c.isInclude then m.put (text "url") (urls.write c.file) else m := ⟨_, rfl⟩
  have k1 : k.name = codeElem c ∧ k.kids = [] ∧ k.raw (text "sid") = (if t = [] then none else some t) := by
    rw [hk]
    split
    · exact ⟨by rw [put_elem]; exact m1, by rw [put_elem]; exact m2, by rw [raw_put, if_neg (text_ne (by decide)), Option.or_none]; exact m4⟩
    · exact ⟨m1, m2, m4⟩
  refine ⟨k, { c with sid := t }, ?_, ⟨?_, fun id => ?_⟩, ?_, rfl, hv, fun htn => ⟨fun hh => ?_, ?_⟩, ?_⟩
  · unfold writeCode
    rw [← hn0, e1, hk]
    rfl
  · rw [k1.1]; unfold codeElem; cases c.isInclude
    · exact Or.inl rfl
    · exact Or.inr rfl
  · cases hi : c.isInclude with
    | true =>
      rw [hi, if_pos rfl] at hk hcont
      have hu : prop (some k) (text "url") = some (urls.write c.file) := prop_raw (by rw [hk, raw_put, m5, if_pos rfl]; rfl) hcont
      refine ⟨{ id := id, sid := t, file := urls.read (urls.write c.file) }, ?_, rfl, ⟨rfl, rfl, rfl⟩⟩
      unfold loadCode
      rw [hprop k k1.2.2, Option.bind_some, clean_good hv, Option.bind_some, if_pos (by rw [k1.1]; unfold codeElem; rw [hi, if_pos rfl]), hu]
      rfl
    | false =>
      rw [hi, if_neg (by decide)] at hk hcont
      refine ⟨{ id := id, isInclude := false, sid := t, code := c.code }, ?_, rfl, ⟨rfl, rfl, rfl⟩⟩
      have hct : content k = some c.code := by
        subst hk
        cases hh : k with
        | elem a b x ks =>
          rw [hh] at m2 m3
          have m2 : ks = [] := m2
          have m3 : x = _ := m3
          rw [m2, m3, hi, if_neg (by decide)]
          unfold content
          rw [fullText]
          simp only [fullTexts, List.append_nil]
          exact decode_encode hcont
      unfold loadCode
      rw [hprop k k1.2.2, Option.bind_some, clean_good hv, Option.bind_some, if_neg (by rw [k1.1]; unfold codeElem; rw [hi, if_neg (by decide)]; exact text_ne (by decide)), hct]
      rfl
  · unfold isEarly
    rw [k1.1]
    unfold codeElem
    cases c.isInclude <;> simp
  · exact e4 htn (scope_has t n0 p around r1 r2 hh scope e3)
  · exact (hasSid_insert _ _ _).2 (Or.inr ((hhas k k1.2.1 k1.2.2 t).2 ⟨htn, rfl⟩))
  · intro s hs
    rcases (hasSid_insert _ _ _).1 hs with hs | hs
    · exact hp s hs
    · rw [((hhas k k1.2.1 k1.2.2 s).1 hs).2]; exact valid_plain hv

/-- Several codes are saved. -/
theorem codes_spec (urls : Urls) (around : List Node) (ha : ∀ a ∈ around, PlainSids a) (cs : List FxCode) (hc : ∀ c ∈ cs, GoodCode urls c) (R : List Node) (hR : R.takeWhile isEarly = []) :
    ∀ (p : Node) (E : List Node), PlainSids p → p.kids = E ++ R → (∀ k ∈ E, isEarly k = true) →
    ∃ p' cs' K, writeCodes urls around p cs = some (p', cs') ∧ p' = .elem p.name p.attrs p.direct (E ++ K ++ R) ∧ List.Forall₂ (CodeNode urls) cs' K ∧ CodesSaved cs cs' ∧ (∀ c ∈ cs', FXml.ValidId false c.sid) ∧
      (∀ c ∈ cs', c.sid ≠ [] → ¬ HasSid c.sid p) ∧ PlainSids p' := by
  induction cs with
  | nil =>
    intro p E hp hk _
    refine ⟨p, [], [], rfl, ?_, .nil, ⟨.nil, List.Pairwise.nil⟩, by simp, by simp, hp⟩
    cases p; rw [List.append_nil, ← hk]; rfl
  | cons c cs ih =>
    intro p E hp hk hE
    obtain ⟨k, c', e1, e2, e3, e4, e5, e6, e7⟩ := code_spec urls around ha p hp c (hc c (by simp))
    have hki : (insertCode k p).kids = (E ++ [k]) ++ R := by
      unfold insertCode
      rw [kids_elem, hk, List.takeWhile_append_of_pos hE, List.dropWhile_append_of_pos hE, hR, show R.dropWhile isEarly = R by
        have := List.takeWhile_append_dropWhile (p := isEarly) (l := R)
        rw [hR, List.nil_append] at this
        exact this]
      simp
    obtain ⟨p', cs', K, f1, f2, f3, f4, f5, f6, f7⟩ := ih (fun x hx => hc x (by simp [hx])) (insertCode k p) (E ++ [k]) e7 hki (by
      intro x hx
      rcases List.mem_append.1 hx with hx | hx
      · exact hE x hx
      · rw [List.mem_singleton.1 hx]; exact e3)
    refine ⟨p', c' :: cs', k :: K, by rw [writeCodes, e1, Option.bind_some, f1]; rfl, by rw [f2]; simp [insertCode], .cons e2 f3, ⟨.cons e4 f4.1, List.pairwise_cons.2 ⟨fun d hd e => ?_, f4.2⟩⟩, ?_, ?_, f7⟩
    · by_contra hne
      exact f6 d hd (e ▸ hne) (e ▸ (e6 hne).2)
    · intro x hx
      rcases List.mem_cons.1 hx with rfl | hx
      · exact e5
      · exact f5 x hx
    · intro x hx hne
      rcases List.mem_cons.1 hx with rfl | hx
      · exact (e6 hne).1
      · exact fun hh => f6 x hx hne ((hasSid_insert _ _ _).2 (Or.inl hh))

theorem parms_spec {fmt rnd} (ov : Ov) (hf : Formats fmt rnd) (ps : List Parm) (h : ∀ p ∈ ps, GoodParm p) :
    ∃ ks, ps.mapM (writeParm fmt) = some ks ∧ List.Forall₂ (fun p k => (∀ parent, loadParm ov parent k = some (parmAfter rnd p)) ∧ k.name = (if p.role = .generator then text "newparam" else text "setparam") ∧ PlainSids k) ps ks := by
  induction ps with
  | nil => exact ⟨[], rfl, .nil⟩
  | cons p ps ih =>
    obtain ⟨ks, e1, e2⟩ := ih fun q hq => h q (by simp [hq])
    obtain ⟨k, f1, f2⟩ := parameter_roundtrip_partial ov hf p (h p (by simp))
    exact ⟨k :: ks, by rw [List.mapM_cons, f1, e1]; rfl, .cons ⟨f2, parm_node (h p (by simp)) f1⟩ e2⟩

theorem refresh_good {cs : List FxCode} {ids : List Nat} (hids : cs.map FxCode.id = ids) (hv : ∀ c ∈ cs, Plain c.sid ∧ c.sid ≠ []) {s : Shader} (h : GoodShader { s with code := none }) (hc : ∀ c, s.code = some c → c.id ∈ ids) : GoodShader (refresh cs s) := by
  refine ⟨h.named, h.name, h.target, h.options, h.binds, fun c hcc => ?_⟩
  unfold refresh at hcc
  obtain ⟨d, hd, rfl⟩ := Option.map_eq_some_iff.1 hcc
  obtain ⟨e, he, hee⟩ := List.mem_map.1 (hids ▸ hc d hd)
  cases hf : cs.find? (fun x => decide (x.id = d.id)) with
  | none => exact absurd (decide_eq_true hee) (List.find?_eq_none.1 hf e he)
  | some x => exact hv x (List.mem_of_find?_eq_some hf)

theorem refresh_pass_good {cs : List FxCode} {ids : List Nat} (hids : cs.map FxCode.id = ids) (hv : ∀ c ∈ cs, Plain c.sid ∧ c.sid ≠ []) {p : Pass} (h : GoodPass ids p) : ∀ s ∈ (refreshPass cs p).shaders, GoodShader s := by
  intro s hs
  obtain ⟨s', hs', rfl⟩ := List.mem_map.1 hs
  exact refresh_good hids hv (h.shaders s' hs').1 (h.shaders s' hs').2

theorem writePass_some {fmt rnd} (hf : Formats fmt rnd) (around : List Node) (ha : ∀ a ∈ around, PlainSids a) (p : Pass) (hn : Plain p.name) (hst : ∀ s ∈ p.states, GoodRState s) (hso : FPass.Sorted p.states) :
    ∃ r, writePass fmt around p = some r := by
  have : ∃ r, writePass fmt around { p with shaders := [] } = some r := by
    obtain ⟨n, t, -, h, -⟩ := pass_roundtrip_partial .wrap hf around ha ⟨[], some []⟩ rfl (by simp [FPass.Tech.all]) { p with shaders := [] } hn hst hso (by simp)
    exact ⟨_, h⟩
  obtain ⟨r, hr⟩ := this
  unfold writePass at hr ⊢
  obtain ⟨x, h1, h2⟩ := Option.bind_eq_some_iff.1 hr
  obtain ⟨ks, h3, -⟩ := Option.map_eq_some_iff.1 h2
  exact ⟨_, Option.bind_eq_some_iff.2 ⟨x, h1, Option.map_eq_some_iff.2 ⟨ks, h3, rfl⟩⟩⟩

/-- Several passes are saved. -/
theorem passes_spec {fmt rnd} (ov : Ov) (hf : Formats fmt rnd) (around : List Node) (ha : ∀ a ∈ around, PlainSids a) (ps : List Pass)
    (hg : ∀ p ∈ ps, Plain p.name ∧ (∀ s ∈ p.states, GoodRState s) ∧ FPass.Sorted p.states) : ∀ n, PlainSids n →
    ∃ ps' K, writePasses fmt around n ps = some (.elem n.name n.attrs n.direct (n.kids ++ K), ps') ∧ List.Forall₂ (fun p q => q = { p with name := q.name }) ps ps' ∧ PlainSids (.elem n.name n.attrs n.direct (n.kids ++ K)) ∧
      (∀ k ∈ K, k.name = text "pass") ∧ ((∀ p ∈ ps, ∀ s ∈ p.shaders, GoodShader s) → ∀ tech : Tech, tech.profile.isSome → (∀ c ∈ tech.all, c.sid ≠ []) →
        List.Forall₂ (fun p k => ∃ q, loadPass ov tech k {} = some q ∧ PassBack rnd tech p q) ps' K) := by
  induction ps with
  | nil => intro n hn; exact ⟨[], [], by cases n; simp [writePasses, Node.name, Node.attrs, Node.direct, Node.kids], .nil, by cases n; simpa [Node.name, Node.attrs, Node.direct, Node.kids] using hn, by simp, fun _ _ _ _ => .nil⟩
  | cons p ps ih =>
    intro n hn
    obtain ⟨h1, h2, h3⟩ := hg p (by simp)
    have ha' : ∀ a ∈ n :: around, PlainSids a := by
      intro a h
      rcases List.mem_cons.1 h with rfl | h
      · exact hn
      · exact ha a h
    obtain ⟨⟨k, t⟩, hw⟩ := writePass_some hf (n :: around) ha' p h1 h2 h3
    obtain ⟨w1, w2⟩ := pass_elem ha' h1 (fun s hs => (h2 s hs).1) hw
    have hadd : PlainSids (Node.add k n) := fun s hs => ((hasSid_add s k n).1 hs).elim (hn s) (w2 s)
    obtain ⟨ps', K, f1, f2, f3, f4, f5⟩ := ih (fun q hq => hg q (by simp [hq])) (Node.add k n) hadd
    have he : (Node.elem (Node.add k n).name (Node.add k n).attrs (Node.add k n).direct ((Node.add k n).kids ++ K)) = .elem n.name n.attrs n.direct (n.kids ++ k :: K) := by cases n; simp [Node.add, Node.name, Node.attrs, Node.direct, Node.kids]
    rw [he] at f1 f3
    refine ⟨{ p with name := t } :: ps', k :: K, by rw [writePasses, hw, Option.bind_some, f1]; rfl, .cons rfl f2, f3, ?_, fun hs tech ht hsid => .cons ?_ (f5 (fun q hq => hs q (by simp [hq])) tech ht hsid)⟩
    · intro x hx
      rcases List.mem_cons.1 hx with rfl | hx
      · exact w1
      · exact f4 x hx
    · obtain ⟨n', t', q, g1, g2, g3, g4, g5, -⟩ := pass_roundtrip_partial ov hf (n :: around) ha' tech ht hsid p h1 h2 h3 (hs p (by simp))
      rw [hw] at g1
      obtain ⟨rfl, rfl⟩ := Prod.mk.inj (Option.some.inj g1)
      exact ⟨q, g2, g3, g4, g5⟩

end Verif.FArc
