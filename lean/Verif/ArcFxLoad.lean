import Verif.ArcFxLemmas
import Verif.ArcExtraProps
import Verif.ArcDocParts

/-! # Lemmas about the loading of techniques and profiles -/

namespace Verif.FArc

open Verif.FEff (Text text)
open Verif.FConv (Ov Formats)
open Verif.FPass (Shader Pass Tech RState Code findCode)

theorem tech_codes (ov : Ov) (urls : Urls) (prof : List FxCode) {cs : List FxCode} {K : List Node} (h : List.Forall₂ (CodeNode urls) cs K) : ∀ t : FxTech,
    ∃ ds, K.foldlM (loadFxTechKid ov urls prof) t = some { t with codes := t.codes ++ ds } ∧ List.Forall₂ (CodeBack urls) cs ds ∧ ds.map FxCode.id = List.range' (prof.length + t.codes.length) cs.length := by
  induction h with
  | nil => intro t; exact ⟨[], by rw [List.append_nil]; rfl, .nil, rfl⟩
  | @cons c k cs K hc _ ih =>
    intro t
    obtain ⟨d, e1, e2, e3⟩ := hc.2 (prof.length + t.codes.length)
    obtain ⟨ds, f1, f2, f3⟩ := ih { t with codes := t.codes ++ [d] }
    refine ⟨d :: ds, ?_, .cons e3 f2, ?_⟩
    · rw [List.foldlM_cons, show loadFxTechKid ov urls prof t k = some { t with codes := t.codes ++ [d] } by
        unfold loadFxTechKid
        have h1 : k.name ≠ text "pass" ∧ k.name ≠ text "newparam" ∧ k.name ≠ text "setparam" := by
          rcases hc.1 with e | e <;> rw [e] <;> exact ⟨text_ne (by decide), text_ne (by decide), text_ne (by decide)⟩
        rw [if_neg h1.1, if_neg (by rintro (h | h); exacts [h1.2.1 h, h1.2.2 h]), if_pos hc.1, e1]
        rfl, Option.bind_eq_bind, Option.bind_some, f1]
      simp
    · rw [List.map_cons, e2, f3, List.length_append, List.length_singleton, List.length_cons, List.range'_succ]
      rfl

theorem tech_parms (ov : Ov) (urls : Urls) (prof : List FxCode) {rnd : ℚ → ℚ} {ps : List Parm} {K : List Node}
    (h : List.Forall₂ (fun p k => (∀ parent, loadParm ov parent k = some (parmAfter rnd p)) ∧ k.name = (if p.role = .generator then text "newparam" else text "setparam") ∧ PlainSids k) ps K) : ∀ t : FxTech,
    K.foldlM (loadFxTechKid ov urls prof) t = some { t with params := t.params ++ ps.map (parmAfter rnd) } := by
  induction h with
  | nil => intro t; rw [List.map_nil, List.append_nil]; rfl
  | @cons p k ps K hc _ ih =>
    intro t
    rw [List.foldlM_cons, show loadFxTechKid ov urls prof t k = some { t with params := t.params ++ [parmAfter rnd p] } by
      unfold loadFxTechKid
      have h1 : k.name ≠ text "pass" ∧ (k.name = text "newparam" ∨ k.name = text "setparam") := by
        rw [hc.2.1]
        split
        · exact ⟨text_ne (by decide), Or.inl rfl⟩
        · exact ⟨text_ne (by decide), Or.inr rfl⟩
      rw [if_neg h1.1, if_pos h1.2, hc.1]
      rfl, Option.bind_eq_bind, Option.bind_some, ih]
    simp

theorem tech_passes (ov : Ov) (urls : Urls) (prof : List FxCode) {rnd : ℚ → ℚ} (codes : List FxCode) {ps : List Pass} {K : List Node} (hK : ∀ k ∈ K, k.name = text "pass")
    (h : List.Forall₂ (fun p k => ∃ q, loadPass ov ⟨codes.map FxCode.short, some (prof.map FxCode.short)⟩ k {} = some q ∧ PassBack rnd ⟨codes.map FxCode.short, some (prof.map FxCode.short)⟩ p q) ps K) : ∀ t : FxTech, t.codes = codes →
    ∃ qs, K.foldlM (loadFxTechKid ov urls prof) t = some { t with passes := t.passes ++ qs } ∧ List.Forall₂ (PassBack rnd ⟨codes.map FxCode.short, some (prof.map FxCode.short)⟩) ps qs := by
  induction h with
  | nil => intro t _; exact ⟨[], by rw [List.append_nil]; rfl, .nil⟩
  | @cons p k ps K hc _ ih =>
    intro t ht
    obtain ⟨q, e1, e2⟩ := hc
    obtain ⟨qs, f1, f2⟩ := ih (fun x hx => hK x (by simp [hx])) { t with passes := t.passes ++ [q] } ht
    refine ⟨q :: qs, ?_, .cons e2 f2⟩
    rw [List.foldlM_cons, show loadFxTechKid ov urls prof t k = some { t with passes := t.passes ++ [q] } by
      unfold loadFxTechKid
      rw [if_pos (hK k (by simp)), ht, e1]
      rfl, Option.bind_eq_bind, Option.bind_some, f1]
    simp

theorem sids_back {urls : Urls} {cs ds : List FxCode} (h : List.Forall₂ (CodeBack urls) cs ds) : ds.map FxCode.sid = cs.map FxCode.sid := by
  induction h with
  | nil => rfl
  | cons h _ ih => rw [List.map_cons, List.map_cons, h.2.1, ih]

theorem early_nil : ([] : List Node).takeWhile isEarly = [] := rfl

/-- A technique is saved, and what becomes of it when it is loaded. -/
theorem tech_spec {fmt rnd} (ov : Ov) (hf : Formats fmt rnd) (urls : Urls) (around : List Node) (ha : ∀ a ∈ around, PlainSids a) (prof : List FxCode) (hp : ∀ c ∈ prof, Plain c.sid) (t : FxTech)
    (h : GoodFxTech urls prof t) :
    ∃ n u, writeFxTech fmt urls around prof t = some (n, u) ∧ n.name = text "technique" ∧ PlainSids n ∧ TechSaved prof t u ∧
      ((∀ c ∈ u.codes ++ prof, c.sid ≠ []) → ∀ prof' : List FxCode, prof'.map FxCode.sid = prof.map FxCode.sid → ∃ v, loadFxTech ov urls prof' n = some v ∧ TechBack rnd urls prof' u v) := by
  have hw : (if t.name = [] then text "common" else t.name) ≠ [] ∧ Plain (if t.name = [] then text "common" else t.name) := by
    split
    · exact ⟨by decide +kernel, hplain _ (by decide +kernel)⟩
    · exact ⟨by assumption, h.name⟩
  obtain ⟨k, name, a1, a2, a3, a4, a5, a6, -, -⟩ := putSid_read around (leaf (text "technique")) rfl rfl (noSid_plain (noSid_leaf _)) ha _ hw.1 hw.2
  have hk : PlainSids k := by
    cases k with
    | elem x as d ks =>
      have a3 : ks = [] := a3
      subst a3
      refine plainSids_elem (fun s hs => ?_) (fun _ h => nomatch h)
      rw [a6] at hs
      split at hs
      · cases hs
      · obtain rfl := Option.some.inj hs; exact a5
  obtain ⟨p1, cs, K, b1, b2, b3, b4, b5, -, b7⟩ := codes_spec urls around ha t.codes h.codes [] early_nil k [] hk (by rw [a3]; rfl) (by simp)
  rw [List.nil_append, List.append_nil] at b2
  obtain ⟨ks, c1, c2⟩ := parms_spec ov hf t.params h.params
  have hks : PlainSids (addKids p1 ks) := by
    rw [b2]
    rw [b2] at b7
    refine plainSids_elem (fun s hs => b7 s (.here hs)) fun x hx => ?_
    rw [kids_elem] at hx
    rcases List.mem_append.1 hx with hx | hx
    · exact fun s hs => b7 s (.deeper hx hs)
    · obtain ⟨i, hi, rfl⟩ := List.mem_iff_getElem.1 hx
      have := c2.length_eq
      exact ((List.forall₂_iff_get.1 c2).2 i (by omega) hi).2.2
  have hids : (cs ++ prof).map FxCode.id = (t.codes ++ prof).map FxCode.id := by
    rw [List.map_append, List.map_append]
    congr 1
    have : ∀ l m : List FxCode, List.Forall₂ (fun c d => d = { c with sid := d.sid }) l m → m.map FxCode.id = l.map FxCode.id := by
      intro l m hlm
      induction hlm with
      | nil => rfl
      | cons h _ ih => rw [List.map_cons, List.map_cons, ih, h]
    exact this _ _ b4.1
  have hback : ∀ prof' : List FxCode, ∀ ds : List FxCode, List.Forall₂ (CodeBack urls) cs ds → (∀ c ∈ cs ++ prof, c.sid ≠ []) → prof'.map FxCode.sid = prof.map FxCode.sid →
      ∀ c ∈ (⟨ds.map FxCode.short, some (prof'.map FxCode.short)⟩ : Tech).all, c.sid ≠ [] := by
    intro prof' ds hds hne hpr c hc
    have hsid := sids_back hds
    simp only [FPass.Tech.all, Option.getD_some] at hc
    rw [← List.map_append] at hc
    obtain ⟨d, hd, rfl⟩ := List.mem_map.1 hc
    have : d.sid ∈ (cs ++ prof).map FxCode.sid := by
      rw [List.map_append, ← hsid, ← hpr, ← List.map_append]
      exact List.mem_map_of_mem hd
    obtain ⟨e, he, hee⟩ := List.mem_map.1 this
    show d.sid ≠ []
    rw [← hee]
    exact hne e he
  have hsidp : ∀ d js, prop (some (Node.elem k.name k.attrs d js)) (text "sid") = some name := by
    intro d js
    cases k with
    | elem a as x ys =>
      have a6 : (Node.elem a as d js).raw (text "sid") = _ := a6
      by_cases h : name = []
      · rw [if_pos h] at a6; rw [h]; exact prop_absent a6
      · rw [if_neg h] at a6; exact prop_raw a6 a5
  have hshape : ∀ P : List Node, Node.elem (addKids p1 ks).name (addKids p1 ks).attrs (addKids p1 ks).direct ((addKids p1 ks).kids ++ P) = .elem k.name k.attrs k.direct (K ++ ks ++ P) := by
    intro P; rw [b2]; rfl
  have hload : ∀ (P : List Node) (prof' : List FxCode), ∃ ds, List.Forall₂ (CodeBack urls) cs ds ∧ ds.map FxCode.id = List.range' prof'.length cs.length ∧
      loadFxTech ov urls prof' (.elem k.name k.attrs k.direct (K ++ ks ++ P)) = P.foldlM (loadFxTechKid ov urls prof') ⟨name, ds, t.params.map (parmAfter rnd), []⟩ := by
    intro P prof'
    obtain ⟨ds, d1, d2, d3⟩ := tech_codes ov urls prof' b3 { name := name }
    refine ⟨ds, d2, d3, ?_⟩
    unfold loadFxTech
    rw [if_neg (by rw [show (Node.elem k.name k.attrs k.direct (K ++ ks ++ P)).name = k.name from rfl, a2]; simp [leaf, Node.name]), hsidp, Option.bind_some, kids_elem, List.foldlM_append, List.foldlM_append, d1, Option.bind_eq_bind, Option.bind_some, tech_parms ov urls prof' c2, Option.bind_some]
    simp
  by_cases hps : t.passes = []
  · refine ⟨.elem k.name k.attrs k.direct (K ++ ks ++ [leaf (text "pass")]), ⟨name, cs, t.params, []⟩, ?_, a2, ?_, ⟨b4, rfl, by rw [hps]; exact .nil⟩, ?_⟩
    · unfold writeFxTech
      rw [a1, Option.bind_some, b1, Option.bind_some, c1, Option.bind_some]
      unfold passesOrDummy
      rw [hps, List.map_nil, if_pos rfl, Option.map_some, ← hshape]
      rfl
    · rw [← hshape]
      have := noSid_leaf (text "pass")
      intro s hs
      exact hks s (((hasSid_add s (leaf (text "pass")) (addKids p1 ks)).1 (by exact hs)).resolve_right (this s))
    · intro _ prof' _
      obtain ⟨ds, d1, d2, d3⟩ := hload [leaf (text "pass")] prof'
      refine ⟨⟨name, ds, t.params.map (parmAfter rnd), [{}]⟩, d3.trans ?_, rfl, d1, d2, rfl, by rw [if_pos rfl]⟩
      rw [List.foldlM_cons, show loadFxTechKid ov urls prof' ⟨name, ds, t.params.map (parmAfter rnd), []⟩ (leaf (text "pass")) = some ⟨name, ds, t.params.map (parmAfter rnd), [{}]⟩ by
        unfold loadFxTechKid
        rw [if_pos (show (leaf (text "pass")).name = text "pass" from rfl)]
        unfold loadPass
        rw [if_neg (by show ¬ text "pass" ≠ text "pass"; simp), prop_absent rfl]
        rfl]
      rfl
  · have hgp : ∀ p ∈ t.passes.map (refreshPass (cs ++ prof)), Plain p.name ∧ (∀ s ∈ p.states, GoodRState s) ∧ FPass.Sorted p.states := by
      intro p hp
      obtain ⟨q, hq, rfl⟩ := List.mem_map.1 hp
      have := h.passes q hq
      exact ⟨this.name, this.states, this.sorted⟩
    obtain ⟨ps, P, f1, f2, f3, f4, f5⟩ := passes_spec ov hf around ha _ hgp (addKids p1 ks) hks
    rw [hshape] at f1 f3
    have hlen : ps ≠ [] := by
      intro e
      rw [e] at f2
      have := f2.length_eq
      rw [List.length_map, List.length_nil] at this
      exact hps (List.length_eq_zero_iff.1 this)
    refine ⟨.elem k.name k.attrs k.direct (K ++ ks ++ P), ⟨name, cs, t.params, ps⟩, ?_, a2, f3, ⟨b4, rfl, ?_⟩, ?_⟩
    · unfold writeFxTech
      rw [a1, Option.bind_some, b1, Option.bind_some, c1, Option.bind_some]
      unfold passesOrDummy
      rw [if_neg (by simpa using hps), f1]
      rfl
    · exact (List.forall₂_map_left_iff.1 f2)
    · intro hne prof' hpr
      obtain ⟨ds, d1, d2, d3⟩ := hload P prof'
      have hgs : ∀ p ∈ t.passes.map (refreshPass (cs ++ prof)), ∀ s ∈ p.shaders, GoodShader s := by
        intro p hp'
        obtain ⟨q, hq, rfl⟩ := List.mem_map.1 hp'
        refine refresh_pass_good hids (fun c hc => ⟨?_, hne c hc⟩) (h.passes q hq)
        rcases List.mem_append.1 hc with hc | hc
        · exact valid_plain (b5 c hc)
        · exact hp c hc
      obtain ⟨qs, g1, g2⟩ := tech_passes ov urls prof' ds f4 (f5 hgs ⟨ds.map FxCode.short, some (prof'.map FxCode.short)⟩ rfl (hback prof' ds d1 hne hpr)) ⟨name, ds, t.params.map (parmAfter rnd), []⟩ rfl
      exact ⟨_, d3.trans g1, rfl, d1, d2, rfl, by rw [if_neg hlen]; exact g2⟩

/-! ## Profiles -/

theorem fold_skip {α β : Type} (f : β → α → Option β) (l : List α) (s : β) (h : ∀ a ∈ l, f s a = some s) : l.foldlM f s = some s := by
  induction l with
  | nil => rfl
  | cons a l ih => rw [List.foldlM_cons, h a (by simp), Option.bind_eq_bind, Option.bind_some, ih fun b hb => h b (by simp [hb])]

theorem ids_saved {cs ds : List FxCode} (h : List.Forall₂ (fun c d => d = { c with sid := d.sid }) cs ds) : ds.map FxCode.id = cs.map FxCode.id := by
  induction h with
  | nil => rfl
  | cons h _ ih => rw [List.map_cons, List.map_cons, ih, h]

theorem good_saved {urls : Urls} {cs ds : List FxCode} (h : ds.map FxCode.id = cs.map FxCode.id) {t : FxTech} (g : GoodFxTech urls cs t) : GoodFxTech urls ds t :=
  ⟨g.name, g.codes, g.params, by have := g.passes; rwa [List.map_append, h, ← List.map_append]⟩

/-- Several techniques are saved. -/
theorem techs_spec {fmt rnd} (ov : Ov) (hf : Formats fmt rnd) (urls : Urls) (around : List Node) (ha : ∀ a ∈ around, PlainSids a) (prof : List FxCode) (hp : ∀ c ∈ prof, Plain c.sid) (ts : List FxTech)
    (h : ∀ t ∈ ts, GoodFxTech urls prof t) : ∀ n, PlainSids n →
    ∃ us T, writeFxTechs fmt urls around prof n ts = some (.elem n.name n.attrs n.direct (n.kids ++ T), us) ∧ List.Forall₂ (TechSaved prof) ts us ∧ PlainSids (.elem n.name n.attrs n.direct (n.kids ++ T)) ∧
      (∀ k ∈ T, k.name = text "technique") ∧ ((∀ c ∈ prof, c.sid ≠ []) → (∀ u ∈ us, ∀ c ∈ u.codes, c.sid ≠ []) → ∀ prof' : List FxCode, prof'.map FxCode.sid = prof.map FxCode.sid →
        List.Forall₂ (fun u k => ∃ v, loadFxTech ov urls prof' k = some v ∧ TechBack rnd urls prof' u v) us T) := by
  induction ts with
  | nil => intro n hn; exact ⟨[], [], by cases n; simp [writeFxTechs, Node.name, Node.attrs, Node.direct, Node.kids], .nil, by cases n; simpa [Node.name, Node.attrs, Node.direct, Node.kids] using hn, by simp, fun _ _ _ _ => .nil⟩
  | cons t ts ih =>
    intro n hn
    have ha' : ∀ a ∈ n :: around, PlainSids a := by
      intro a h
      rcases List.mem_cons.1 h with rfl | h
      · exact hn
      · exact ha a h
    obtain ⟨k, u, e1, e2, e3, e4, e5⟩ := tech_spec ov hf urls (n :: around) ha' prof hp t (h t (by simp))
    have hadd : PlainSids (Node.add k n) := fun s hs => ((hasSid_add s k n).1 hs).elim (hn s) (e3 s)
    obtain ⟨us, T, f1, f2, f3, f4, f5⟩ := ih (fun q hq => h q (by simp [hq])) (Node.add k n) hadd
    have he : (Node.elem (Node.add k n).name (Node.add k n).attrs (Node.add k n).direct ((Node.add k n).kids ++ T)) = .elem n.name n.attrs n.direct (n.kids ++ k :: T) := by cases n; simp [Node.add, Node.name, Node.attrs, Node.direct, Node.kids]
    rw [he] at f1 f3
    refine ⟨u :: us, k :: T, by rw [writeFxTechs, e1, Option.bind_some, f1]; rfl, .cons e4 f2, f3, ?_, fun h1 h2 prof' h3 => .cons (e5 ?_ prof' h3) (f5 h1 (fun x hx => h2 x (by simp [hx])) prof' h3)⟩
    · intro x hx
      rcases List.mem_cons.1 hx with rfl | hx
      · exact e2
      · exact f4 x hx
    · intro c hc
      rcases List.mem_append.1 hc with hc | hc
      · exact h2 u (by simp) c hc
      · exact h1 c hc

theorem fx_codes (ov : Ov) (urls : Urls) {cs : List FxCode} {K : List Node} (h : List.Forall₂ (CodeNode urls) cs K) : ∀ p : FxProfile,
    ∃ ds, K.foldlM (loadFxKid ov urls) p = some { p with codes := p.codes ++ ds } ∧ List.Forall₂ (CodeBack urls) cs ds ∧ ds.map FxCode.id = List.range' p.codes.length cs.length := by
  induction h with
  | nil => intro p; exact ⟨[], by rw [List.append_nil]; rfl, .nil, rfl⟩
  | @cons c k cs K hc _ ih =>
    intro p
    obtain ⟨d, e1, e2, e3⟩ := hc.2 p.codes.length
    obtain ⟨ds, f1, f2, f3⟩ := ih { p with codes := p.codes ++ [d] }
    refine ⟨d :: ds, ?_, .cons e3 f2, ?_⟩
    · rw [List.foldlM_cons, show loadFxKid ov urls p k = some { p with codes := p.codes ++ [d] } by
        unfold loadFxKid
        rw [if_neg (by rcases hc.1 with e | e <;> rw [e] <;> exact text_ne (by decide)), if_pos hc.1, e1]
        rfl, Option.bind_eq_bind, Option.bind_some, f1]
      simp
    · rw [List.map_cons, e2, f3, List.length_append, List.length_singleton, List.length_cons, List.range'_succ]

theorem fx_techs (ov : Ov) (urls : Urls) {rnd : ℚ → ℚ} (codes : List FxCode) {us : List FxTech} {T : List Node} (hT : ∀ k ∈ T, k.name = text "technique")
    (h : List.Forall₂ (fun u k => ∃ v, loadFxTech ov urls codes k = some v ∧ TechBack rnd urls codes u v) us T) : ∀ p : FxProfile, p.codes = codes →
    ∃ vs, T.foldlM (loadFxKid ov urls) p = some { p with techs := p.techs ++ vs } ∧ List.Forall₂ (TechBack rnd urls codes) us vs := by
  induction h with
  | nil => intro p _; exact ⟨[], by rw [List.append_nil]; rfl, .nil⟩
  | @cons u k us T hc _ ih =>
    intro p hp
    obtain ⟨v, e1, e2⟩ := hc
    obtain ⟨vs, f1, f2⟩ := ih (fun x hx => hT x (by simp [hx])) { p with techs := p.techs ++ [v] } hp
    refine ⟨v :: vs, ?_, .cons e2 f2⟩
    rw [List.foldlM_cons, show loadFxKid ov urls p k = some { p with techs := p.techs ++ [v] } by
      unfold loadFxKid
      rw [if_pos (hT k (by simp)), hp, e1]
      rfl, Option.bind_eq_bind, Option.bind_some, f1]
    simp

theorem fx_parms (ov : Ov) (name : Text) {rnd : ℚ → ℚ} {ps : List Parm} {K : List Node}
    (h : List.Forall₂ (fun p k => (∀ parent, loadParm ov parent k = some (parmAfter rnd p)) ∧ k.name = (if p.role = .generator then text "newparam" else text "setparam") ∧ PlainSids k) ps K) : ∀ p : FxProfile,
    K.foldlM (loadFxFirst ov name) p = some { p with params := p.params ++ (ps.filter fun q => decide (q.role = .generator)).map (parmAfter rnd) } := by
  induction h with
  | nil => intro t; rw [List.filter_nil, List.map_nil, List.append_nil]; rfl
  | @cons q k ps K hc _ ih =>
    intro p
    rw [List.foldlM_cons]
    by_cases e : q.role = .generator
    · rw [List.filter_cons_of_pos (by simpa using e), show loadFxFirst ov name p k = some { p with params := p.params ++ [parmAfter rnd q] } by
        unfold loadFxFirst
        rw [if_pos (by rw [hc.2.1, if_pos e]), hc.1]
        rfl, Option.bind_eq_bind, Option.bind_some, ih]
      simp
    · rw [List.filter_cons_of_neg (by simpa using e), show loadFxFirst ov name p k = some p by
        unfold loadFxFirst
        rw [hc.2.1, if_neg e, if_neg (text_ne (by decide)), if_neg (text_ne (by decide))], Option.bind_eq_bind, Option.bind_some, ih]

theorem fx_extra (ov : Ov) (name : Text) (X : List Node) (hX : ∀ k ∈ X, k.name = text "extra") : ∀ (p : FxProfile) (e : FExtra.Extra), loadExtras p.extra X = some e → X.foldlM (loadFxFirst ov name) p = some { p with extra := e } := by
  induction X with
  | nil => intro p e h; obtain rfl := Option.some.inj h; rfl
  | cons k X ih =>
    intro p e h
    unfold loadExtras at h
    rw [List.foldlM_cons] at h
    obtain ⟨e1, h1, h2⟩ := Option.bind_eq_some_iff.1 h
    rw [List.foldlM_cons, show loadFxFirst ov name p k = some { p with extra := e1 } by
      unfold loadFxFirst
      rw [if_neg (by rw [hX k (by simp)]; exact text_ne (by decide)), if_pos (hX k (by simp)), h1]
      rfl, Option.bind_eq_bind, Option.bind_some]
    exact ih (fun x hx => hX x (by simp [hx])) { p with extra := e1 } e h2

theorem fx_extra_load (e : FExtra.Extra) (h : Saveable e ∨ FExtra.hasContent e = false) : loadExtras FExtra.newExtra (writeExtra e) = some (if FExtra.hasContent e then e else FExtra.newExtra) := by
  cases hc : FExtra.hasContent e with
  | true =>
    rw [if_pos rfl]
    refine extra_roundtrip_partial e ?_ hc
    rcases h with h | h
    · exact h
    · rw [hc] at h; cases h
  | false => rw [if_neg (by decide), extra_empty e hc]; rfl

end Verif.FArc
