import Verif.ArcTransLemmas

/-! # Lemmas for the properties of transforms -/

namespace Verif.FArc

open Verif.FEff (Text text)
open Verif.FConv (Ov Formats shown)

/-- What is written for a transform. -/
structure Wrote (fmt : ℚ → Text) (t : Trans) (s : Text) (k : Node) : Prop where
  eq : k = .elem (transName t) (if s = [] then [] else [(text "sid", s)]) (numsText fmt (transNums t)) []

theorem wrote_sid {fmt t s k} (h : Wrote fmt t s k) (x : Text) : HasSid x k ↔ x = s ∧ s ≠ [] := by
  rw [h.eq, hasSid_iff]
  by_cases hs : s = []
  · simp [hs]
  · simp [hs, raw_cons, eq_comm]

theorem add_sid (k p : Node) (x : Text) : HasSid x (Node.add k p) ↔ HasSid x p ∨ HasSid x k := by
  cases p with
  | elem n as t ks =>
    rw [Node.add, hasSid_iff, hasSid_iff]
    have : (Node.elem n as t (ks ++ [k])).raw (text "sid") = (Node.elem n as t ks).raw (text "sid") := rfl
    rw [this]
    simp only [List.mem_append, List.mem_cons, List.not_mem_nil, or_false]
    constructor
    · rintro (h | ⟨j, hj | rfl, h⟩)
      · exact .inl (.inl h)
      · exact .inl (.inr ⟨j, hj, h⟩)
      · exact .inr h
    · rintro ((h | ⟨j, hj, h⟩) | h)
      · exact .inl h
      · exact .inr ⟨j, .inl hj, h⟩
      · exact .inr ⟨k, .inr rfl, h⟩

theorem add_has (k p : Node) (a : Text) : (Node.add k p).has a = p.has a := by cases p; rfl

theorem writeTransform_spec {fmt rnd} (hf : Formats fmt rnd) (p : Node) (hid : p.has (text "id") = true) (hp : PlainSids p) (t : Trans) (sid : Text) (hs : GoodSid sid) :
    ∃ k s, writeTransform fmt p (t, sid) = some (k, s) ∧ Wrote fmt t s k ∧ FXml.ValidId false s ∧ (sid = [] → s = []) ∧ (s ≠ [] → ¬ HasSid s p) ∧ (¬ HasSid sid p → s = sid) ∧
      (FewSids 99 p → sid ≠ [] → s ≠ []) := by
  unfold writeTransform
  by_cases h : sid = []
  · rw [if_pos h]
    exact ⟨_, _, rfl, ⟨by rw [transNode_eq hf]; rfl⟩, trivial, fun _ => rfl, fun e => absurd rfl e, fun _ => h.symm, fun _ e => absurd h e⟩
  · rw [if_neg h]
    set n := transNode fmt t with hn
    have hn' : n = .elem (transName t) [] (numsText fmt (transNums t)) [] := transNode_eq hf t
    have hno : ∀ x, ¬ HasSid x n := fun x => by rw [hn', hasSid_iff]; simp
    have hadd : ∀ x, HasSid x (Node.add n p) ↔ HasSid x p := fun x => by rw [add_sid]; simp [hno]
    have hfew : FewSids 99 p → FewSids 99 (Node.add n p) := fun ⟨l, h1, h2⟩ => ⟨l, h1, fun x hx => h2 x ((hadd x).1 hx)⟩
    obtain ⟨r, h1, h2, h3, h4⟩ := sid_given_partial n [] [] (Node.add n p) (by rw [hn']; exact ⟨rfl, rfl⟩) (by simp) (.inl (by rw [add_has]; exact hid)) (fun x hx => hp x ((hadd x).1 hx)) sid h
    simp only [List.nil_append] at h1
    rw [h1, Option.map_some]
    by_cases hw : HasSid sid p
    · rcases h3 ((hadd _).2 hw) with ⟨c, c1, c2, c3, c4, -⟩ | ⟨c1, c2⟩
      · have hne : sid ++ natText c ≠ [] := by simp [h]
        subst c3
        refine ⟨_, _, rfl, ⟨by rw [if_neg hne]; simp only; rw [hn']; rfl⟩, good_number hs h c c2, fun e => absurd e h, fun _ hx => c4 ((hadd _).2 hx), fun e => absurd hw e, fun _ _ => hne⟩
      · subst c1
        refine ⟨_, _, rfl, ⟨by rw [if_pos rfl]; exact hn'⟩, trivial, fun e => absurd e h, fun e => absurd rfl e, fun e => absurd hw e, fun hfw _ => absurd rfl (h4 (hfew hfw))⟩
    · have := h2 (fun hx => hw ((hadd _).1 hx))
      subst this
      refine ⟨_, _, rfl, ⟨by rw [if_neg h]; simp only; rw [hn']; rfl⟩, hs.1, fun e => absurd e h, fun _ => hw, fun _ => rfl, fun _ _ => h⟩

/-- What is written for the transforms: the elements and the sub-ids. -/
theorem writeTransforms_spec {fmt rnd} (hf : Formats fmt rnd) : ∀ (ts : List (Trans × Text)) (p : Node), p.has (text "id") = true → PlainSids p → (∀ t ∈ ts, GoodSid t.2) →
    ∃ ks sids, writeTransforms fmt p ts = some (.elem p.name p.attrs p.direct (p.kids ++ ks), sids) ∧ sids.length = ts.length ∧
      List.Forall₂ (fun (x : Trans × Text) k => Wrote fmt x.1 x.2 k) ((ts.map (·.1)).zip sids) ks ∧
      (∀ s ∈ sids, FXml.ValidId false s ∧ (s ≠ [] → ¬ HasSid s p)) ∧ (sids.filter (· ≠ [])).Nodup ∧
      List.Forall₂ (fun s (t : Trans × Text) => t.2 = [] → s = []) sids ts ∧
      (((ts.map (·.2)).filter (· ≠ [])).Nodup → (∀ t ∈ ts, ¬ HasSid t.2 p) → sids = ts.map (·.2))
  | [], p, _, _, _ => ⟨[], [], by cases p; simp [writeTransforms, Node.name, Node.attrs, Node.direct, Node.kids], rfl, by simp, by simp, by simp, by simp, fun _ _ => rfl⟩
  | (t, sid) :: ts, p, hid, hp, hg => by
    obtain ⟨k, s, w1, w2, w3, w4, w5, w6, -⟩ := writeTransform_spec hf p hid hp t sid (hg (t, sid) (by simp))
    have hsub : ∀ x, HasSid x (Node.add k p) ↔ HasSid x p ∨ (x = s ∧ s ≠ []) := fun x => by rw [add_sid, wrote_sid w2]
    obtain ⟨ks, sids, v1, v2, v3, v4, v5, v6, v7⟩ := writeTransforms_spec hf ts (Node.add k p) (by rw [add_has]; exact hid)
      (fun x hx => by rcases (hsub x).1 hx with h | ⟨rfl, -⟩; exacts [hp x h, valid_plain w3]) (fun t ht => hg t (by simp [ht]))
    refine ⟨k :: ks, s :: sids, ?_, by simp [v2], ?_, ?_, ?_, ?_, ?_⟩
    · rw [writeTransforms, w1, Option.bind_some, v1]
      cases p
      simp [Node.add, Node.name, Node.attrs, Node.direct, Node.kids]
    · simp only [List.map_cons, List.zip_cons_cons]
      exact .cons w2 v3
    · intro x hx
      rcases List.mem_cons.1 hx with rfl | hx
      · exact ⟨w3, w5⟩
      · exact ⟨(v4 x hx).1, fun hne hh => (v4 x hx).2 hne ((hsub x).2 (.inl hh))⟩
    · by_cases hs : s = []
      · rw [List.filter_cons_of_neg (by simpa using hs)]; exact v5
      · rw [List.filter_cons_of_pos (by simpa using hs), List.nodup_cons]
        refine ⟨fun hm => ?_, v5⟩
        exact (v4 s (List.mem_of_mem_filter hm)).2 hs ((hsub s).2 (.inr ⟨rfl, hs⟩))
    · exact .cons w4 v6
    · intro hn hh
      have hs : s = sid := w6 (hh (t, sid) (by simp))
      subst hs
      rw [List.map_cons]
      congr 1
      refine v7 ?_ ?_
      · rw [List.map_cons] at hn
        by_cases hs : s = []
        · rwa [List.filter_cons_of_neg (by simpa using hs)] at hn
        · rw [List.filter_cons_of_pos (by simpa using hs)] at hn
          exact (List.nodup_cons.1 hn).2
      · intro u hu hx
        rcases (hsub u.2).1 hx with h | ⟨e, hs⟩
        · exact hh u (by simp [hu]) h
        · rw [List.map_cons, List.filter_cons_of_pos (by simpa using hs), List.nodup_cons] at hn
          exact hn.1 (List.mem_filter.2 ⟨List.mem_map.2 ⟨u, hu, e⟩, by simpa using hs⟩)

theorem transStep_write (ov : Ov) (len : V3 → ℚ) {fmt rnd} (hf : Formats fmt rnd) (t : Trans) (ht : GoodTrans rnd t) (s : Text) (hs : FXml.ValidId false s) (k : Node) (hk : Wrote fmt t s k)
    (st : List (Trans × Text) × Bool) : transStep ov len st k = some (st.1 ++ [(shownTrans rnd len t, s)], st.2) := by
  obtain ⟨o, h1, -⟩ := newTrans_kind t
  have hp : prop (some k) (text "sid") = some s := by
    rw [hk.eq]
    by_cases h : s = []
    · simp [prop, h]
    · simp [prop, h, raw_cons, decode_plain (valid_plain hs)]
  have hn : k.name = transName t := by rw [hk.eq]; rfl
  have hd : k.direct = numsText fmt (transNums t) := by rw [hk.eq]; rfl
  unfold transStep
  rw [hn, h1]
  simp only [loadTransChild, hp, Option.bind_some, clean_good hs, loadTransform_write ov len hf t ht o h1 k hd, Option.map_some, Bool.and_true]

theorem newTrans_other {n : Text} (h : n ∉ transNames) : newTrans n = none := by
  simp only [transNames, List.mem_cons, List.not_mem_nil, or_false, not_or] at h
  simp [newTrans, h]

theorem transStep_other (ov : Ov) (len : V3 → ℚ) (ks : List Node) (h : ∀ k ∈ ks, k.name ∉ transNames) (st : List (Trans × Text) × Bool) : ks.foldlM (transStep ov len) st = some st := by
  induction ks with
  | nil => rfl
  | cons k ks ih =>
    have : transStep ov len st k = some st := by unfold transStep; rw [newTrans_other (h k (by simp))]
    rw [List.foldlM_cons, this, Option.bind_eq_bind, Option.bind_some]
    exact ih fun j hj => h j (by simp [hj])

theorem transSteps_write (ov : Ov) (len : V3 → ℚ) {fmt rnd} (hf : Formats fmt rnd) : ∀ (xs : List (Trans × Text)) (ks : List Node),
    List.Forall₂ (fun (x : Trans × Text) k => Wrote fmt x.1 x.2 k) xs ks → (∀ x ∈ xs, GoodTrans rnd x.1 ∧ FXml.ValidId false x.2) → ∀ st : List (Trans × Text) × Bool,
    ks.foldlM (transStep ov len) st = some (st.1 ++ xs.map (fun x => (shownTrans rnd len x.1, x.2)), st.2)
  | [], _, h, _, st => by cases h; simp
  | x :: xs, _, h, hg, st => by
    cases h with
    | cons h hs =>
      rw [List.foldlM_cons, transStep_write ov len hf x.1 (hg x (by simp)).1 x.2 (hg x (by simp)).2 _ h, Option.bind_eq_bind, Option.bind_some,
        transSteps_write ov len hf xs _ hs (fun y hy => hg y (by simp [hy]))]
      simp

end Verif.FArc
