import Verif.ArcFxSpec
import Verif.ArcPassProps
import Verif.ArcParamProps
import Verif.ArcTransLemmas

/-! # Where the sub-ids are in the elements of passes, parameters and codes -/

namespace Verif.FArc

open Verif.FEff (Text text)
open Verif.FConv (Ov Formats)
open Verif.FPass (Shader Pass Tech RState)

/-- No sub-id in the tree. -/
def NoSid (n : Node) : Prop := ∀ s, ¬ HasSid s n

theorem noSid_elem {n : Text} {as : List (Text × Text)} {t : Text} {ks : List Node} (h1 : (Node.elem n as t ks).raw (text "sid") = none) (h2 : ∀ k ∈ ks, NoSid k) : NoSid (.elem n as t ks) := by
  intro s h
  rcases (hasSid_iff s _ _ _ _).1 h with h | ⟨k, hk, h⟩
  · rw [h1] at h; cases h
  · exact h2 k hk s h

theorem noSid_leaf (n : Text) : NoSid (leaf n) := noSid_elem rfl (fun _ h => nomatch h)

theorem noSid_text (n t : Text) : NoSid (textChild n t) := noSid_elem rfl (fun _ h => nomatch h)

theorem noSid_value (n t : Text) : NoSid (valueChild n t) := noSid_elem rfl (fun _ h => nomatch h)

theorem noSid_put {n : Node} {a v : Text} (h : NoSid n) (ha : a ≠ text "sid") : NoSid (n.put a v) := by
  intro s hs
  cases n with
  | elem x as t ks =>
    rw [Node.put, hasSid_iff, raw_append, raw_cons, if_neg ha, raw_nil, Option.or_none] at hs
    rcases hs with hs | ⟨k, hk, hs⟩
    · exact h s (.here hs)
    · exact h s (.deeper hk hs)

theorem noSid_add {n k : Node} (h : NoSid n) (hk : NoSid k) : NoSid (Node.add k n) := fun s hs => ((hasSid_add s k n).1 hs).elim (h s) (hk s)

theorem noSid_plain {n : Node} (h : NoSid n) : PlainSids n := fun s hs => absurd hs (h s)

theorem plainSids_elem {n : Text} {as : List (Text × Text)} {t : Text} {ks : List Node} (h1 : ∀ s, (Node.elem n as t ks).raw (text "sid") = some s → Plain s) (h2 : ∀ k ∈ ks, PlainSids k) : PlainSids (.elem n as t ks) := by
  intro s h
  rcases (hasSid_iff s _ _ _ _).1 h with h | ⟨k, hk, h⟩
  · exact h1 s h
  · exact h2 k hk s h

theorem attr_table : ∀ t : Fin 108, ∀ f ∈ saveTable t.val, f.attr ≠ text "sid" := by decide +kernel

theorem state_noSid {fmt : ℚ → Text} {t : Nat} (ht : t < 108) {m : List FPass.Cell} {k : Node} (h : saveState fmt t m = some k) : NoSid k := by
  unfold saveState at h
  have ha := attr_table ⟨t, ht⟩
  simp only at ha
  have : ∀ (l : List Fld) (n : Node), (∀ f ∈ l, f.attr ≠ text "sid") → NoSid n → l.foldlM (addFld fmt m) n = some k → NoSid k := by
    intro l
    induction l with
    | nil => intro n _ hn h; obtain rfl := Option.some.inj h; exact hn
    | cons f l ih =>
      intro n hl hn h
      rw [List.foldlM_cons] at h
      obtain ⟨n', h1, h2⟩ := Option.bind_eq_some_iff.1 h
      refine ih n' (fun g hg => hl g (by simp [hg])) ?_ h2
      unfold addFld at h1
      obtain ⟨vs, -, rfl⟩ := Option.map_eq_some_iff.1 h1
      cases f.child with
      | none => exact noSid_put hn (hl f (by simp))
      | some c => exact noSid_add hn (noSid_elem (by rw [raw_cons, if_neg (hl f (by simp)), raw_nil]) (fun _ h => nomatch h))
  exact this _ _ ha (noSid_leaf _) h

theorem shader_noSid (s : Shader) : NoSid (writeShader s) := by
  refine noSid_elem (by rw [raw_cons, if_neg (text_ne (by decide)), raw_nil]) fun k hk => ?_
  have hu : ∀ nm t, k ∈ textUnlessEmpty nm t → NoSid k := by
    intro nm t h
    unfold textUnlessEmpty at h
    split at h
    · cases h
    · rw [List.mem_singleton.1 h]; exact noSid_text _ _
  simp only [List.mem_append] at hk
  rcases hk with ((hk | hk) | hk) | hk
  · exact hu _ _ hk
  · exact hu _ _ hk
  · unfold shaderName at hk
    split at hk
    · cases hk
    · rw [List.mem_singleton.1 hk]
      cases s.code with
      | none => exact noSid_text _ _
      | some c => exact noSid_put (noSid_text _ _) (text_ne (by decide))
  · obtain ⟨b, -, hb⟩ := List.mem_filterMap.1 hk
    unfold passBind at hb
    split at hb
    · obtain rfl := Option.some.inj hb
      refine noSid_elem (by rw [raw_cons, if_neg (text_ne (by decide)), raw_nil]) fun x hx => ?_
      rw [List.mem_singleton.1 hx]
      exact noSid_elem (by rw [raw_cons, if_neg (text_ne (by decide)), raw_nil]) (fun _ h => nomatch h)
    · cases hb

theorem optAttr_raw {n a : Text} {v : Option Text} {b : Text} {t : Text} {ks : List Node} (h : a ≠ b) : (Node.elem n (optAttr a v) t ks).raw b = none := by
  cases v with
  | none => rfl
  | some v => rw [optAttr, raw_cons, if_neg h, raw_nil]

theorem ref_noSid (n i : Text) (ks : List Node) (h : ∀ k ∈ ks, NoSid k) : NoSid (refNode n i ks) := noSid_elem (by rw [raw_cons, if_neg (text_ne (by decide)), raw_nil]) h

theorem init_noSid (s : Surf) (ns : List Node) (h : initNodes s = some ns) : ∀ k ∈ ns, NoSid k := by
  have one : ∀ (nm : String) (l : List Node), (∀ k ∈ l, NoSid k) → ∀ k ∈ [Node.elem (text nm) [] [] l], NoSid k := by
    intro nm l hl k hk
    rw [List.mem_singleton.1 hk]
    exact noSid_elem rfl hl
  have hf : ∀ (nm r : String) (ks : List Node), (∀ k ∈ ks, NoSid k) → ∀ ns, (s.images[0]?.map fun id => [Node.elem (text nm) [] [] [refNode (text r) id ks]]) = some ns → ∀ k ∈ ns, NoSid k := by
    intro nm r ks hks ns h
    obtain ⟨id, -, rfl⟩ := Option.map_eq_some_iff.1 h
    exact one nm _ fun k hk => by rw [List.mem_singleton.1 hk]; exact ref_noSid _ _ _ hks
  have hl : ∀ (nm : Text) ns, some [leaf nm] = some ns → ∀ k ∈ ns, NoSid k := by
    intro nm ns h k hk
    obtain rfl := Option.some.inj h
    rw [List.mem_singleton.1 hk]; exact noSid_leaf _
  unfold initNodes at h
  split at h
  · obtain rfl := Option.some.inj h
    exact (fun _ h => nomatch h)
  · split at h
    · obtain rfl := Option.some.inj h
      intro k hk
      obtain ⟨i, hi, rfl⟩ := List.mem_mapIdx.1 hk
      refine noSid_elem ?_ (fun _ h => nomatch h)
      rw [raw_append, raw_append, optAttr_raw (text_ne (by decide)), optAttr_raw (text_ne (by decide)), optAttr_raw (text_ne (by decide))]
      rfl
    · obtain rfl := Option.some.inj h
      intro k hk
      rw [List.mem_singleton.1 hk]; exact noSid_text _ _
  · exact hl _ _ h
  · exact hl _ _ h
  · split at h
    · exact hf _ _ [] (by simp) _ h
    · split at h
      · exact hf _ _ [] (by simp) _ h
      · exact hl _ _ h
  · split at h
    · exact hf _ _ [] (by simp) _ h
    · split at h
      · exact hf _ _ _ (fun k hk => by rw [List.mem_singleton.1 hk]; exact noSid_leaf _) _ h
      · split at h
        · obtain rfl := Option.some.inj h
          exact one _ _ fun k hk => by
            obtain ⟨i, -, rfl⟩ := List.mem_map.1 hk
            exact ref_noSid _ _ _ (fun _ h => nomatch h)
        · exact hl _ _ h
  · exact hf _ _ [] (by simp) _ h

theorem surf_noSid {fmt : ℚ → Text} {s : Surf} {n : Node} (h : surfNode fmt s = some n) : NoSid n := by
  unfold surfNode at h
  obtain ⟨ns, h1, h⟩ := Option.bind_eq_some_iff.1 h
  obtain ⟨v, -, rfl⟩ := Option.map_eq_some_iff.1 h
  refine noSid_elem (by rw [raw_cons, if_neg (text_ne (by decide)), raw_nil]) fun k hk => ?_
  simp only [List.mem_append] at hk
  rcases hk with (((hk | hk) | hk) | hk) | hk
  · exact init_noSid s ns h1 k hk
  · split at hk
    · cases hk
    · rw [List.mem_singleton.1 hk]; exact noSid_text _ _
  · split at hk
    · rw [List.mem_singleton.1 hk]
      refine noSid_elem rfl fun x hx => ?_
      rcases List.mem_append.1 hx with hx | hx
      · simp only [List.mem_cons, List.not_mem_nil, or_false] at hx
        rcases hx with rfl | rfl | rfl <;> exact noSid_text _ _
      · obtain ⟨o, -, rfl⟩ := List.mem_map.1 hx
        exact noSid_text _ _
    · cases hk
  · unfold sizeNodes at hk
    split at hk
    · rw [List.mem_singleton.1 hk]; exact noSid_text _ _
    · split at hk
      · rw [List.mem_singleton.1 hk]; exact noSid_text _ _
      · cases hk
  · split at hk
    · cases hk
    · rw [List.mem_singleton.1 hk]; exact noSid_text _ _

theorem samp_noSid (s : Samp) : NoSid (sampNode s) := by
  refine noSid_elem rfl fun k hk => ?_
  simp only [List.mem_append] at hk
  rcases hk with (hk | hk) | hk
  · rw [List.mem_singleton.1 hk]; exact noSid_text _ _
  · cases hkd : s.kind <;> rw [hkd] at hk <;> simp only [List.mem_cons, List.not_mem_nil, or_false] at hk
    · rw [hk]; exact noSid_text _ _
    · rcases hk with rfl | rfl <;> exact noSid_text _ _
    · rcases hk with rfl | rfl | rfl <;> exact noSid_text _ _
    · rcases hk with rfl | rfl | rfl <;> exact noSid_text _ _
  · simp only [List.mem_cons, List.not_mem_nil, or_false] at hk
    rcases hk with rfl | rfl | rfl <;> exact noSid_text _ _

theorem note_noSid (a : FFx.Note) : NoSid (noteNode a) := by
  refine noSid_elem (by rw [raw_cons, if_neg (text_ne (by decide)), raw_nil]) fun k hk => ?_
  split at hk
  · rw [List.mem_singleton.1 hk]; exact noSid_text _ _
  split at hk
  · rw [List.mem_singleton.1 hk]; exact noSid_text _ _
  split at hk
  · rw [List.mem_singleton.1 hk]; exact noSid_text _ _
  split at hk
  · rw [List.mem_singleton.1 hk]; exact noSid_text _ _
  · cases hk

/-- The element of a parameter that declares or changes a value: its name, and that its sub-ids are plain. -/
theorem parm_node {fmt : ℚ → Text} {p : Parm} (h : GoodParm p) {n : Node} (hw : writeParm fmt p = some n) :
    n.name = (if p.role = .generator then text "newparam" else text "setparam") ∧ PlainSids n := by
  have key : ∀ v, NoSid v → (parmNode p [] [v]).name = (if p.role = .generator then text "newparam" else text "setparam") ∧ PlainSids (parmNode p [] [v]) := by
    intro v hv
    refine ⟨?_, plainSids_elem ?_ fun k hk => noSid_plain ?_⟩
    · unfold parmNode headOf
      rcases h.role with e | e <;> rw [e] <;> rfl
    · intro s hs
      unfold headOf at hs
      rcases h.role with e | e <;> rw [e] at hs <;> simp only [List.append_nil] at hs
      · rw [raw_cons, if_pos rfl] at hs
        obtain rfl := Option.some.inj hs
        exact valid_plain h.ref
      · rw [raw_cons, if_neg (text_ne (by decide)), raw_nil] at hs
        cases hs
    · simp only [List.mem_append] at hk
      rcases hk with (hk | hk) | hk
      · obtain ⟨a, -, rfl⟩ := List.mem_map.1 hk
        exact note_noSid a
      · split at hk
        · rw [List.mem_singleton.1 hk]; exact noSid_text _ _
        · cases hk
      · rw [List.mem_singleton.1 hk]; exact hv
  have hr : p.role ≠ .referencer ∧ p.role ≠ .animator := by rcases h.role with e | e <;> rw [e] <;> exact ⟨by decide, by decide⟩
  unfold writeParm at hw
  cases hb : p.body <;> rw [hb] at hw <;> simp only at hw
  case surface s =>
    obtain ⟨v, hv, rfl⟩ := Option.map_eq_some_iff.1 hw
    exact key v (surf_noSid hv)
  case sampler s =>
    obtain rfl := Option.some.inj hw
    exact key _ (samp_noSid s)
  case float hh q =>
    obtain rfl := Option.some.inj hw
    rcases h.role with e | e <;> rw [e] at key ⊢ <;> exact key _ (noSid_value _ _)
  case vector hh a b c d =>
    obtain rfl := Option.some.inj hw
    rcases h.role with e | e <;> rw [e] at key ⊢ <;> exact key _ (noSid_text _ _)
  all_goals
    obtain rfl := Option.some.inj hw
    exact key _ (noSid_value _ _)

/-- The element of a pass: its name, and that its sub-ids are plain. -/
theorem pass_elem {fmt : ℚ → Text} {around : List Node} (ha : ∀ a ∈ around, PlainSids a) {p : Pass} (hn : Plain p.name) (hs : ∀ s ∈ p.states, s.type < 108) {n : Node} {t : Text} (hw : writePass fmt around p = some (n, t)) :
    n.name = text "pass" ∧ PlainSids n := by
  unfold writePass at hw
  obtain ⟨r, h1, h2⟩ := Option.bind_eq_some_iff.1 hw
  obtain ⟨ks, h3, h4⟩ := Option.map_eq_some_iff.1 h2
  obtain ⟨h5, -⟩ := Prod.mk.inj h4
  have hr : r.1.name = text "pass" ∧ r.1.kids = [] ∧ ∀ s, r.1.raw (text "sid") = some s → Plain s := by
    by_cases e : p.name = []
    · rw [if_pos e] at h1
      obtain rfl := Option.some.inj h1
      exact ⟨rfl, rfl, fun s h => by cases h⟩
    · rw [if_neg e] at h1
      obtain ⟨k, t', e1, e2, e3, -, e5, e6, -⟩ := putSid_read around (leaf (text "pass")) rfl rfl (noSid_plain (noSid_leaf _)) ha p.name e hn
      rw [e1] at h1
      obtain rfl := Option.some.inj h1
      refine ⟨e2, e3, fun s h => ?_⟩
      rw [e6] at h
      split at h
      · cases h
      · obtain rfl := Option.some.inj h; exact e5
  obtain ⟨r1, r2, r3⟩ := hr
  rw [← h5]
  refine ⟨r1, plainSids_elem (fun s h => r3 s ?_) fun k hk => noSid_plain ?_⟩
  · cases hx : r.1 with
    | elem a b c d => rw [hx] at h; exact h
  · rw [r2, List.nil_append] at hk
    rcases List.mem_append.1 hk with hk | hk
    · have : ∀ (l : List RState) (ks : List Node), (∀ s ∈ l, s.type < 108) → (l.mapM fun s => saveState fmt s.type s.data) = some ks → ∀ k ∈ ks, NoSid k := by
        intro l
        induction l with
        | nil => intro ks _ h k hk; obtain rfl := Option.some.inj h; cases hk
        | cons s l ih =>
          intro ks hl h k hk
          rw [List.mapM_cons] at h
          obtain ⟨x, hx, h⟩ := Option.bind_eq_some_iff.1 h
          obtain ⟨xs, hxs, h⟩ := Option.bind_eq_some_iff.1 h
          obtain rfl := Option.some.inj h
          rcases List.mem_cons.1 hk with rfl | hk
          · exact state_noSid (hl s (by simp)) hx
          · exact ih xs (fun a ha => hl a (by simp [ha])) hxs k hk
      exact this _ _ hs h3 k hk
    · obtain ⟨s, -, rfl⟩ := List.mem_map.1 hk
      exact shader_noSid s

end Verif.FArc
