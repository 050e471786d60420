import Verif.ArcStdFold
import Verif.ArcExtraSids

/-! # The element of the common profile as a whole -/

namespace Verif.FArc

open Verif.FEff (Text text Role)
open Verif.FConv (Ov Formats shown)

/-- The attributes called `sid` in the extra trees of a profile and of its textures have no `%` in them. -/
def StdSids (s : StdFx) : Prop := ExtraSids s.extra ∧ ∀ c, ∀ t ∈ s.tex c, ExtraSids t.extra

theorem noSid_ref (r : Text) : NoSid (refParam r) := noSid_elem (by rw [raw_cons, if_neg (text_ne (by decide)), raw_nil]) (fun _ h => nomatch h)

theorem tex_sids {ov : Ov} {ts : List STex} (h : ∀ t ∈ ts, GoodTex ov t) (hs : ∀ t ∈ ts, ExtraSids t.extra) : ∀ k ∈ ts.map texNode, PlainSids k := by
  intro k hk
  obtain ⟨t, ht, rfl⟩ := List.mem_map.1 hk
  refine plainSids_elem (fun s e => ?_) (extra_sids (h t ht).extra (hs t ht))
  rw [raw_cons, if_neg (text_ne (by decide)), raw_cons, if_neg (text_ne (by decide)), raw_nil] at e
  cases e

theorem color_sids {ov : Ov} (fmt : ℚ → Text) (name : Text) (p : SParm V4) {ts : List STex} (h : ∀ t ∈ ts, GoodTex ov t) (hs : ∀ t ∈ ts, ExtraSids t.extra) : PlainSids (colorNode fmt name p ts) := by
  refine plainSids_elem (fun s e => by cases e) fun k hk => ?_
  split at hk
  · unfold colorValue at hk
    split at hk
    · rw [List.mem_singleton.1 hk]; exact noSid_plain (noSid_text _ _)
    · rw [List.mem_singleton.1 hk]; exact noSid_plain (noSid_ref _)
    · cases hk
  · exact tex_sids h hs k hk

theorem scalar_sids {ov : Ov} (fmt : ℚ → Text) (name : Text) (p : SParm ℚ) {ts : List STex} (h : ∀ t ∈ ts, GoodTex ov t) (hs : ∀ t ∈ ts, ExtraSids t.extra) : PlainSids (scalarNode fmt name p ts) := by
  refine plainSids_elem (fun s e => by cases e) fun k hk => ?_
  split at hk
  · unfold scalarValue at hk
    split at hk
    · rw [List.mem_singleton.1 hk]; exact noSid_plain (noSid_value _ _)
    · rw [List.mem_singleton.1 hk]; exact noSid_plain (noSid_ref _)
    · cases hk
  · exact tex_sids h hs k hk

theorem textures_sids {ov : Ov} (name : Text) {ts : List STex} (h : ∀ t ∈ ts, GoodTex ov t) (hs : ∀ t ∈ ts, ExtraSids t.extra) : PlainSids (texturesNode name ts) :=
  plainSids_elem (fun s e => by cases e) (tex_sids h hs)

theorem onlyIf_sids {c : Prop} [Decidable c] {n : Node} (h : PlainSids n) : ∀ k ∈ onlyIf c n, PlainSids k := by
  intro k hk
  unfold onlyIf at hk
  split at hk
  · rw [List.mem_singleton.1 hk]; exact h
  · cases hk

theorem std_sids {ov : Ov} (fmt : ℚ → Text) {s : StdFx} (h : ∀ c, ∀ t ∈ s.tex c, GoodTex ov t) (hs : ∀ c, ∀ t ∈ s.tex c, ExtraSids t.extra) : ∀ k ∈ stdKids fmt s, PlainSids k := by
  have hnil : ∀ t ∈ ([] : List STex), GoodTex ov t := fun _ h => nomatch h
  have snil : ∀ t ∈ ([] : List STex), ExtraSids t.extra := fun _ h => nomatch h
  have hc : ∀ k ∈ commonKids fmt s, PlainSids k := by
    intro k hk
    unfold commonKids at hk
    simp only [List.mem_append] at hk
    rcases hk with ((((((((hk | hk) | hk) | hk) | hk) | hk) | hk) | hk) | hk) | hk
    · exact onlyIf_sids (color_sids fmt _ _ (h _) (hs _)) k hk
    · exact onlyIf_sids (color_sids fmt _ _ (h _) (hs _)) k hk
    · exact onlyIf_sids (color_sids fmt _ _ (h _) (hs _)) k hk
    · exact onlyIf_sids (color_sids fmt _ _ (h _) (hs _)) k hk
    · exact onlyIf_sids (scalar_sids fmt _ _ hnil snil) k hk
    · exact onlyIf_sids (color_sids fmt _ _ (h _) (hs _)) k hk
    · exact onlyIf_sids (scalar_sids fmt _ _ hnil snil) k hk
    · rw [List.mem_singleton.1 hk]
      have := color_sids fmt (text "transparent") s.transl (h .transparent) (hs .transparent)
      intro x hx
      unfold colorNode at hx this
      rw [Node.put, hasSid_iff, raw_append, raw_cons, if_neg (text_ne (by decide)), raw_nil, Option.or_none] at hx
      rcases hx with hx | ⟨y, hy, hx⟩
      · exact this x (.here hx)
      · exact this x (.deeper hy hx)
    · rw [List.mem_singleton.1 hk]; exact scalar_sids fmt _ _ hnil snil
    · exact onlyIf_sids (scalar_sids fmt _ _ hnil snil) k hk
  have he : ∀ k ∈ extraKids fmt s, PlainSids k := by
    intro k hk
    unfold extraKids at hk
    simp only [List.mem_append] at hk
    rcases hk with (((((hk | hk) | hk) | hk) | hk) | hk) | hk
    · exact onlyIf_sids (textures_sids _ (h _) (hs _)) k hk
    · exact onlyIf_sids (scalar_sids fmt _ _ (h _) (hs _)) k hk
    · exact onlyIf_sids (textures_sids _ (h _) (hs _)) k hk
    · exact onlyIf_sids (scalar_sids fmt _ _ hnil snil) k hk
    · exact onlyIf_sids (textures_sids _ (h _) (hs _)) k hk
    · exact onlyIf_sids (textures_sids _ (h _) (hs _)) k hk
    · exact onlyIf_sids (textures_sids _ (h _) (hs _)) k hk
  intro k hk
  unfold stdKids at hk
  simp only [List.mem_cons, List.not_mem_nil, or_false] at hk
  rcases hk with rfl | rfl
  · exact plainSids_elem (fun s e => by cases e) hc
  · refine plainSids_elem (fun s e => by cases e) fun x hx => ?_
    rw [List.mem_singleton.1 hx]
    exact plainSids_elem (fun s e => by rw [raw_cons, if_neg (text_ne (by decide)), raw_nil] at e; cases e) he

theorem lighting_back {l : Lighting} (h : l ≠ .unknown) : lightingOf l.name = some l := by
  cases l
  · decide +kernel
  · decide +kernel
  · decide +kernel
  · decide +kernel
  · exact absurd rfl h

theorem lighting_names (l : Lighting) : l.name ≠ text "extra" ∧ l.name ≠ text "newparam" := by
  cases l <;> exact ⟨text_ne (by decide), text_ne (by decide)⟩

theorem params_all {n t : Text} {as : List (Text × Text)} {ks : List Node} (h : ∀ k ∈ ks, k.name ≠ text "technique" ∧ k.name ≠ text "extra") : paramsIn (some (.elem n as t ks)) = ks := by
  unfold paramsIn
  rw [Option.map_some, Option.getD_some, kids_elem]
  exact List.filter_eq_self.2 fun k hk => by simpa using h k hk

theorem std_tech (ov : Ov) {fmt rnd} (hf : Formats fmt rnd) (s : StdFx) (h : GoodStd ov s) (ps : List Parm) (ex : FExtra.Extra) (as : List (Text × Text)) (t : Text)
    (hps : ps = (s.params.filter fun q => decide (q.role = .generator)).map (parmAfter rnd)) (hex : ex = (if FExtra.hasContent s.extra then s.extra else FExtra.newExtra)) :
    ∃ u, loadStdTech ov { params := ps, extra := ex } (.elem (text "technique") as t (stdKids fmt s)) = some u ∧ StdBack ov rnd s u := by
  obtain ⟨q, h1, h2⟩ := std_fold ov hf s h ps ex
  refine ⟨stdEnd q, ?_, h2 hps hex⟩
  have hl := lighting_names s.lighting
  obtain ⟨x, hx⟩ : ∃ x : Node, x = .elem (text "technique") [(text "profile", text "FCOLLADA")] [] (extraKids fmt s) := ⟨_, rfl⟩
  have hprop : prop (some x) (text "profile") = some (text "FCOLLADA") := by
    rw [hx]
    exact prop_raw (by rw [raw_cons, if_pos rfl]) (hplain _ (by decide +kernel))
  have hfind : ∀ p : String, findTech [x] (text p) = if text "FCOLLADA" = text p then some 0 else none := by
    intro p
    unfold findTech
    rw [List.findIdx?_cons, hprop, show x.name = text "technique" by rw [hx]; rfl]
    by_cases e : text "FCOLLADA" = text p
    · simp [e]
    · simp [e]
  have hchild : (Node.elem (text "technique") as t (stdKids fmt s)).child (text "extra") = some (.elem (text "extra") [] [] [x]) := by
    unfold stdKids
    rw [child_cons, if_neg (show (Node.elem s.lighting.name [] [] (commonKids fmt s)).name ≠ text "extra" from hl.1), child_cons, hx]
    exact if_pos rfl
  have hext : ∀ p : String, findExtra (.elem (text "technique") as t (stdKids fmt s)) (text p) = if text "FCOLLADA" = text p then some x else none := by
    intro p
    unfold findExtra
    rw [hchild, Option.bind_some, kids_elem, hfind]
    split <;> rfl
  have hnodes : stdNodes (.elem (text "technique") as t (stdKids fmt s)) = commonKids fmt s ++ extraKids fmt s := by
    unfold stdNodes
    rw [hext, hext, hext, if_neg (text_ne (by decide)), if_neg (text_ne (by decide)), if_pos rfl, kids_elem, hx, params_all (names_extra fmt s)]
    unfold stdKids
    rw [List.find?_cons_of_pos (by rw [show (Node.elem s.lighting.name [] [] (commonKids fmt s)).name = s.lighting.name from rfl, lighting_back h.lighting]; rfl), params_all (names_common fmt s)]
    simp [paramsIn]
  unfold loadStdTech
  rw [children_other (a := text "newparam") (by
    intro k hk
    unfold stdKids at hk
    simp only [List.mem_cons, List.not_mem_nil, or_false] at hk
    rcases hk with rfl | rfl
    · exact hl.2
    · exact text_ne (by decide)), hnodes, kids_elem]
  have hlight : ((stdKids fmt s).findSome? fun k => lightingOf k.name) = some s.lighting := by
    unfold stdKids
    rw [List.findSome?_cons, show (Node.elem s.lighting.name [] [] (commonKids fmt s)).name = s.lighting.name from rfl, lighting_back h.lighting]
  rw [hlight]
  show ((commonKids fmt s ++ extraKids fmt s).foldlM (stdStep ov) ({ params := ps ++ [], extra := ex, lighting := s.lighting }, {})).map stdEnd = _
  rw [List.append_nil, h1]
  rfl

theorem std_spec {fmt rnd} (ov : Ov) (hf : Formats fmt rnd) (around : List Node) (ha : ∀ a ∈ around, PlainSids a) (s : StdFx) (h : GoodStd ov s) :
    ∃ n u, writeStd fmt around s = some n ∧ loadStd ov {} n = some u ∧ StdBack ov rnd s u ∧ n.name = text "profile_COMMON" ∧ (StdSids s → PlainSids n) := by
  obtain ⟨ks, c1, c2⟩ := parms_spec ov hf s.params h.params
  have hmem : ∀ k ∈ ks, (k.name = text "newparam" ∨ k.name = text "setparam") ∧ PlainSids k := by
    intro k hk
    obtain ⟨i, hi, rfl⟩ := List.mem_iff_getElem.1 hk
    have := c2.length_eq
    have := (List.forall₂_iff_get.1 c2).2 i (by omega) hi
    refine ⟨?_, this.2.2⟩
    rw [show ks.get ⟨i, hi⟩ = ks[i] from rfl] at this
    rw [this.2.1]
    split
    · exact Or.inl rfl
    · exact Or.inr rfl
  have hn0 : PlainSids (.elem (text "profile_COMMON") [] [] ks) := plainSids_elem (fun s hs => by cases hs) fun k hk => (hmem k hk).2
  obtain ⟨k, name, a1, a2, a3, a4⟩ := putSid_read (.elem (text "profile_COMMON") [] [] ks :: around) (leaf (text "technique")) rfl rfl (noSid_plain (noSid_leaf _))
    (by intro a hm; rcases List.mem_cons.1 hm with rfl | hm; exacts [hn0, ha a hm]) (text "common") (by decide +kernel) (hplain _ (by decide +kernel))
  have hk : addKids k (stdKids fmt s) = .elem (text "technique") k.attrs k.direct (stdKids fmt s) := by
    unfold addKids
    rw [a2, a3]
    rfl
  obtain ⟨gs, hgs⟩ : ∃ gs : List Parm, gs = (s.params.filter fun q : Parm => decide (q.role = .generator)).map (parmAfter rnd) := ⟨_, rfl⟩
  obtain ⟨ex, hex⟩ : ∃ ex : FExtra.Extra, ex = if FExtra.hasContent s.extra then s.extra else FExtra.newExtra := ⟨_, rfl⟩
  obtain ⟨u, b1, b2⟩ := std_tech ov hf s h gs ex k.attrs k.direct hgs hex
  have hX : ∀ k ∈ writeExtra s.extra, k.name = text "extra" := fun k hk => (writeExtra_elem hk).1
  refine ⟨.elem (text "profile_COMMON") [] [] (ks ++ [addKids k (stdKids fmt s)] ++ writeExtra s.extra), u, ?_, ?_, b2, rfl, fun hs => ?_⟩
  · unfold writeStd
    rw [c1, Option.bind_some, a1]
    rfl
  · unfold loadStd
    rw [hk, if_pos (show (Node.elem (text "profile_COMMON") [] [] _).name = text "profile_COMMON" from rfl), kids_elem, List.foldlM_append, List.foldlM_append, fx_parms ov _ c2, Option.bind_eq_bind, Option.bind_some]
    have hskip : ∀ q : FxProfile, [Node.elem (text "technique") k.attrs k.direct (stdKids fmt s)].foldlM (loadFxFirst ov (text "profile_COMMON")) q = some q := fun q => fold_skip _ _ q fun x hx => by
      obtain rfl := List.mem_singleton.1 hx
      unfold loadFxFirst
      rw [show (Node.elem (text "technique") k.attrs k.direct (stdKids fmt s)).name = text "technique" from rfl, if_neg (text_ne (by decide)), if_neg (text_ne (by decide))]
    rw [hskip, Option.bind_some, fx_extra ov _ _ hX _ _ (fx_extra_load s.extra h.extra), Option.bind_some]
    have hc : (Node.elem (text "profile_COMMON") [] [] (ks ++ [Node.elem (text "technique") k.attrs k.direct (stdKids fmt s)] ++ writeExtra s.extra)).child (text "technique") =
        some (Node.elem (text "technique") k.attrs k.direct (stdKids fmt s)) := by
      unfold Node.child
      rw [kids_elem, List.append_assoc, List.find?_append, List.find?_eq_none.2, Option.none_or]
      · exact List.find?_cons_of_pos (decide_eq_true rfl)
      · intro x hx
        rcases (hmem x hx).1 with e | e <;> rw [e] <;> simpa using text_ne (by decide)
    rw [hc]
    show loadStdTech ov { params := [] ++ (s.params.filter fun q : Parm => decide (q.role = .generator)).map (parmAfter rnd), extra := if FExtra.hasContent s.extra then s.extra else FExtra.newExtra } _ = _
    rw [List.nil_append, ← hgs, ← hex]
    exact b1
  · refine plainSids_elem (fun s e => by cases e) fun x hx => ?_
    rcases List.mem_append.1 hx with hx | hx
    · rcases List.mem_append.1 hx with hx | hx
      · exact (hmem x hx).2
      · rw [List.mem_singleton.1 hx, hk]
        refine plainSids_elem (fun v e => ?_) (std_sids fmt h.tex hs.2)
        have e' : k.raw (text "sid") = some v := by
          rw [← e]
          cases k
          rfl
        rw [a4.2.2.1] at e'
        split at e'
        · cases e'
        · obtain rfl := Option.some.inj e'
          exact a4.2.1
    · exact extra_sids h.extra hs.1 x hx

end Verif.FArc
