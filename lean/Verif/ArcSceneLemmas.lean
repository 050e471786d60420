import Verif.ArcSceneSpec
import Verif.ArcTransAux
import Verif.ArcEntityAux

/-! # Lemmas on saved and loaded scene nodes -/

namespace Verif.FArc

open Verif.FEff (Text text)
open Verif.FConv (Ov DateTime Formats shown)

/-! ## Links -/

theorem slashes_self {t : Text} (h : 92 ∉ t) : FUri.slashes t = t := by
  unfold FUri.slashes
  have : t.map (fun c => if c = 92 then (47 : FStr.Ch) else c) = t.map id := List.map_congr_left fun c hc => if_neg fun e : c = 92 => h (e ▸ hc)
  simpa using this

theorem parse_local (ov : Ov) {t : Text} (h1 : 63 ∉ t) (h2 : 92 ∉ t) :
    ∃ u, FUri.parse ov (35 :: t) = some u ∧ u.scheme = .none ∧ u.fragment = t ∧ u.path = [47] := by
  have hq : FUri.find 63 (35 :: t) 0 = none := by
    unfold FUri.find
    rw [List.drop_zero, Option.map_eq_none_iff, List.findIdx?_eq_none_iff]
    intro c hc
    rcases List.mem_cons.1 hc with rfl | hc
    · rfl
    · have : c ≠ 63 := fun e => h1 (e ▸ hc)
      simpa using this
  have hf : FUri.find 35 (35 :: t) 0 = some 0 := by simp [FUri.find, List.findIdx?_cons]
  have hfin : ∀ r : FUri.Uri, FUri.finish (35 :: t) 0 r = { r with query := [], fragment := t, path := [47] } := by
    intro r
    unfold FUri.finish
    simp only [hq, hf]
    have : FUri.sub (35 :: t) 0 (FUri.wsub 0 0) = [] := by
      have : FUri.wsub 0 0 = 0 := by decide +kernel
      rw [this]; rfl
    rw [this]
    rfl
  have hs : FUri.slashes (35 :: t) = 35 :: t := slashes_self (by
    intro h
    rcases List.mem_cons.1 h with h | h
    · exact absurd h (by decide)
    · exact h2 h)
  have hp : ∀ i hi (r : FUri.Uri), r.scheme = .none → FUri.hostPart ov (35 :: t) i hi r = some { r with query := [], fragment := t, path := [47] } := by
    intro i hi r hr
    unfold FUri.hostPart
    rw [if_pos hr, hfin]
  unfold FUri.parse
  rw [if_neg (by simp), hs]
  simp only
  cases hc : FUri.find 58 (35 :: t) 0 with
  | none =>
    simp only
    rw [if_neg (by simp only [List.head?_cons, Option.some.injEq]; decide), hp _ _ _ rfl]
    exact ⟨_, rfl, rfl, rfl, rfl⟩
  | some i =>
    simp only
    split
    · rename_i hi
      have hsch : FUri.schemeOf ((35 :: t).take i) = .none := by
        obtain ⟨j, rfl⟩ : ∃ j, i = j + 1 := ⟨i - 1, by omega⟩
        rw [List.take_succ_cons]
        unfold FUri.schemeOf FUri.fileT FUri.ftpT FUri.httpT FUri.httpsT
        simp only [List.cons.injEq]
        simp
      rw [hp _ _ _ hsch]
      exact ⟨_, rfl, hsch, rfl, rfl⟩
    · rw [hp _ _ _ rfl]
      exact ⟨_, rfl, rfl, rfl, rfl⟩

/-- The element of a link. -/
def linkElem (t : Text) : Node := .elem (text "instance_node") [(text "url", 35 :: t)] [] []

theorem linkNode_eq (ov : Ov) {t : Text} (h : GoodLink t) : linkNode ov t = some (linkElem t) := by
  obtain ⟨u, h1, h2, h3, -⟩ := parse_local ov h.2.1 h.2.2
  unfold linkNode
  rw [h1, Option.bind_some, FPath.cleanUri, if_pos h2, h3]
  rfl

theorem writeLinks_eq (ov : Ov) : ∀ ks : List SNode, (∀ t ∈ linksOf ks, GoodLink t) → writeLinks ov ks = some ((linksOf ks).map linkElem)
  | [], _ => rfl
  | .own _ _ :: ks, h => by rw [writeLinks, linksOf]; exact writeLinks_eq ov ks h
  | .link t :: ks, h => by
    rw [writeLinks, linkNode_eq ov (h t (by simp [linksOf])), Option.bind_some, writeLinks_eq ov ks (fun x hx => h x (by simp [linksOf, hx]))]
    rfl

theorem loadLink_eq (ov : Ov) (path : List Text) (a : Acc) {t : Text} (h : GoodLink t) :
    loadLink ov path a (linkElem t) = some (if t ∈ a.doc.seen ∧ t ∉ path ∧ t ∉ a.kids.map SNode.id then { a with kids := a.kids ++ [.link t] } else a) := by
  obtain ⟨u, h1, -, h3, h4⟩ := parse_local ov h.2.1 h.2.2
  have hp : prop (some (linkElem t)) (text "url") = some (35 :: t) := by
    unfold linkElem prop
    simp only [Option.bind_some, raw_cons, if_pos]
    exact decode_plain (plain_cons (by unfold FXml.IsChar; decide) h.1)
  unfold loadLink
  rw [hp, Option.bind_some, h1, Option.map_some, h3, h4]
  have : FUri.isFile [47] = false := by decide
  rw [this]
  simp only [Bool.false_eq_true, if_false, Bool.and_eq_true, List.contains_iff_mem, Bool.not_eq_true', ← Bool.not_eq_true, and_assoc]

theorem loadOther_link (ov : Ov) (len : V3 → ℚ) (path : List Text) (a : Acc) {t : Text} : loadOther ov len path a (linkElem t) = loadLink ov path a (linkElem t) := by
  unfold loadOther
  rw [if_pos (show (linkElem t).name = text "instance_node" from rfl)]

theorem loadLinks_eq (ov : Ov) (len : V3 → ℚ) (path : List Text) : ∀ (ts : List Text) (a : Acc), ts.Nodup → (∀ t ∈ ts, GoodLink t) → (∀ t ∈ ts, t ∉ a.kids.map SNode.id) →
    (ts.map linkElem).foldlM (loadOther ov len path) a = some { a with kids := a.kids ++ (ts.filter fun t => decide (t ∈ a.doc.seen ∧ t ∉ path)).map .link }
  | [], a, _, _, _ => by simp
  | t :: ts, a, hn, hg, hk => by
    rw [List.map_cons, List.foldlM_cons, loadOther_link, loadLink_eq ov path a (hg t (by simp)), Option.bind_eq_bind, Option.bind_some]
    rw [List.nodup_cons] at hn
    have hk1 := hk t (by simp)
    by_cases hc : t ∈ a.doc.seen ∧ t ∉ path
    · rw [if_pos ⟨hc.1, hc.2, hk1⟩, loadLinks_eq ov len path ts _ hn.2 (fun x hx => hg x (by simp [hx]))]
      · rw [List.filter_cons_of_pos (by simpa using hc)]
        simp
      · intro x hx
        simp only [List.map_append, List.map_cons, List.map_nil, List.mem_append, List.mem_singleton, not_or]
        exact ⟨hk x (by simp [hx]), fun e => hn.1 (by rw [← show x = t from e]; exact hx)⟩
    · rw [if_neg (fun h => hc ⟨h.1, h.2.1⟩), loadLinks_eq ov len path ts _ hn.2 (fun x hx => hg x (by simp [hx])) (fun x hx => hk x (by simp [hx])), List.filter_cons_of_neg (by simpa using hc)]

/-! ## The elements before the links -/

theorem loadOthers_skip (ov : Ov) (len : V3 → ℚ) (path : List Text) : ∀ (ks : List Node) (a : Acc), (∀ k ∈ ks, k.name = text "asset" ∨ k.name = text "extra") →
    ks.foldlM (loadOther ov len path) a = some a
  | [], _, _ => rfl
  | k :: ks, a, h => by
    have : loadOther ov len path a k = some a := by
      unfold loadOther
      rcases h k (by simp) with e | e <;> rw [e] <;> simp [text_inj]
    rw [List.foldlM_cons, this, Option.bind_eq_bind, Option.bind_some]
    exact loadOthers_skip ov len path ks a fun k hk => h k (by simp [hk])

theorem loadOthers_trans (ov : Ov) (len : V3 → ℚ) (path : List Text) {fmt rnd} (hf : Formats fmt rnd) : ∀ (xs : List (Trans × Text)) (ks : List Node),
    List.Forall₂ (fun (x : Trans × Text) k => Wrote fmt x.1 x.2 k) xs ks → (∀ x ∈ xs, GoodTrans rnd x.1 ∧ FXml.ValidId false x.2) → ∀ a : Acc,
    ks.foldlM (loadOther ov len path) a = some { a with trans := a.trans ++ xs.map fun x => (shownTrans rnd len x.1, x.2) }
  | [], _, h, _, a => by cases h; simp
  | x :: xs, _, h, hg, a => by
    cases h with
    | @cons _ k _ ks hk hs =>
      have hx := hg x (by simp)
      have hn : k.name = transName x.1 := by rw [hk.eq]; rfl
      have hstep := transStep_write ov len hf x.1 hx.1 x.2 hx.2 k hk (a.trans, a.ok)
      have : loadOther ov len path a k = some { a with trans := a.trans ++ [(shownTrans rnd len x.1, x.2)] } := by
        have e1 : k.name ≠ text "instance_node" := by rw [hn]; cases x.1 <;> simp [transName, text_inj]
        have e2 : ¬ (k.name = text "extra" ∨ k.name = text "asset") := by rw [hn]; cases x.1 <;> simp [transName, text_inj]
        unfold loadOther
        rw [if_neg e1, if_neg e2]
        unfold transStep at hstep
        cases hnt : newTrans k.name with
        | none =>
          rw [hnt] at hstep
          have := (Prod.mk.inj (Option.some.inj hstep)).1
          exact absurd (congrArg List.length this) (by simp)
        | some old =>
          rw [hnt] at hstep
          obtain ⟨r, r1, r2⟩ := Option.map_eq_some_iff.1 hstep
          obtain ⟨r3, r4⟩ := Prod.mk.inj r2
          simp only at r3 r4
          simp only [r1, Option.map_some, r3, r4]
      rw [List.foldlM_cons, this, Option.bind_eq_bind, Option.bind_some, loadOthers_trans ov len path hf xs ks hs fun y hy => hg y (by simp [hy])]
      simp

theorem loadOthers_insts (ov : Ov) (len : V3 → ℚ) (path : List Text) : ∀ (ks : List Node) (a : Acc),
    (∀ k ∈ ks, k.name ∈ [text "instance_camera", text "instance_controller", text "instance_geometry", text "sprite", text "instance_light"]) →
    ks.foldlM (loadOther ov len path) a = some { a with insts := a.insts ++ ks }
  | [], a, _ => by simp
  | k :: ks, a, h => by
    have hk := h k (by simp)
    have : loadOther ov len path a k = some { a with insts := a.insts ++ [k] } := by
      simp only [List.mem_cons, List.not_mem_nil, or_false] at hk
      unfold loadOther
      rcases hk with e | e | e | e | e <;> rw [e] <;> simp [text_inj, newTrans, instNames]
    rw [List.foldlM_cons, this, Option.bind_eq_bind, Option.bind_some, loadOthers_insts ov len path ks _ fun k hk => h k (by simp [hk])]
    simp

theorem loadSKids_others (ov : Ov) (len : V3 → ℚ) (now : DateTime) (above path : List Text) (ys : List Node) : ∀ (xs : List Node) (a : Acc), (∀ k ∈ xs, k.name ≠ text "node") →
    loadSKids ov len now above path a (xs ++ ys) = (xs.foldlM (loadOther ov len path) a).bind fun a => loadSKids ov len now above path a ys
  | [], a, _ => rfl
  | x :: xs, a, h => by
    rw [List.cons_append, loadSKids, if_neg (h x (by simp)), List.foldlM_cons, Option.bind_eq_bind, Option.bind_assoc]
    congr 1
    funext b
    exact loadSKids_others ov len now above path ys xs b fun k hk => h k (by simp [hk])

/-! ## The extra tree -/

/-- No note is in the techniques where notes are looked for. -/
def NoNotes (ts : List FExtra.Tech) : Prop := ∀ t ∈ ts, (t.profile = text "MAYA" ∨ t.profile = text "MAX3D" ∨ t.profile = text "FCOLLADA") → Clean t

theorem withTech_notes {ts : List FExtra.Tech} (h : NoNotes ts) : NoNotes (withTech ts) := by
  unfold withTech
  split
  · exact h
  · intro t ht
    rcases List.mem_append.1 ht with ht | ht
    · exact h t ht
    · rw [List.mem_singleton.1 ht]
      intro _ c hc
      simp [FExtra.blank, FExtra.Node.children] at hc

theorem note_load (ts : List FExtra.Tech) (es : List FExtra.EType) (note : Text) (hs : Saveable (⟨[], ts⟩ :: es)) (hp : NoNotes ts) (hn : Plain note) :
    ∃ ns e', writeEntityExtra note (⟨[], ts⟩ :: es) = some (ns, e') ∧ (∀ k ∈ ns, k.name = text "extra") ∧
      ns.foldlM loadEntExtra (FExtra.newExtra, []) =
        some (if note = [] then (if FExtra.hasContent (⟨[], ts⟩ :: es) then ⟨[], ts⟩ :: es else FExtra.newExtra) else ⟨[], withTech ts⟩ :: es, note) := by
  have p2 : (ts.map (·.profile)).Nodup := (hs.2.2 _ (List.mem_cons_self ..)).2.1
  have p3 : ∀ x ∈ ts, SaveTech x := (hs.2.2 _ (List.mem_cons_self ..)).2.2
  obtain ⟨A, x, B, h1, h2, h3, h4, h5⟩ := withTech_split ts
  have hW := withTech_save p2 p3
  have hP := withTech_notes hp
  rw [h1] at hW hP
  unfold writeEntityExtra
  by_cases e1 : note = []
  · rw [e1, if_pos rfl]
    refine ⟨_, _, rfl, writeExtra_names _, ?_⟩
    rw [if_pos rfl]
    by_cases hcont : FExtra.hasContent (⟨[], ts⟩ :: es) = true
    · rw [loadEntExtras_all ts ts es [] [] hs hcont (takeNotes_clean [] ts hp) (fun _ => rfl) hp, if_pos hcont]
    · rw [extra_empty _ (by simpa using hcont), if_neg hcont]; rfl
  · rw [if_neg e1, onDefault_head, Option.bind_some, pushParam_split _ _ h4, onDefault_head, Option.map_some]
    refine ⟨_, _, rfl, writeExtra_names _, ?_⟩
    have hm := mid_save (x := x) (y := addP (text "user_properties") note x) rfl hW (addP_save _ _ validName_target.2 hn (hW.2 x (by simp)))
    rw [loadEntExtras_all _ (A ++ x :: B) es [] note (saveable_head hs _ hm.1 hm.2) (hasContent_mid ..) (takeNotes_note A B x note [] h2 h3 hP) (by simp) hP, if_neg e1, h1]

theorem attrValue_mem {x : FExtra.Node} {a v : Text} (h : attrValue x a = some v) : ⟨a, v⟩ ∈ x.attrs := by
  unfold attrValue FExtra.findAttribute at h
  obtain ⟨i, hi, h⟩ := Option.bind_eq_some_iff.1 h
  obtain ⟨y, hy, rfl⟩ := Option.map_eq_some_iff.1 h
  obtain ⟨hlt, hp, -⟩ := List.findIdx?_eq_some_iff_getElem.1 hi
  have hy' := List.getElem?_eq_some_iff.1 hy
  obtain ⟨hlt', rfl⟩ := hy'
  have : x.attrs[i].name = a := by simpa using hp
  rw [← this]
  exact List.getElem_mem hlt'

/-- Nothing is taken from the techniques. -/
def NoTaken (ts : List FExtra.Tech) : Prop := ∀ t ∈ ts, ∀ c ∈ t.node.children, sceneTaken c = false

theorem params_head {ts : List FExtra.Tech} {es : List FExtra.EType} (h : NoSceneParams (⟨[], ts⟩ :: es)) : NoNotes ts ∧ NoTaken ts := by
  refine ⟨fun t ht hp c hc => ?_, fun t ht c hc => ?_⟩
  · obtain ⟨h1, -⟩ := h.2 _ (List.mem_cons_self ..) rfl t ht c hc
    have := h1 hp
    simp [isNote, this.1, this.2]
  · obtain ⟨-, h2, h3, h4, h5, h6⟩ := h.2 _ (List.mem_cons_self ..) rfl t ht c hc
    have : attrValue c (text "type") ≠ some (text "layer") := fun e => h6 (attrValue_mem e)
    simp [sceneTaken, isLayer, h2, h3, h4, h5, this]

theorem withTech_taken {ts : List FExtra.Tech} (h : NoTaken ts) : NoTaken (withTech ts) := by
  unfold withTech
  split
  · exact h
  · intro t ht
    rcases List.mem_append.1 ht with ht | ht
    · exact h t ht
    · rw [List.mem_singleton.1 ht]
      simp [FExtra.blank, FExtra.Node.children]

theorem taken_flat {ts : List FExtra.Tech} (h : NoTaken ts) : (ts.flatMap fun t => t.node.children.filter sceneTaken) = [] := by
  rw [List.flatMap_eq_nil_iff]
  intro t ht
  rw [List.filter_eq_nil_iff]
  intro c hc
  simp [h t ht c hc]

theorem untaken_tech (t : FExtra.Tech) (h : ∀ c ∈ t.node.children, sceneTaken c = false) :
    ({ t with node := .mk t.node.name t.node.content t.node.attrs (t.node.children.filter fun x => !sceneTaken x) } : FExtra.Tech) = t := by
  obtain ⟨p, ⟨a, b, c, d⟩⟩ := t
  have : d.filter (fun x => !sceneTaken x) = d := List.filter_eq_self.2 fun c hc => by simpa using h c hc
  simp [FExtra.Node.name, FExtra.Node.content, FExtra.Node.attrs, FExtra.Node.children, this]

theorem untaken_map {ts : List FExtra.Tech} (h : NoTaken ts) :
    (ts.map fun t => ({ t with node := .mk t.node.name t.node.content t.node.attrs (t.node.children.filter fun x => !sceneTaken x) } : FExtra.Tech)) = ts := by
  have := List.map_congr_left (f := fun t => ({ t with node := .mk t.node.name t.node.content t.node.attrs (t.node.children.filter fun x => !sceneTaken x) } : FExtra.Tech)) (g := id)
    fun t ht => untaken_tech t (h t ht)
  rw [this, List.map_id]

theorem extraInsts_none {e : FExtra.Extra} (h : ∀ t ∈ e, t.name ≠ text "instances") : extraInsts e = ([], e, true) := by
  have : FExtra.findType e (text "instances") = none := by
    unfold FExtra.findType
    rw [List.findIdx?_eq_none_iff]
    intro t ht
    simpa using h t ht
  unfold extraInsts
  rw [this]

theorem loadSceneExtra_plain (ov : Ov) (d : Doc) (h : Head) (ts : List FExtra.Tech) (es : List FExtra.EType) (he : h.ent.extra = ⟨[], ts⟩ :: es) (ht : NoTaken ts)
    (hi : ∀ t ∈ es, t.name ≠ text "instances") : loadSceneExtra ov d h = some (d, h, true) := by
  have hi' : ∀ t ∈ ((⟨[], ts⟩ : FExtra.EType) :: es), t.name ≠ text "instances" := by
    intro t ht
    rcases List.mem_cons.1 ht with rfl | ht
    · exact (show ([] : Text) ≠ text "instances" by decide +kernel)
    · exact hi t ht
  unfold loadSceneExtra
  rw [he, defaultTechs_head, Option.bind_some, taken_flat ht, onDefault_head, untaken_map ht]
  simp only [List.foldlM_nil, Option.pure_def, Option.bind_some, Option.map_some, extraInsts_none hi', List.append_nil]
  rw [← he]

theorem vis_name : FExtra.cleanName (text "visibility") = text "visibility" ∧ FExtra.ValidName (text "visibility") := by
  have h1 : FExtra.cleanName (text "visibility") = text "visibility" := by decide +kernel
  refine ⟨h1, ?_⟩
  rw [← h1]
  exact FExtra.valid_cleanName _ (by decide)

/-- The parameter that is added. -/
theorem addP_children (n v : Text) (x : FExtra.Tech) : (addP n v x).node.children = x.node.children ++ [.mk (FExtra.cleanName n) v [] []] := by
  obtain ⟨p, ⟨a, b, c, d⟩⟩ := x
  rfl

theorem loadSceneExtra_vis (ov : Ov) (d : Doc) (h : Head) (A B : List FExtra.Tech) (x : FExtra.Tech) (es : List FExtra.EType) (b : Bool)
    (he : h.ent.extra = ⟨[], A ++ addP (text "visibility") (intText (if b then 1 else 0)) x :: B⟩ :: es) (ht : NoTaken (A ++ x :: B)) (hi : ∀ t ∈ es, t.name ≠ text "instances") :
    loadSceneExtra ov d h = some (d, { h with ent := { h.ent with extra := ⟨[], A ++ x :: B⟩ :: es }, visibility := if b then 1 else 0 }, true) := by
  have hi' : ∀ t ∈ ((⟨[], A ++ x :: B⟩ : FExtra.EType) :: es), t.name ≠ text "instances" := by
    intro t ht
    rcases List.mem_cons.1 ht with rfl | ht
    · exact (show ([] : Text) ≠ text "instances" by decide +kernel)
    · exact hi t ht
  have hA : NoTaken A := fun t m => ht t (by simp [m])
  have hB : NoTaken B := fun t m => ht t (by simp [m])
  have hx := ht x (by simp)
  have hv : sceneTaken (.mk (FExtra.cleanName (text "visibility")) (intText (if b then 1 else 0)) [] []) = true := by
    rw [vis_name.1]; simp [sceneTaken, FExtra.Node.name, FExtra.Node.children]
  have hfl : ((A ++ addP (text "visibility") (intText (if b then 1 else 0)) x :: B).flatMap fun t => t.node.children.filter sceneTaken) =
      [.mk (FExtra.cleanName (text "visibility")) (intText (if b then 1 else 0)) [] []] := by
    rw [List.flatMap_append, List.flatMap_cons, taken_flat hA, taken_flat hB, addP_children, List.filter_append, List.filter_cons_of_pos hv]
    rw [List.filter_eq_nil_iff.2 fun c hc => by simp [hx c hc]]
    simp
  have hm : ((A ++ addP (text "visibility") (intText (if b then 1 else 0)) x :: B).map fun t =>
      ({ t with node := .mk t.node.name t.node.content t.node.attrs (t.node.children.filter fun x => !sceneTaken x) } : FExtra.Tech)) = A ++ x :: B := by
    rw [List.map_append, List.map_cons, untaken_map hA, untaken_map hB]
    congr 2
    rw [addP_children, List.filter_append, List.filter_cons_of_neg (by simp [hv]), List.filter_nil, List.append_nil]
    have := untaken_tech x hx
    obtain ⟨p, ⟨a, b, c, d⟩⟩ := x
    exact this
  have hr : takeParam ov (d, h.visibility) (.mk (FExtra.cleanName (text "visibility")) (intText (if b then 1 else 0)) [] []) = some (d, if b then 1 else 0) := by
    rw [vis_name.1]
    unfold takeParam
    simp only [FExtra.Node.name, FExtra.Node.content, text_inj, String.reduceEq, if_false, if_true]
    have h0 : readBool (intText 0) = some false := by decide +kernel
    have h1 : readBool (intText 1) = some true := by decide +kernel
    cases b
    · simp [h0]
    · simp [h1]
  unfold loadSceneExtra
  rw [he, defaultTechs_head, Option.bind_some, hfl, onDefault_head, hm, List.foldlM_cons, hr]
  simp only [Option.bind_eq_bind, List.foldlM_nil, Option.pure_def, Option.bind_some, Option.map_some, extraInsts_none hi', List.append_nil]

/-- What is written for the extra tree of a node, and how it is read back. -/
theorem sceneExtra_load (ov : Ov) {rnd} (root : Bool) (h : Head) (hg : GoodHead ov rnd h) :
    ∃ ns e, sceneExtra root h = some ns ∧ (∀ k ∈ ns, k.name = text "extra") ∧ ns.foldlM loadEntExtra (FExtra.newExtra, []) = some (e, h.ent.note) ∧
      ∀ (d : Doc) (g : Head), g.ent.extra = e → g.visibility = 1 →
        loadSceneExtra ov d g = some (d, { g with
          ent := { g.ent with extra := sceneExtraAfter (decide (h.ent.note ≠ []) || (!root && decide (h.visibility ≤ 1 / 2))) h.ent.extra }
          visibility := if root || decide (h.visibility ≥ 1 / 2) then 1 else 0 }, true) := by
  obtain ⟨⟨⟨t0, ts⟩, hh, rfl⟩, -, -⟩ := id hg.extra
  obtain ⟨es, hx⟩ : ∃ es, h.ent.extra = ⟨[], ts⟩ :: es := by
    cases hc : h.ent.extra with
    | nil => rw [hc] at hh; simp at hh
    | cons a es => rw [hc, List.head?_cons, Option.some.injEq] at hh; exact ⟨es, by rw [hh]⟩
  have hs := hg.extra
  have hp := hg.params
  rw [hx] at hs hp
  obtain ⟨hno, hta⟩ := params_head hp
  have hi : ∀ t ∈ es, t.name ≠ text "instances" := fun t m => hp.1 t (by simp [m])
  unfold sceneExtra withVisibility
  by_cases hv : (root || decide (h.visibility > 1 / 2)) = true
  · rw [if_pos hv, Option.bind_some, hx]
    obtain ⟨ns, e', n1, n2, n3⟩ := note_load ts es h.ent.note hs hno hg.note
    have c1 : (!root && decide (h.visibility ≤ 1 / 2)) = false := by
      cases root with
      | true => rfl
      | false => simpa using hv
    have c2 : (root || decide (h.visibility ≥ 1 / 2)) = true := by
      cases root with
      | true => rfl
      | false => simp only [Bool.false_or, decide_eq_true_eq] at hv ⊢; exact le_of_lt hv
    refine ⟨ns, _, by rw [n1]; rfl, n2, n3, ?_⟩
    intro d g hge hgv
    rw [c1, c2, Bool.or_false, if_pos rfl]
    have hfin : ∀ us es', sceneExtraAfter (decide (h.ent.note ≠ [])) (⟨[], ts⟩ :: es) = ⟨[], us⟩ :: es' → g.ent.extra = ⟨[], us⟩ :: es' → NoTaken us → (∀ t ∈ es', t.name ≠ text "instances") →
        loadSceneExtra ov d g = some (d, { g with ent := { g.ent with extra := sceneExtraAfter (decide (h.ent.note ≠ [])) (⟨[], ts⟩ :: es) }, visibility := 1 }, true) := by
      intro us es' k1 k2 k3 k4
      rw [loadSceneExtra_plain ov d g us es' k2 k3 k4, k1, ← k2, ← hgv]
    by_cases hnt : h.ent.note = []
    · rw [if_pos hnt] at hge
      by_cases hcont : FExtra.hasContent (⟨[], ts⟩ :: es) = true
      · rw [if_pos hcont] at hge
        exact hfin ts es (by simp [sceneExtraAfter, hnt, hcont]) hge hta hi
      · rw [if_neg hcont] at hge
        exact hfin [] [] (by simp [sceneExtraAfter, hnt, hcont, FExtra.newExtra]) hge (by simp [NoTaken]) (by simp)
    · rw [if_neg hnt] at hge
      exact hfin _ es (by simp [sceneExtraAfter, hnt]) hge (withTech_taken hta) hi
  · rw [if_neg hv, hx, onDefault_head, Option.bind_some]
    have hr : root = false := by cases root with | true => simp at hv | false => rfl
    subst hr
    have hle : h.visibility ≤ 1 / 2 := by simpa using hv
    have p2 : (ts.map (·.profile)).Nodup := (hs.2.2 _ (List.mem_cons_self ..)).2.1
    have p3 : ∀ x ∈ ts, SaveTech x := (hs.2.2 _ (List.mem_cons_self ..)).2.2
    obtain ⟨A, x, B, h1, h2, h3, h4, h5⟩ := withTech_split ts
    have hW := withTech_save p2 p3
    have hP := withTech_notes hno
    have hT := withTech_taken hta
    rw [h1] at hW hP hT
    rw [pushParam_split _ _ h4]
    have hb : (if h.visibility ≥ 1 / 2 then (1 : Int) else 0) = if decide (h.visibility ≥ 1 / 2) then 1 else 0 := by simp
    rw [hb]
    set b := decide (h.visibility ≥ 1 / 2) with hbd
    set y := addP (text "visibility") (intText (if b then 1 else 0)) x with hy
    have hm := mid_save (x := x) (y := y) rfl hW (addP_save _ _ vis_name.2 (intText_plain _) (hW.2 x (by simp)))
    have hns : NoNotes (A ++ y :: B) := by
      intro t m
      rcases List.mem_append.1 m with m | m
      · exact hP t (by simp [m])
      · rcases List.mem_cons.1 m with rfl | m
        · intro hpr c hc
          rw [addP_children] at hc
          rcases List.mem_append.1 hc with hc | hc
          · exact hP x (by simp) hpr c hc
          · rw [List.mem_singleton.1 hc, vis_name.1]
            simp [isNote, FExtra.Node.name, text_inj]
        · exact hP t (by simp [m])
    obtain ⟨ns, e', n1, n2, n3⟩ := note_load (A ++ y :: B) es h.ent.note (saveable_head hs _ hm.1 hm.2) hns hg.note
    have hwt : withTech (A ++ y :: B) = A ++ y :: B := by
      unfold withTech
      rw [if_pos (List.mem_map.2 ⟨y, by simp, h2⟩)]
    rw [hasContent_mid, if_pos rfl, hwt, ite_self] at n3
    refine ⟨ns, _, by rw [n1]; rfl, n2, n3, ?_⟩
    intro d g hge hgv
    rw [loadSceneExtra_vis ov d g A B x es b hge hT hi]
    have : sceneExtraAfter (decide (h.ent.note ≠ []) || (!false && decide (h.visibility ≤ 1 / 2))) (⟨[], ts⟩ :: es) = ⟨[], A ++ x :: B⟩ :: es := by
      rw [decide_eq_true hle]
      simp [sceneExtraAfter, h1]
    rw [this]
    simp

end Verif.FArc
