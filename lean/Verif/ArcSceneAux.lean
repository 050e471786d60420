import Verif.ArcSceneLemmas
import Verif.ArcMeshParts

/-! # Lemmas for the properties of scene nodes -/

namespace Verif.FArc

open Verif.FEff (Text text)
open Verif.FConv (Ov DateTime Formats shown)

/-! ## The asset -/

theorem leafless_sid (x n t : Text) : ¬ HasSid x (.elem n [] t []) := by rw [hasSid_iff]; simp

theorem textUnless_sid (x n t : Text) : ∀ k ∈ textUnless n t, ¬ HasSid x k := by
  unfold textUnless
  split
  · simp
  · intro k hk
    rw [List.mem_singleton.1 hk]
    exact leafless_sid x n _

theorem contributor_sid {ov : Ov} {c ks} (h : writeContributor ov c = some ks) (x : Text) : ∀ k ∈ ks, ¬ HasSid x k := by
  unfold writeContributor at h
  split at h
  · obtain rfl := Option.some.inj h; simp
  · obtain ⟨s, hs, rfl⟩ := Option.map_eq_some_iff.1 h
    intro k hk
    rw [List.mem_singleton.1 hk, hasSid_iff]
    rintro (h | ⟨j, hj, hx⟩)
    · simp at h
    · simp only [List.mem_append] at hj
      rcases hj with (((hj | hj) | hj) | hj) | hj
      · exact textUnless_sid x _ _ j hj hx
      · exact textUnless_sid x _ _ j hj hx
      · exact textUnless_sid x _ _ j hj hx
      · exact textUnless_sid x _ _ j hj hx
      · unfold writeSourceData at hs
        split at hs
        · obtain rfl := Option.some.inj hs; simp at hj
        · obtain ⟨u, -, rfl⟩ := Option.map_eq_some_iff.1 hs
          rw [List.mem_singleton.1 hj] at hx
          exact leafless_sid _ _ _ hx

theorem contributors_sid {ov : Ov} (x : Text) : ∀ (cs : List FEnt.Contributor) (ks : List Node), writeContributors ov cs = some ks → ∀ k ∈ ks, ¬ HasSid x k
  | [], ks, h => by obtain rfl := Option.some.inj h; simp
  | c :: cs, ks, h => by
    rw [writeContributors] at h
    obtain ⟨a, ha, h⟩ := Option.bind_eq_some_iff.1 h
    obtain ⟨b, hb, rfl⟩ := Option.map_eq_some_iff.1 h
    intro k hk
    rcases List.mem_append.1 hk with hk | hk
    · exact contributor_sid ha x k hk
    · exact contributors_sid x cs b hb k hk

theorem asset_sid {ov : Ov} {fmt now a r} (h : writeAsset ov fmt now a = some r) (x : Text) : ¬ HasSid x r.1 := by
  unfold writeAsset at h
  obtain ⟨cs, hc, rfl⟩ := Option.map_eq_some_iff.1 h
  rw [hasSid_iff]
  rintro (h | ⟨j, hj, hx⟩)
  · simp at h
  · simp only [List.mem_append, List.mem_singleton] at hj
    rcases hj with (((((((hj | hj) | hj) | hj) | hj) | hj) | hj) | hj) | hj
    · exact contributors_sid x _ _ hc j hj hx
    · rw [hj] at hx; exact leafless_sid _ _ _ hx
    · exact textUnless_sid x _ _ j hj hx
    · rw [hj] at hx; exact leafless_sid _ _ _ hx
    · exact textUnless_sid x _ _ j hj hx
    · exact textUnless_sid x _ _ j hj hx
    · exact textUnless_sid x _ _ j hj hx
    · unfold writeUnit at hj
      split at hj
      · rw [List.mem_singleton.1 hj, hasSid_iff] at hx
        simp [raw_cons, text_inj] at hx
      · simp at hj
    · unfold writeAxis at hj
      split at hj
      · rw [List.mem_singleton.1 hj] at hx; exact leafless_sid _ _ _ hx
      · simp at hj

/-- What is written for the asset, and how it is read back. -/
theorem entAsset_load (ov : Ov) {fmt rnd} (hf : Formats fmt rnd) (now now' : DateTime) (hn : GoodDate now) (s : Option QAsset) (h : ∀ a, s = some a → GoodAsset ov rnd a) :
    ∃ as e, writeEntAsset ov fmt now s = some (as, e) ∧ (∀ k ∈ as, k.name = text "asset" ∧ ∀ x, ¬ HasSid x k) ∧
      ∀ n attrs t rest, (∀ k ∈ rest, k.name ≠ text "asset") → loadEntAsset ov now' none (.elem n attrs t (as ++ rest)) = some (s.map (assetAfter ov rnd now)) := by
  have hfind : ∀ l : List Node, (∀ k ∈ l, k.name ≠ text "asset") → l.find? (fun c => decide (c.name = text "asset")) = none := by
    intro l hl
    rw [List.find?_eq_none]
    intro k hk
    simpa using hl k hk
  cases s with
  | none =>
    refine ⟨[], none, rfl, by simp, fun n attrs t rest hr => ?_⟩
    unfold loadEntAsset Node.child
    simp only [Node.kids, List.nil_append]
    rw [hfind _ hr]
    rfl
  | some a =>
    obtain ⟨k, k1, k2⟩ := asset_roundtrip_partial ov hf now now' a hn (h a rfl)
    have kn : k.name = text "asset" := by
      have := k1
      unfold writeAsset at this
      obtain ⟨cs, -, this⟩ := Option.map_eq_some_iff.1 this
      rw [← (Prod.mk.inj this).1]; rfl
    refine ⟨[k], _, by rw [writeEntAsset, k1]; rfl, ?_, fun n attrs t rest _ => ?_⟩
    · intro j hj
      rw [List.mem_singleton.1 hj]
      exact ⟨kn, fun x => asset_sid k1 x⟩
    · unfold loadEntAsset Node.child
      simp only [Node.kids, List.cons_append, List.find?_cons, kn, decide_true]
      simp only [Option.getD_none, k2, Option.map_some]
      rfl

/-! ## The attributes -/

theorem nodeAttrs_raw (root : Bool) (h : Head) (n t : Text) (ks : List Node) :
    (Node.elem n (nodeAttrs root h) t ks).raw (text "id") = some h.ent.id ∧
    (Node.elem n (nodeAttrs root h) t ks).raw (text "name") = (if h.ent.name = [] then none else some h.ent.name) ∧
    (Node.elem n (nodeAttrs root h) t ks).raw (text "sid") = (if root = true ∨ h.sid = [] then none else some h.sid) ∧
    (Node.elem n (nodeAttrs root h) t ks).raw (text "type") = (if root then none else some (if h.joint then text "JOINT" else text "NODE")) := by
  unfold nodeAttrs entAttrs
  by_cases h1 : h.ent.name = [] <;> by_cases h2 : h.sid = [] <;> cases root <;> simp [h1, h2, raw_cons, text_inj]

theorem plain_type (b : Bool) : Plain (if b then text "JOINT" else text "NODE") := by
  cases b <;> (unfold Plain FXml.IsChar; decide)

theorem givenSid_good {above : List Text} {t : Text} (h : FXml.ValidId false t) (hn : t ≠ [] → t ∉ above) : givenSid above t = some t := by
  unfold givenSid
  by_cases ht : t = []
  · rw [if_pos ht, ht]
  · rw [if_neg ht, clean_good h, Option.bind_some, FLib.subLoop, Option.bind_some]
    simp [ht, hn ht]

/-- The head of a node is read back. -/
theorem loadNodeHead_elem (ov : Ov) {rnd} (now' : DateTime) (root : Bool) (above : List Text) (h : Head) (hg : GoodHead ov rnd h) (ha : root = false → h.sid ≠ [] → h.sid ∉ above) (n : Text)
    (as rest ns : List Node) (e : FExtra.Extra) (asset : Option QAsset)
    (h1 : loadEntAsset ov now' none (.elem n (nodeAttrs root h) [] (as ++ (rest ++ ns))) = some asset) (h2 : ∀ k ∈ as ++ rest, k.name ≠ text "extra") (h3 : ∀ k ∈ ns, k.name = text "extra")
    (h4 : ns.foldlM loadEntExtra (FExtra.newExtra, []) = some (e, h.ent.note)) :
    loadNodeHead ov now' above (.elem n (nodeAttrs root h) [] (as ++ (rest ++ ns))) =
      some { ent := { id := h.ent.id, name := nameAfter h.ent.id h.ent.name, note := h.ent.note, asset := asset, extra := e },
             sid := if root then [] else h.sid, joint := !root && h.joint } := by
  obtain ⟨r1, r2, r3, r4⟩ := nodeAttrs_raw root h n [] (as ++ (rest ++ ns))
  have hid : prop (some (.elem n (nodeAttrs root h) [] (as ++ (rest ++ ns)))) (text "id") = some h.ent.id := by
    simp only [prop, Option.bind_some, r1, decode_plain hg.id]
  have hname : prop (some (.elem n (nodeAttrs root h) [] (as ++ (rest ++ ns)))) (text "name") = some h.ent.name := by
    unfold prop
    rw [Option.bind_some, r2]
    by_cases hn : h.ent.name = []
    · simp [hn]
    · simp [hn, decode_plain (valid_plain hg.name)]
  have hsid : prop (some (.elem n (nodeAttrs root h) [] (as ++ (rest ++ ns)))) (text "sid") = some (if root then [] else h.sid) := by
    unfold prop
    rw [Option.bind_some, r3]
    cases root
    · by_cases hn : h.sid = []
      · simp [hn]
      · simp [hn, decode_plain (valid_plain hg.sid)]
    · simp
  have htype : prop (some (.elem n (nodeAttrs root h) [] (as ++ (rest ++ ns)))) (text "type") = some (if root then [] else if h.joint then text "JOINT" else text "NODE") := by
    unfold prop
    rw [Option.bind_some, r4]
    cases root
    · simp [decode_plain (plain_type h.joint)]
    · simp
  have hch : (Node.elem n (nodeAttrs root h) [] (as ++ (rest ++ ns))).children (text "extra") = ns := by
    unfold Node.children
    simp only [Node.kids]
    rw [← List.append_assoc, List.filter_append]
    have e1 : (as ++ rest).filter (fun c => decide (c.name = text "extra")) = [] := by
      rw [List.filter_eq_nil_iff]; intro k hk; simpa using h2 k hk
    have e3 : ns.filter (fun c => decide (c.name = text "extra")) = ns := by
      rw [List.filter_eq_self]; intro k hk; simp [h3 k hk]
    rw [e1, e3]; rfl
  have hgs : givenSid above (if root then [] else h.sid) = some (if root then [] else h.sid) := by
    cases root
    · exact givenSid_good hg.sid (ha rfl)
    · rfl
  have hj : decide ((if root then [] else if h.joint then text "JOINT" else text "NODE") = text "JOINT") = (!root && h.joint) := by
    cases root <;> cases h.joint <;> decide +kernel
  unfold loadNodeHead loadEnt
  rw [hid, Option.bind_some, hname, Option.bind_some, givenName_good hg.id hg.name, Option.bind_some, h1, Option.bind_some, hch, h4, Option.map_some, Option.bind_some, hsid, Option.bind_some, hgs, Option.bind_some, htype, Option.map_some, hj]

/-- The start of the element of a node. -/
theorem openNode_load (ov : Ov) {fmt rnd} (hf : Formats fmt rnd) (now now' : DateTime) (hn : GoodDate now) (root : Bool) (h : Head) (hg : GoodHead ov rnd h) :
    ∃ as ks, openNode ov fmt now root h = some (.elem (if root then text "visual_scene" else text "node") (nodeAttrs root h) [] (as ++ ks)) ∧
      (∀ k ∈ as, k.name = text "asset") ∧ List.Forall₂ (fun (x : Trans × Text) k => Wrote fmt x.1 x.2 k) h.trans ks ∧
      ∀ rest, (∀ k ∈ rest, k.name ≠ text "asset") → ∀ n attrs t, loadEntAsset ov now' none (.elem n attrs t (as ++ rest)) = some (h.ent.asset.map (assetAfter ov rnd now)) := by
  obtain ⟨as, e, a1, a2, a3⟩ := entAsset_load ov hf now now' hn h.ent.asset hg.asset
  set n := if root then text "visual_scene" else text "node" with hnn
  obtain ⟨r1, -, r3, -⟩ := nodeAttrs_raw root h n [] as
  have hsid : ∀ x, HasSid x (.elem n (nodeAttrs root h) [] as) → x = h.sid ∧ h.sid ≠ [] := by
    intro x hx
    rw [hasSid_iff, r3] at hx
    rcases hx with hx | ⟨k, hk, hx⟩
    · by_cases hc : root = true ∨ h.sid = []
      · rw [if_pos hc] at hx; exact absurd hx (by simp)
      · rw [if_neg hc] at hx
        exact ⟨(Option.some.inj hx).symm, fun e => hc (.inr e)⟩
    · exact absurd hx ((a2 k hk).2 x)
  obtain ⟨ks, sids, w1, -, w3, -, -, -, w7⟩ := writeTransforms_spec hf h.trans (.elem n (nodeAttrs root h) [] as) (by simp [Node.has, r1])
    (fun x hx => by rw [(hsid x hx).1]; exact valid_plain hg.sid) (fun t ht => (hg.trans t ht).2)
  have hs := w7 hg.sids (fun t ht hx => hg.other (hsid _ hx).2 (by rw [← (hsid _ hx).1]; exact List.mem_map_of_mem ht))
  have hz : (h.trans.map (·.1)).zip sids = h.trans := by
    rw [hs]
    clear w7 w3 w1 hs hsid
    generalize h.trans = l
    induction l with
    | nil => rfl
    | cons t l ih => simp only [List.map_cons, List.zip_cons_cons, ih]
  rw [hz] at w3
  refine ⟨as, ks, ?_, fun k hk => (a2 k hk).1, w3, fun rest hr n attrs t => a3 n attrs t rest hr⟩
  unfold openNode
  rw [a1, Option.bind_some, ← hnn, w1]
  rfl

/-! ## The tree -/

theorem wrote_names {fmt} : ∀ {xs : List (Trans × Text)} {ks : List Node}, List.Forall₂ (fun (x : Trans × Text) k => Wrote fmt x.1 x.2 k) xs ks → ∀ k ∈ ks, k.name ∈ transNames
  | _, _, .nil, k, hk => by simp at hk
  | x :: _, _, .cons h hs, k, hk => by
    rcases List.mem_cons.1 hk with rfl | hk
    · rw [h.eq]
      cases x.1 <;> simp [Node.name, transName, transNames]
    · exact wrote_names hs k hk

mutual
theorem tree_load (ov : Ov) (len : V3 → ℚ) {fmt rnd} (hf : Formats fmt rnd) (now now' : DateTime) (hn : GoodDate now) : ∀ (s : SNode) (root : Bool) (above path : List Text) (d : Doc),
    GoodTree ov rnd root above s →
    ∃ n, writeSNode ov fmt now root s = some n ∧ n.name = (if root then text "visual_scene" else text "node") ∧
      loadSNode ov len now' above path d n = some (after ov rnd len now root path d.seen s, { d with seen := s.ids.reverse ++ d.seen }, true)
  | .link t, _, _, _, _, h => nomatch h
  | .own h ks, root, above, path, d, hg => by
    obtain ⟨g1, g2, g3, g4, g5⟩ : GoodHead ov rnd h ∧ (root = false → h.sid ≠ [] → h.sid ∉ above) ∧ (linksOf ks).Nodup ∧ (∀ t ∈ linksOf ks, GoodLink t) ∧
        GoodTrees ov rnd ((if root then [] else h.sid) :: above) ks := by
      cases hg with | own a b c d e => exact ⟨a, b, c, d, e⟩
    obtain ⟨as, ts, o1, o2, o3, o4⟩ := openNode_load ov hf now now' hn root h g1
    obtain ⟨ns, e, x1, x2, x3, x4⟩ := sceneExtra_load ov root h g1
    obtain ⟨os, w1, w2, w3⟩ := trees_load ov len hf now now' hn ks ((if root then [] else h.sid) :: above) (h.ent.id :: path) g5
    set n := if root then text "visual_scene" else text "node" with hnn
    set rest := ts ++ h.insts ++ (linksOf ks).map linkElem ++ os with hrest
    have htn := wrote_names o3
    have hr : ∀ k ∈ rest, k.name ≠ text "asset" ∧ k.name ≠ text "extra" := by
      intro k hk
      simp only [hrest, List.mem_append, List.mem_map] at hk
      rcases hk with ((hk | hk) | ⟨t, -, rfl⟩) | hk
      · have := htn k hk
        simp only [transNames, List.mem_cons, List.not_mem_nil, or_false] at this
        rcases this with e | e | e | e | e | e <;> rw [e] <;> simp [text_inj]
      · have := g1.insts k hk
        simp only [List.mem_cons, List.not_mem_nil, or_false] at this
        rcases this with e | e | e | e | e <;> rw [e] <;> simp [text_inj]
      · simp [linkElem, Node.name, text_inj]
      · rw [w2 k hk]; simp [text_inj]
    refine ⟨.elem n (nodeAttrs root h) [] (as ++ (rest ++ ns)), ?_, rfl, ?_⟩
    · rw [writeSNode, o1, Option.bind_some, writeLinks_eq ov ks g4, Option.bind_some, w1, Option.bind_some, x1, Option.map_some]
      simp [hrest, Node.name, Node.attrs, Node.direct, Node.kids]
    · have hhead := loadNodeHead_elem ov now' root above h g1 g2 n as rest ns e _ (o4 (rest ++ ns) (by
        intro k hk
        rcases List.mem_append.1 hk with hk | hk
        · exact (hr k hk).1
        · rw [x2 k hk]; simp [text_inj]) _ _ _) (by
        intro k hk
        rcases List.mem_append.1 hk with hk | hk
        · rw [o2 k hk]; simp [text_inj]
        · exact (hr k hk).2) x2 x3
      rw [loadSNode, hhead, Option.bind_some]
      simp only
      have hsplit : as ++ (rest ++ ns) = (as ++ ts ++ h.insts ++ (linksOf ks).map linkElem) ++ (os ++ ns) := by simp [hrest]
      have hne : ∀ k ∈ as ++ ts ++ h.insts ++ (linksOf ks).map linkElem, k.name ≠ text "node" := by
        intro k hk
        simp only [List.mem_append, List.mem_map] at hk
        rcases hk with ((hk | hk) | hk) | ⟨t, -, rfl⟩
        · rw [o2 k hk]; simp [text_inj]
        · have := htn k hk
          simp only [transNames, List.mem_cons, List.not_mem_nil, or_false] at this
          rcases this with e | e | e | e | e | e <;> rw [e] <;> simp [text_inj]
        · have := g1.insts k hk
          simp only [List.mem_cons, List.not_mem_nil, or_false] at this
          rcases this with e | e | e | e | e <;> rw [e] <;> simp [text_inj]
        · simp [linkElem, Node.name, text_inj]
      rw [hsplit, loadSKids_others _ _ _ _ _ _ _ _ hne, List.foldlM_append, List.foldlM_append, List.foldlM_append, loadOthers_skip ov len _ as _ fun k hk => .inl (o2 k hk)]
      simp only [Option.bind_eq_bind, Option.bind_some]
      rw [loadOthers_trans ov len _ hf h.trans ts o3 fun x hx => ⟨(g1.trans x hx).1, (g1.trans x hx).2.1⟩, Option.bind_some, loadOthers_insts ov len _ _ _ g1.insts, Option.bind_some,
        loadLinks_eq ov len _ _ _ g3 g4 (by simp), Option.bind_some, w3 _ _ rfl]
      have hns := loadSKids_others ov len now' ((if root then [] else h.sid) :: above) (h.ent.id :: path) [] ns
      simp only [List.append_nil] at hns
      rw [hns _ fun k hk => by rw [x2 k hk]; simp [text_inj], loadOthers_skip ov len _ ns _ fun k hk => .inr (x2 k hk), Option.bind_some, loadSKids, Option.bind_some]
      simp only [List.nil_append]
      rw [x4 _ _ rfl rfl, Option.map_some]
      have hfil : (linksOf ks).filter (fun t => decide (t ∈ h.ent.id :: d.seen ∧ t ∉ h.ent.id :: path)) = (linksOf ks).filter fun t => decide (t ∈ d.seen ∧ t ≠ h.ent.id ∧ t ∉ path) := by
        apply List.filter_congr
        intro t _
        by_cases e : t = h.ent.id <;> simp [e]
      rw [hfil]
      simp [after, shownHead, SNode.ids]
theorem trees_load (ov : Ov) (len : V3 → ℚ) {fmt rnd} (hf : Formats fmt rnd) (now now' : DateTime) (hn : GoodDate now) : ∀ (ks : List SNode) (above path : List Text),
    GoodTrees ov rnd above ks →
    ∃ os, writeOwns ov fmt now ks = some os ∧ (∀ k ∈ os, k.name = text "node") ∧ ∀ (a : Acc) (ys : List Node), a.ok = true →
      loadSKids ov len now' above path a (os ++ ys) = loadSKids ov len now' above path
        { a with kids := a.kids ++ afterAll ov rnd len now path a.doc.seen ks, doc := { a.doc with seen := (SNode.ids.idsAll ks).reverse ++ a.doc.seen } } ys
  | [], _, _, _ => ⟨[], rfl, by simp, fun a ys _ => by simp [afterAll, SNode.ids.idsAll]⟩
  | .link t :: ks, above, path, hg => by
    obtain ⟨os, w1, w2, w3⟩ := trees_load ov len hf now now' hn ks above path (by cases hg with | link h => exact h)
    refine ⟨os, by rw [writeOwns]; exact w1, w2, fun a ys ha => ?_⟩
    rw [w3 a ys ha, afterAll, SNode.ids.idsAll, SNode.ids, List.nil_append]
  | .own h js :: ks, above, path, hg => by
    obtain ⟨g1, g2⟩ : GoodTree ov rnd false above (.own h js) ∧ GoodTrees ov rnd above ks := by cases hg with | own a b => exact ⟨a, b⟩
    obtain ⟨os, w1, w2, w3⟩ := trees_load ov len hf now now' hn ks above path g2
    have ht := fun d => tree_load ov len hf now now' hn (.own h js) false above path d g1
    obtain ⟨n, t1, t2, -⟩ := ht {}
    refine ⟨n :: os, by rw [writeOwns, t1, Option.bind_some, w1]; rfl, ?_, fun a ys ha => ?_⟩
    · intro k hk
      rcases List.mem_cons.1 hk with rfl | hk
      · exact t2
      · exact w2 k hk
    · obtain ⟨n', u1, -, u3⟩ := ht a.doc
      rw [t1] at u1
      obtain rfl := Option.some.inj u1
      rw [List.cons_append, loadSKids, if_pos (show n.name = text "node" from t2), u3, Option.bind_some]
      simp only [if_true]
      rw [w3 _ _ rfl, afterAll, SNode.ids.idsAll]
      simp [ha]
end

mutual
theorem after_back (ov : Ov) (rnd : ℚ → ℚ) (len : V3 → ℚ) (now : DateTime) : ∀ (s : SNode) (root : Bool) (path before : List Text), LinksBack path before s →
    after ov rnd len now root path before s = linksFirst ov rnd len now root s
  | .link _, _, _, _, _ => rfl
  | .own h ks, root, path, before, hb => by
    rw [LinksBack] at hb
    rw [after, linksFirst, List.filter_eq_self.2 (fun t ht => by simpa using hb.1 t ht), afterAll_back ov rnd len now ks _ _ hb.2]
theorem afterAll_back (ov : Ov) (rnd : ℚ → ℚ) (len : V3 → ℚ) (now : DateTime) : ∀ (ks : List SNode) (path before : List Text), LinksBackAll path before ks →
    afterAll ov rnd len now path before ks = linksFirstAll ov rnd len now ks
  | [], _, _, _ => rfl
  | .link _ :: ks, path, before, hb => by
    rw [LinksBackAll, SNode.ids, List.reverse_nil, List.nil_append] at hb
    rw [afterAll, linksFirstAll, afterAll_back ov rnd len now ks _ _ hb.2]
  | .own h js :: ks, path, before, hb => by
    rw [LinksBackAll] at hb
    rw [afterAll, linksFirstAll, after_back ov rnd len now (.own h js) _ _ _ hb.1, afterAll_back ov rnd len now ks _ _ hb.2]
end

/-- A node with an id, and a visibility. -/
def idHead (t : Text) (v : ℚ) : Head := { ent := { id := t }, sid := t, visibility := v, trans := [(.translation (2, 2, 2), text "t")] }

theorem goodHead_id (ov : Ov) (rnd : ℚ → ℚ) (t : Text) (v : ℚ) (h1 : ∀ c ∈ t, (1 ≤ c ∧ c ≤ 127) ∧ c ≠ 37) (h2 : FXml.ValidId false t) (h3 : t ≠ text "t") : GoodHead ov rnd (idHead t v) := by
  have ht : GoodSid (text "t") := ⟨⟨by decide +kernel, by decide +kernel, by decide +kernel⟩, by decide +kernel⟩
  refine ⟨hplain _ h1, trivial, plain_nil, by simp [idHead], ⟨⟨_, rfl, rfl⟩, by simp [idHead, FExtra.newExtra], ?_⟩, ⟨?_, ?_⟩, h2, ?_, (show ([text "t"].filter (· ≠ [])).Nodup by decide +kernel), ?_, by simp [idHead]⟩
  · intro t ht
    simp only [idHead, FExtra.newExtra, List.mem_cons, List.not_mem_nil, or_false] at ht
    subst ht
    exact ⟨plain_nil, by simp, by simp⟩
  · intro t ht
    simp only [idHead, FExtra.newExtra, List.mem_cons, List.not_mem_nil, or_false] at ht
    subst ht
    exact (show ([] : Text) ≠ text "instances" by decide +kernel)
  · intro t ht _ x hx
    simp only [idHead, FExtra.newExtra, List.mem_cons, List.not_mem_nil, or_false] at ht
    subst ht
    simp at hx
  · intro x hx
    simp only [idHead, List.mem_cons, List.not_mem_nil, or_false] at hx
    subst hx
    exact ⟨trivial, ht⟩
  · intro _
    simpa [idHead] using h3

end Verif.FArc
