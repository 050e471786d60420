import Verif.ArcInstSpec
import Verif.ArcDocParts
import Verif.ArcPolyHead

/-! # Lemmas for the properties of saved and loaded instances -/

namespace Verif.FArc

open Verif.FEff (Text text)
open Verif.FConv (Ov)
open Verif.Enum (GeometryInput)

/-! ## Extra trees that are loaded twice -/

theorem findIdx_mid {α β : Type} [DecidableEq β] (f : α → β) (pre suf : List α) (x : α) (h : f x ∉ pre.map f) : (pre ++ x :: suf).findIdx? (fun y => decide (f y = f x)) = some pre.length := by
  induction pre with
  | nil => simp [List.findIdx?_cons]
  | cons a pre ih =>
    have h1 : f a ≠ f x := fun e => h (by simp [e])
    rw [List.cons_append, List.findIdx?_cons, if_neg (by simpa using h1), ih fun hm => h (by simp at hm ⊢; exact Or.inr hm)]
    rfl

theorem set_mid {α : Type} (l r : List α) (x y : α) : (l ++ x :: r).set l.length y = l ++ y :: r := by
  induction l with
  | nil => rfl
  | cons a l ih => simp

theorem loadTechs_twice : ∀ (ts pre : List FExtra.Tech), ((pre ++ ts).map (·.profile)).Nodup → (∀ t ∈ ts, SaveTech t) →
    (ts.map techElem).foldlM loadTech (pre ++ ts) = some (pre ++ ts.map twiceTech)
  | [], pre, _, _ => by simp
  | t :: ts, pre, hd, hs => by
    have hnot : t.profile ∉ pre.map (·.profile) := by
      rw [List.map_append, List.nodup_append] at hd
      intro hm
      exact hd.2.2 _ hm _ (by simp) rfl
    obtain ⟨s1, s2, s3⟩ := hs t (by simp)
    have : loadTech (pre ++ t :: ts) (techElem t) = some (pre ++ twiceTech t :: ts) := by
      unfold loadTech
      have hk : loadENodes (techElem t).kids = some t.node.children := loadENodes_write _ s3
      have ha : FExtra.addTechnique (pre ++ t :: ts) t.profile = (pre ++ t :: ts, pre.length) := by
        unfold FExtra.addTechnique FExtra.findTechnique
        rw [findIdx_mid (fun x : FExtra.Tech => x.profile) pre ts t hnot]
      rw [prop_tech t s1, Option.bind_some, hk, Option.map_some]
      simp only
      rw [ha]
      simp only
      rw [modify_mid]
      congr 3
      unfold twiceTech
      rw [s2]
      rfl
    rw [List.map_cons, List.foldlM_cons, this]
    show List.foldlM loadTech (pre ++ twiceTech t :: ts) (ts.map techElem) = _
    have := loadTechs_twice ts (pre ++ [twiceTech t]) (by simpa [twiceTech] using hd) fun x hx => hs x (List.mem_cons_of_mem _ hx)
    rw [List.append_assoc, List.singleton_append] at this
    rw [this, List.append_assoc, List.singleton_append, List.map_cons]

theorem loadExtra_twice (pre suf : FExtra.Extra) (t : FExtra.EType) (hp : Plain t.name) (hn : t.name ∉ pre.map (·.name)) (hd : (t.techs.map (·.profile)).Nodup) (hs : ∀ x ∈ t.techs, SaveTech x) :
    loadExtra (pre ++ t :: suf) (typeElem t) = some (pre ++ { t with techs := t.techs.map twiceTech } :: suf) := by
  unfold loadExtra typeFor
  rw [if_pos (typeElem_name t), prop_type t hp, Option.map_some, Option.bind_some]
  have ha : FExtra.addType (pre ++ t :: suf) t.name = (pre ++ t :: suf, pre.length) := by
    unfold FExtra.addType FExtra.findType
    rw [findIdx_mid (fun x : FExtra.EType => x.name) pre suf t hn]
  have hl : loadType t.techs (typeElem t) = some (t.techs.map twiceTech) := by
    unfold loadType typeElem
    rw [children_techs]
    exact loadTechs_twice t.techs [] hd hs
  simp only [ha]
  rw [List.getElem?_append_right (Nat.le_refl _)]
  simp only [Nat.sub_self, List.getElem?_cons_zero, Option.bind_some, hl, Option.map_some]
  rw [set_mid]

theorem loadExtras_twice : ∀ (es pre : FExtra.Extra), ((pre ++ es).map (·.name)).Nodup → (∀ t ∈ es, Plain t.name ∧ (t.techs.map (·.profile)).Nodup ∧ ∀ x ∈ t.techs, SaveTech x) →
    loadExtras (pre ++ es) (es.filterMap writeType) = some (pre ++ twice es)
  | [], pre, _, _ => by simp [loadExtras, twice]
  | t :: es, pre, hd, hs => by
    obtain ⟨p1, p2, p3⟩ := hs t (by simp)
    have hnot : t.name ∉ pre.map (·.name) := by
      rw [List.map_append, List.nodup_append] at hd
      intro hm
      exact hd.2.2 _ hm _ (by simp) rfl
    have ih := loadExtras_twice es (pre ++ [{ t with techs := t.techs.map twiceTech }]) (by simpa using hd) fun x hx => hs x (List.mem_cons_of_mem _ hx)
    rw [List.append_assoc, List.singleton_append, List.append_assoc, List.singleton_append] at ih
    rw [List.filterMap_cons, writeType_eq t p2 p3]
    by_cases h : t.name = [] ∧ t.techs = []
    · rw [if_pos h]
      have e : ({ t with techs := t.techs.map twiceTech } : FExtra.EType) = t := by
        obtain ⟨n, ts⟩ := t
        obtain ⟨rfl, rfl⟩ := h
        rfl
      rw [e] at ih
      simp only
      rw [ih]
      show _ = some (pre ++ { t with techs := t.techs.map twiceTech } :: twice es)
      rw [e]
    · rw [if_neg h]
      simp only
      unfold loadExtras
      rw [List.foldlM_cons, loadExtra_twice pre es t p1 hnot p2 p3]
      exact ih

theorem extra_twice {e : FExtra.Extra} (h : e = FExtra.newExtra ∨ Saveable e ∧ FExtra.hasContent e = true) : loadExtras FExtra.newExtra (writeExtra e ++ writeExtra e) = some (twice e) := by
  have h1 := extra_back h
  unfold loadExtras at h1 ⊢
  rw [List.foldlM_append, h1]
  show loadExtras e (writeExtra e) = _
  rcases h with rfl | ⟨⟨-, hd, hs⟩, hc⟩
  · rfl
  · unfold writeExtra
    rw [if_pos hc]
    exact loadExtras_twice e [] hd hs

/-! ## Identifiers -/

theorem nameChar_dot {c : Int} (h : FXml.nameChar true c = true) : (FXml.IsChar c ∧ c ≠ 37) ∧ c ≠ 63 ∧ c ≠ 92 ∧ FXml.contentOk c = true := by
  unfold FXml.nameChar FXml.letter at h
  simp only [Bool.or_eq_true, Bool.and_eq_true, decide_eq_true_eq, beq_iff_eq, Bool.true_and] at h
  refine ⟨⟨?_, ?_⟩, ?_, ?_, ?_⟩
  · unfold FXml.IsChar; omega
  · omega
  · omega
  · omega
  · have h1 : 32 ≤ c ∧ c ≤ 125 := by omega
    have h2 : ¬ (c = 34 ∨ c = 39 ∨ c = 60 ∨ c = 62 ∨ c = 64 ∨ c = 92 ∨ c = 94 ∨ c = 96) := by omega
    unfold FXml.contentOk
    simp only [Bool.or_eq_true, Bool.and_eq_true, decide_eq_true_eq, beq_iff_eq, Bool.not_eq_true', List.contains_eq_mem, decide_eq_false_iff_not, List.mem_cons, List.not_mem_nil, or_false]
    exact Or.inr ⟨h1, h2⟩

theorem startChar_name {c : Int} (h : FXml.startChar c = true) : FXml.nameChar true c = true := by
  unfold FXml.startChar at h
  unfold FXml.nameChar
  simp only [Bool.or_eq_true] at h ⊢
  rcases h with h | h
  · exact Or.inl (Or.inl (Or.inl (Or.inl h)))
  · exact Or.inl (Or.inl (Or.inr h))

theorem valid_chars {t : Text} (h : FXml.ValidId true t) : ∀ c ∈ t, FXml.nameChar true c = true := by
  cases t with
  | nil => simp
  | cons c t =>
    intro x hx
    rcases List.mem_cons.1 hx with rfl | hx
    · exact startChar_name h.1
    · exact h.2.1 x hx

theorem id_plain {t : Text} (h : FXml.ValidId true t) : Plain t := fun c hc => (nameChar_dot (valid_chars h c hc)).1

theorem id_link {t : Text} (h : FXml.ValidId true t) : 63 ∉ t ∧ 92 ∉ t :=
  ⟨fun hm => (nameChar_dot (valid_chars h _ hm)).2.1 rfl, fun hm => (nameChar_dot (valid_chars h _ hm)).2.2.1 rfl⟩

theorem id_clean {t : Text} (h : FXml.ValidId true t) : FIds.cleanId t = some t := by
  rw [FIds.cleanId_eq t fun hm => absurd (id_plain h 0 hm).1 (by unfold FXml.IsChar; decide), (FXml.clean_valid true t).2.1 h]

theorem ref_back (ov : Ov) (stack : List FUri.Uri) {t : Text} (h : FXml.ValidId true t) : refText ov stack t = some (35 :: t) ∧ ∃ u, FUri.parse ov (35 :: t) = some u ∧ u.fragment = t := by
  obtain ⟨u, h1, h2, h3, -⟩ := parse_local ov (id_link h).1 (id_link h).2
  refine ⟨?_, u, h1, h3⟩
  unfold refText
  rw [h1, Option.bind_some, FPath.cleanUri, if_pos h2, h3]

theorem ref_plain {t : Text} (h : FXml.ValidId true t) : Plain (35 :: t) := plain_cons (by unfold FXml.IsChar; decide) (id_plain h)

/-! ## The attributes -/

theorem raw_base (b : IBase) (n t : Text) (as : List (Text × Text)) (ks : List Node) (a : Text) :
    (Node.elem n (baseAttrs b ++ as) t ks).raw a = if a = text "sid" ∧ b.sid ≠ [] then some b.sid else if a = text "name" ∧ b.name ≠ [] then some b.name else (Node.elem n as t ks).raw a := by
  unfold baseAttrs
  by_cases h1 : b.sid = [] <;> by_cases h2 : b.name = [] <;> simp [h1, h2, raw_cons, eq_comm]

theorem prop_raw {n : Node} {a t : Text} (h : n.raw a = some t) (hp : Plain t) : prop (some n) a = some t := by
  unfold prop
  rw [Option.bind_some, h]
  exact decode_plain hp

theorem prop_absent {n : Node} {a : Text} (h : n.raw a = none) : prop (some n) a = some [] := by
  unfold prop
  rw [Option.bind_some, h]

/-- The shared part of loading: the element has the attributes of the instance and an address. -/
theorem inst_back (ov : Ov) {b : IBase} (h : GoodBase b) (n : Text) (as : List (Text × Text)) (ks : List Node) (e : FExtra.Extra)
    (hu : (Node.elem n as [] ks).raw (text "url") = some (35 :: b.id)) (hsid : (Node.elem n as [] ks).raw (text "sid") = none) (hname : (Node.elem n as [] ks).raw (text "name") = none)
    (he : loadExtras FExtra.newExtra ((Node.elem n (baseAttrs b ++ as) [] ks).children (text "extra")) = some e) :
    loadInst ov (.elem n (baseAttrs b ++ as) [] ks) = some { b with extra := e } := by
  obtain ⟨-, u, hp, hf⟩ := ref_back ov [] h.id
  have p1 : prop (some (.elem n (baseAttrs b ++ as) [] ks)) (text "url") = some (35 :: b.id) := by
    refine prop_raw ?_ (ref_plain h.id)
    rw [raw_base, if_neg (by rw [text_inj]; intro hh; exact absurd hh.1 (by decide)), if_neg (by rw [text_inj]; intro hh; exact absurd hh.1 (by decide)), hu]
  have p2 : prop (some (.elem n (baseAttrs b ++ as) [] ks)) (text "sid") = some b.sid := by
    by_cases hs : b.sid = []
    · rw [hs]
      refine prop_absent ?_
      rw [raw_base, if_neg (fun hh => hh.2 hs), if_neg (by rw [text_inj]; intro hh; exact absurd hh.1 (by decide)), hsid]
    · exact prop_raw (by rw [raw_base, if_pos ⟨rfl, hs⟩]) h.sid
  have p3 : prop (some (.elem n (baseAttrs b ++ as) [] ks)) (text "name") = some b.name := by
    have hx : ¬ (text "name" = text "sid" ∧ b.sid ≠ []) := by rw [text_inj]; intro hh; exact absurd hh.1 (by decide)
    by_cases hs : b.name = []
    · rw [hs]
      refine prop_absent ?_
      rw [raw_base, if_neg hx, if_neg (fun hh => hh.2 hs), hname]
    · exact prop_raw (by rw [raw_base, if_neg hx, if_pos ⟨rfl, hs⟩]) (valid_plain h.name)
  unfold loadInst
  rw [p1, Option.bind_some, hp, Option.bind_some, hf, id_clean h.id, Option.bind_some, p2, Option.bind_some, p3, Option.bind_some, clean_good h.name, Option.bind_some, he, Option.map_some]

/-! ## Children by name -/

theorem children_all {n t a : Text} {as : List (Text × Text)} {ks : List Node} (h : ∀ k ∈ ks, k.name = a) : (Node.elem n as t ks).children a = ks := by
  unfold Node.children
  exact List.filter_eq_self.2 fun k hk => by simpa using h k hk

theorem children_other {n t a : Text} {as : List (Text × Text)} {ks : List Node} (h : ∀ k ∈ ks, k.name ≠ a) : (Node.elem n as t ks).children a = [] := by
  unfold Node.children
  exact List.filter_eq_nil_iff.2 fun k hk => by simpa using h k hk

theorem child_other {n t a : Text} {as : List (Text × Text)} {ks : List Node} (h : ∀ k ∈ ks, k.name ≠ a) : (Node.elem n as t ks).child a = none := by
  unfold Node.child
  exact List.find?_eq_none.2 fun k hk => by simpa using h k hk

theorem extra_named {e : FExtra.Extra} {n : Node} (h : n ∈ writeExtra e) : n.name = text "extra" := (writeExtra_elem h).1

theorem mapM_back {α : Type} {f : Node → Option α} {g : α → Node} : ∀ (l : List α), (∀ x ∈ l, f (g x) = some x) → (l.map g).mapM f = some l
  | [], _ => rfl
  | x :: l, h => by
    rw [List.map_cons, List.mapM_cons, h x (by simp)]
    simp only [Option.bind_eq_bind, Option.bind_some]
    rw [mapM_back l fun y hy => h y (List.mem_cons_of_mem _ hy)]
    rfl

/-! ## Instances of materials -/

theorem bind_back {x : Text × Text} (h : Plain x.1 ∧ Plain x.2) : loadBind (bindNode x) = some x := by
  unfold loadBind
  rw [prop_raw (t := x.1) (by simp [bindNode, raw_cons]) h.1, Option.bind_some, prop_raw (t := x.2) (by simp [bindNode, raw_cons, text_inj]) h.2]
  rfl

theorem vertexBind_back (ov : Ov) {x : Text × GeometryInput × Int} (h : Plain x.1 ∧ x.2.1 ≠ .unknown ∧ x.2.2.natAbs + 48 < 2 ^ 31) : loadVertexBind ov (vertexBind x) = some x := by
  unfold loadVertexBind
  rw [prop_raw (t := intText x.2.2) (by simp [vertexBind, raw_cons, text_inj]) (intText_plain _), Option.bind_some,
    prop_raw (t := text x.2.1.toString) (by simp [vertexBind, raw_cons, text_inj]) (semantic_plain _), Option.bind_some,
    prop_raw (t := x.1) (by simp [vertexBind, raw_cons]) h.1, Option.bind_some, readInt_intText ov _ h.2.2, Option.map_some, semanticOf_eq _ h.2.1]

/-- The element of an instance of a material. -/
def matElem (m : MatInst) : Node :=
  .elem (text "instance_material") (baseAttrs m.base ++ [(text "symbol", m.symbol), (text "target", 35 :: m.base.id)]) [] (m.binds.map bindNode ++ m.inputs.map vertexBind ++ writeExtra m.base.extra)

theorem writeMat_eq (ov : Ov) (stack : List FUri.Uri) {m : MatInst} (h : GoodMat m) : writeMat ov stack m = some (matElem m) := by
  unfold writeMat
  rw [(ref_back ov stack h.base.id).1]
  rfl

theorem writeMats_eq (ov : Ov) (stack : List FUri.Uri) : ∀ ms : List MatInst, (∀ m ∈ ms, GoodMat m) → writeMats ov stack ms = some (ms.map matElem)
  | [], _ => rfl
  | m :: ms, h => by rw [writeMats, writeMat_eq ov stack (h m (by simp)), Option.bind_some, writeMats_eq ov stack ms fun x hx => h x (List.mem_cons_of_mem _ hx), Option.map_some, List.map_cons]

theorem mat_kids (m : MatInst) (n t : Text) (as : List (Text × Text)) :
    (Node.elem n as t (m.binds.map bindNode ++ m.inputs.map vertexBind ++ writeExtra m.base.extra)).children (text "bind") = m.binds.map bindNode ∧
    (Node.elem n as t (m.binds.map bindNode ++ m.inputs.map vertexBind ++ writeExtra m.base.extra)).children (text "bind_vertex_input") = m.inputs.map vertexBind ∧
    (Node.elem n as t (m.binds.map bindNode ++ m.inputs.map vertexBind ++ writeExtra m.base.extra)).children (text "extra") = writeExtra m.base.extra := by
  have hb : ∀ k ∈ m.binds.map bindNode, k.name = text "bind" := by
    intro k hk
    obtain ⟨x, -, rfl⟩ := List.mem_map.1 hk
    rfl
  have hv : ∀ k ∈ m.inputs.map vertexBind, k.name = text "bind_vertex_input" := by
    intro k hk
    obtain ⟨x, -, rfl⟩ := List.mem_map.1 hk
    rfl
  have he : ∀ k ∈ writeExtra m.base.extra, k.name = text "extra" := fun k hk => extra_named hk
  refine ⟨?_, ?_, ?_⟩
  · rw [children_append, children_append, children_all hb, children_other fun k hk => by rw [hv k hk, Ne, text_inj]; decide, children_other fun k hk => by rw [he k hk, Ne, text_inj]; decide]
    simp
  · rw [children_append, children_append, children_all hv, children_other fun k hk => by rw [hb k hk, Ne, text_inj]; decide, children_other fun k hk => by rw [he k hk, Ne, text_inj]; decide]
    simp
  · rw [children_append, children_append, children_all he, children_other fun k hk => by rw [hb k hk, Ne, text_inj]; decide, children_other fun k hk => by rw [hv k hk, Ne, text_inj]; decide]
    simp

theorem mat_back (ov : Ov) {m : MatInst} (h : GoodMat m) : loadMat ov (matElem m) = some m := by
  obtain ⟨k1, k2, k3⟩ := mat_kids m (text "instance_material") [] (baseAttrs m.base ++ [(text "symbol", m.symbol), (text "target", 35 :: m.base.id)])
  have hx : ∀ a : Text, a ≠ text "sid" → a ≠ text "name" → (matElem m).raw a = (Node.elem (text "instance_material") [(text "symbol", m.symbol), (text "target", 35 :: m.base.id)] [] []).raw a := by
    intro a h1 h2
    unfold matElem
    rw [raw_base, if_neg fun hh => h1 hh.1, if_neg fun hh => h2 hh.1]
    rfl
  have p1 : prop (some (matElem m)) (text "target") = some (35 :: m.base.id) :=
    prop_raw (by rw [hx _ (by rw [Ne, text_inj]; decide) (by rw [Ne, text_inj]; decide)]; simp [raw_cons, text_inj]) (ref_plain h.base.id)
  have p2 : prop (some (matElem m)) (text "symbol") = some m.symbol :=
    prop_raw (by rw [hx _ (by rw [Ne, text_inj]; decide) (by rw [Ne, text_inj]; decide)]; simp [raw_cons]) h.symbol
  have hput : (matElem m).put (text "url") (35 :: m.base.id) = .elem (text "instance_material") (baseAttrs m.base ++ [(text "symbol", m.symbol), (text "target", 35 :: m.base.id), (text "url", 35 :: m.base.id)]) []
      (m.binds.map bindNode ++ m.inputs.map vertexBind ++ writeExtra m.base.extra) := by
    show Node.elem _ ((baseAttrs m.base ++ [(text "symbol", m.symbol), (text "target", 35 :: m.base.id)]) ++ [(text "url", 35 :: m.base.id)]) _ _ = _
    rw [List.append_assoc]
    rfl
  have hi : loadInst ov ((matElem m).put (text "url") (35 :: m.base.id)) = some { m.base with extra := m.base.extra } := by
    rw [hput]
    refine inst_back ov h.base _ _ _ _ ?_ ?_ ?_ ?_
    · simp [raw_cons, text_inj]
    · simp [text_inj, Node.raw]
    · simp [text_inj, Node.raw]
    · rw [(mat_kids m _ _ _).2.2]
      exact extra_back h.base.extra
  unfold loadMat
  rw [p1, Option.bind_some, hi, Option.bind_some, p2, Option.bind_some]
  unfold matElem
  rw [k1, k2, mapM_back _ fun x hx => bind_back (h.binds x hx), Option.bind_some, mapM_back _ fun x hx => vertexBind_back ov (h.inputs x hx), Option.map_some]

theorem mats_back (ov : Ov) (ms : List MatInst) (h : ∀ m ∈ ms, GoodMat m) : (ms.map matElem).mapM (loadMat ov) = some ms := mapM_back ms fun m hm => mat_back ov (h m hm)

/-! ## Instances of geometries -/

theorem guess_named (d : InstDoc) : ∀ ps : List (Text × Nat), (∀ p ∈ ps, 0 ∉ p.1) → guessMats d ps = some (ps.filterMap fun p =>
    if FXml.cleaned true p.1 ∈ d.materials then some { base := { id := FXml.cleaned true p.1 }, symbol := if p.1 = [] then FXml.cleaned true p.1 ++ natText p.2 else p.1 } else none)
  | [], _ => rfl
  | p :: ps, h => by
    rw [guessMats, FIds.cleanId_eq _ (h p (by simp)), Option.bind_some, guess_named d ps fun x hx => h x (List.mem_cons_of_mem _ hx), Option.map_some, List.filterMap_cons]
    by_cases hm : FXml.cleaned true p.1 ∈ d.materials
    · simp only [if_pos hm]
    · simp only [if_neg hm]

/-- The `bind_material` element is read back up to the parameters that are not `param` elements. -/
theorem bound_back (ov : Ov) (b : IBase) (ps : List Node) (ms : List MatInst) (h : ∀ m ∈ ms, GoodMat m)
    (hp : ∀ p ∈ ps, p.name = text "param" ∨ p.name = text "newparam" ∨ p.name = text "setparam") :
    loadBound ov b (.elem (text "bind_material") [] [] (ps ++ [.elem (text "technique_common") [] [] (ms.map matElem)])) = some ⟨b, ps.filter fun p => decide (p.name = text "param"), ms⟩ := by
  unfold loadBound
  have h1 : (Node.elem (text "bind_material") [] [] (ps ++ [.elem (text "technique_common") [] [] (ms.map matElem)])).child (text "technique_common") =
      some (.elem (text "technique_common") [] [] (ms.map matElem)) := by
    rw [child_append, child_other, Option.none_or, child_cons]
    · exact if_pos rfl
    intro k hk
    rcases hp k hk with e | e | e <;> rw [e, Ne, text_inj] <;> decide
  have h2 : (Node.elem (text "technique_common") [] [] (ms.map matElem)).children (text "instance_material") = ms.map matElem := by
    refine children_all fun k hk => ?_
    obtain ⟨m, -, rfl⟩ := List.mem_map.1 hk
    rfl
  have h3 : (Node.elem (text "bind_material") [] [] (ps ++ [.elem (text "technique_common") [] [] (ms.map matElem)])).children (text "param") = ps.filter fun p => decide (p.name = text "param") := by
    rw [children_append]
    rw [children_cons, if_neg (by rw [show (Node.elem (text "technique_common") [] [] (ms.map matElem)).name = text "technique_common" from rfl, text_inj]; decide), children_nil, List.append_nil]
    rfl
  rw [h1, Option.map_some, Option.getD_some, h2, mats_back ov ms h, Option.map_some, h3]

/-- What is made of the element written for materials. -/
def keptGeom (d : InstDoc) (polys : List (Text × Nat)) (b : IBase) (g : GeomInst) : Option GeomInst :=
  if g.mats = [] then (guessMats d polys).map fun ms => ⟨b, [], ms⟩ else some ⟨b, g.params.filter fun p => decide (p.name = text "param"), g.mats⟩

theorem materials_back (ov : Ov) (d : InstDoc) (polys : List (Text × Nat)) (b : IBase) {g : GeomInst} (h : GoodGeom g) (n t : Text) (as : List (Text × Text)) (ks js : List Node)
    (hk : ∀ k ∈ ks, k.name ≠ text "bind_material") (hj : ∀ k ∈ js, k.name ≠ text "bind_material") :
    loadMaterials ov d polys b (.elem n as t (ks ++ bindMaterial g.params (g.mats.map matElem) ++ js)) = keptGeom d polys b g := by
  unfold loadMaterials keptGeom bindMaterial
  rw [child_append, child_append, child_other hk, child_other hj, Option.none_or, Option.or_none]
  by_cases hm : g.mats = []
  · rw [hm, if_pos rfl, List.map_nil, if_pos rfl, child_nil]
  · rw [if_neg hm, if_neg (by simpa using hm), child_cons, if_pos (show (Node.elem (text "bind_material") [] [] (g.params ++ [.elem (text "technique_common") [] [] (g.mats.map matElem)])).name = text "bind_material" from rfl)]
    exact bound_back ov b g.params g.mats h.mats h.params

theorem writeGeom_eq (ov : Ov) (stack : List FUri.Uri) (elem : Text) {g : GeomInst} (h : GoodGeom g) :
    writeGeom ov stack elem g = some (.elem elem (baseAttrs g.base ++ [(text "url", 35 :: g.base.id)]) [] (bindMaterial g.params (g.mats.map matElem) ++ writeExtra g.base.extra)) := by
  unfold writeGeom
  rw [(ref_back ov stack h.base.id).1, Option.bind_some, writeMats_eq ov stack g.mats h.mats, Option.map_some]

theorem bindMaterial_name {ps ns : List Node} : ∀ k ∈ bindMaterial ps ns, k.name = text "bind_material" := by
  unfold bindMaterial
  split
  · simp
  · intro k hk
    rw [List.mem_singleton.1 hk]
    rfl

theorem skeleton_name {us : List FUri.Uri} : ∀ k ∈ us.map skeletonNode, k.name = text "skeleton" := by
  intro k hk
  obtain ⟨x, -, rfl⟩ := List.mem_map.1 hk
  rfl

theorem url_attr (b : IBase) (n : Text) (ks : List Node) : (Node.elem n [(text "url", 35 :: b.id)] [] ks).raw (text "url") = some (35 :: b.id) ∧
    (Node.elem n [(text "url", 35 :: b.id)] [] ks).raw (text "sid") = none ∧ (Node.elem n [(text "url", 35 :: b.id)] [] ks).raw (text "name") = none := by
  refine ⟨?_, ?_, ?_⟩ <;> simp [text_inj, Node.raw]

/-- A root of a skeleton is read back. -/
theorem root_back (ov : Ov) {u : FUri.Uri} {t : Text} (h : FXml.ValidId true t) (hp : FUri.parse ov (35 :: t) = some u) : FUri.parse ov (skeletonNode u).direct = some u := by
  obtain ⟨-, v, h1, h2⟩ := ref_back ov [] h
  rw [hp, Option.some.injEq] at h1
  subst h1
  have e : (skeletonNode u).direct = 35 :: t := by
    show encode (35 :: u.fragment) = _
    rw [h2]
    refine encode_ok (fun c hc => ?_) (fun c hc => ?_)
    · exact (ref_plain h c hc).1
    · rcases List.mem_cons.1 hc with rfl | hc
      · decide
      · exact (nameChar_dot (valid_chars h c hc)).2.2.2
  rw [e, hp]

end Verif.FArc
