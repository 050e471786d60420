import Verif.ArcSurfSpec
import Verif.ArcInstLemmas
import Verif.ArcLightLemmas

/-!
# Lemmas about the saving and loading of surfaces
-/

namespace Verif.FArc

open Verif.FEff (Text text)
open Verif.FConv (Ov shown)
open Verif.FFx (Init Hint)

theorem id_word {t : Text} (h : ImageId t) : Word t := by
  refine ⟨h.1, fun h0 => (id_plain h.2 0 h0).1.2.2 rfl, fun c hc hs => ?_⟩
  have := valid_chars h.2 c hc
  unfold FXml.nameChar FXml.letter at this
  simp only [Bool.or_eq_true, Bool.and_eq_true, decide_eq_true_eq, beq_iff_eq, Bool.true_and] at this
  rcases hs with rfl | rfl | rfl | rfl <;> revert this <;> decide

theorem id_unescaped {t : Text} (h : FXml.ValidId true t) : Unescaped t := fun c hc => ⟨(nameChar_dot (valid_chars h c hc)).1.1, (nameChar_dot (valid_chars h c hc)).2.2.2⟩

theorem encode_unescaped {t : Text} (h : Unescaped t) : encode t = t := encode_ok (fun c hc => (h c hc).1) fun c hc => (h c hc).2

theorem words_unescaped (ws : List Text) (h : ∀ w ∈ ws, Unescaped w) : Unescaped (wordsText ws) := by
  rw [wordsText_eq]
  intro c hc
  rcases FConv.mem_joined hc with rfl | ⟨a, ha, hc⟩
  · exact ⟨by unfold FXml.IsChar; decide, by decide⟩
  · exact h a ha c hc

/-- One word after one name: it is added to the name. -/
theorem toStringList_one (a w : Text) (h : Word w) : FConv.toStringList (w ++ [0]) [a] = some [a ++ w] := by
  have hb : ∀ c ∈ w, FConv.blank c = false := fun c hc => by
    have := h.2.2 c hc
    rw [← FConv.blank_iff] at this
    simpa using this
  obtain ⟨c, u, rfl⟩ := List.exists_cons_of_ne_nil h.1
  unfold FConv.toStringList
  rw [FConv.skipWhile_eq _ _ _ h.2.1, Option.bind_some, List.dropWhile_cons_of_neg (by simp [hb c (by simp)])]
  rw [List.length_append, show (c :: u).length + [(0 : Int)].length = (u.length + 1) + 1 from rfl]
  unfold FConv.nameLoop
  rw [FConv.deref_eq, Option.bind_some, if_neg (FConv.headD_ne h.2.1 (by simp)), FConv.skipWhile_eq _ _ _ h.2.1, Option.bind_some]
  have hd : (c :: u).dropWhile (fun c => !FConv.blank c) = [] := by
    rw [List.dropWhile_eq_nil_iff]
    intro x hx; simp [hb x hx]
  rw [hd, FConv.skipWhile_eq _ [] _ (by simp), Option.bind_some]
  simp only [List.dropWhile_nil, List.nil_append]
  unfold FConv.nameLoop
  rw [show FConv.deref [(0 : Int)] = some 0 from rfl, Option.bind_some, if_pos rfl]
  simp

theorem toStringList_words (ws : List Text) (h : ∀ w ∈ ws, Word w) : FConv.toStringList (wordsText ws ++ [0]) [] = some ws := by
  have := toStringList_empty 0 (wordsText ws) (words_tokens ws h).2
  rw [List.replicate_zero, (words_tokens ws h).1] at this
  exact this

/-! ## Images -/

theorem name_refNode (a id : Text) (ks : List Node) : (refNode a id ks).name = a := rfl

theorem raw_opt (n a b t : Text) (v : Option Text) (ks : List Node) : (Node.elem n (optAttr a v) t ks).raw b = if a = b then v else none := by
  cases v with
  | none => unfold optAttr; simp
  | some v => unfold optAttr; simp only [raw_cons, raw_nil]

theorem pushAttr_opt {k : Node} {a : Text} {v : Option Text} (l : List Text) (h : k.raw a = v) (hp : ∀ t, v = some t → Plain t) : pushAttr k a l = some (l ++ v.toList) := by
  unfold pushAttr Node.has
  cases v with
  | none => rw [h]; simp
  | some t => rw [h, Option.isSome_some, if_pos rfl, prop_raw h (hp t rfl)]; rfl

theorem fromNode_raw (m sl f : List Text) (i : Nat) (id : Text) :
    (fromNode m sl f i id).raw (text "mip") = m[i]? ∧ (fromNode m sl f i id).raw (text "slice") = sl[i]? ∧ (fromNode m sl f i id).raw (text "face") = f[i]? := by
  unfold fromNode
  refine ⟨?_, ?_, ?_⟩ <;>
  · rw [raw_append, raw_append, raw_opt, raw_opt, raw_opt]
    simp only [text_inj, String.reduceEq, if_false, if_true, Option.or_none, Option.none_or]

theorem loadFrom_one (ns a b c m sl f : List Text) (id : Text) (hn : ns = [] ∨ ∃ x, ns = [x] ∧ x ≠ []) (hi : ImageId id) (hm : ∀ t ∈ m ++ sl ++ f, Plain t) :
    loadFrom (ns, a, b, c) (fromNode m sl f 0 id) = some ([ns.flatten ++ id], a ++ m[0]?.toList, b ++ sl[0]?.toList, c ++ f[0]?.toList) := by
  have hd : (fromNode m sl f 0 id).direct = id := encode_unescaped (id_unescaped hi.2)
  have hl : FConv.toStringList (id ++ [0]) ns = some [ns.flatten ++ id] := by
    rcases hn with rfl | ⟨x, rfl, -⟩
    · exact toStringList_words [id] fun w hw => by rw [List.mem_singleton.1 hw]; exact id_word hi
    · rw [toStringList_one x id (id_word hi)]; simp
  have hne : ns.flatten ++ id ≠ [] := by simp [hi.1]
  obtain ⟨r1, r2, r3⟩ := fromNode_raw m sl f 0 id
  have hp : ∀ l : List Text, (∀ t ∈ l, Plain t) → ∀ t, l[0]? = some t → Plain t := fun l h t ht => h t (List.mem_of_getElem? ht)
  unfold loadFrom
  rw [hd, hl, Option.bind_some]
  simp only [List.head?_cons, Option.some.injEq, reduceCtorEq, false_or, hne, if_false, List.length_cons, List.length_nil, Nat.zero_add, if_true]
  rw [pushAttr_opt a r1 (hp m fun t ht => hm t (by simp [ht])), Option.bind_some, pushAttr_opt b r2 (hp sl fun t ht => hm t (by simp [ht])), Option.bind_some, pushAttr_opt c r3 (hp f fun t ht => hm t (by simp [ht])),
    Option.map_some]

theorem fromNode_succ (m sl f : List Text) (i : Nat) (id : Text) : fromNode m sl f (i + 1) id = fromNode m.tail sl.tail f.tail i id := by
  unfold fromNode
  simp only [List.getElem?_tail]

theorem first_tail (n : Nat) (l : List Text) : l[0]?.toList ++ l.tail.take n = l.take (n + 1) := by
  cases l <;> simp

theorem loadFrom_all : ∀ (images : List Text), (∀ t ∈ images, ImageId t) → ∀ (ns a b c m sl f : List Text), (ns = [] ∨ ∃ x, ns = [x] ∧ x ≠ []) → (∀ t ∈ m ++ sl ++ f, Plain t) →
    (images.mapIdx fun i id => fromNode m sl f i id).foldlM loadFrom (ns, a, b, c) =
      some (if images = [] then ns else [ns.flatten ++ images.flatten], a ++ m.take images.length, b ++ sl.take images.length, c ++ f.take images.length) := by
  intro images
  induction images with
  | nil => intro _ ns a b c m sl f _ _; simp
  | cons id images ih =>
    intro hi ns a b c m sl f hn hm
    rw [List.mapIdx_cons, List.foldlM_cons, loadFrom_one ns a b c m sl f id hn (hi id (by simp)) hm, Option.bind_eq_bind, Option.bind_some]
    simp only [fromNode_succ]
    have hne : ns.flatten ++ id ≠ [] := by simp [(hi id (by simp)).1]
    rw [ih (fun t ht => hi t (by simp [ht])) _ _ _ _ m.tail sl.tail f.tail (Or.inr ⟨_, rfl, hne⟩)
      (fun t ht => by simp only [List.mem_append] at ht ⊢ hm; exact hm t (by rcases ht with (h | h) | h <;> simp [List.mem_of_mem_tail h]))]
    simp only [List.append_assoc, first_tail, List.length_cons, reduceCtorEq, if_false, List.flatten_cons, List.flatten_nil, List.append_nil]
    by_cases he : images = []
    · subst he; simp
    · rw [if_neg he]

theorem prop_ref {name id : Text} {ks : List Node} (h : ImageId id) (names : List Text) : pushRef names (refNode name id ks) = some (names ++ [id]) := by
  unfold pushRef
  rw [prop_raw (t := id) (by unfold refNode; rw [raw_cons, if_pos rfl]) (id_plain h.2), Option.map_some, if_neg h.1]

theorem pushRef_all (ids : List Text) (h : ∀ t ∈ ids, ImageId t) (names : List Text) : (ids.map fun id => refNode (text "face") id []).foldlM pushRef names = some (names ++ ids) := by
  induction ids generalizing names with
  | nil => simp
  | cons id ids ih =>
    rw [List.map_cons, List.foldlM_cons, prop_ref (h id (by simp)), Option.bind_eq_bind, Option.bind_some, ih fun t ht => h t (by simp [ht])]
    simp

/-- The elements that are written, and what is read when they are the only ones for the initialization. -/
theorem loadInit_write (s : Surf) (h : GoodSurf s) : ∃ ns, initNodes s = some ns ∧
    (∀ k ∈ ns, k.name ∈ [text "init_from", text "init_as_null", text "init_as_target", text "init_cube", text "init_volume", text "init_planar"]) ∧
    ∀ (as : List (Text × Text)) (t : Text) (ks : List Node), (∀ k ∈ ks, k.name ∈ [text "format", text "format_hint", text "size", text "viewport_ratio", text "mip_levels"]) →
      loadInit (.elem (text "surface") as t (ns ++ ks)) = some (initAfter s.images s.init) := by
  have hother : ∀ (a : Text) (as : List (Text × Text)) (t : Text) (ks : List Node), (∀ k ∈ ks, k.name ∈ [text "format", text "format_hint", text "size", text "viewport_ratio", text "mip_levels"]) →
      a ∉ [text "format", text "format_hint", text "size", text "viewport_ratio", text "mip_levels"] → (Node.elem (text "surface") as t ks).child a = none ∧ (Node.elem (text "surface") as t ks).children a = [] :=
    fun a as t ks hk ha => ⟨child_other fun k hm e => ha (e ▸ hk k hm), children_other fun k hm e => ha (e ▸ hk k hm)⟩
  have one : ∀ (nm : Text) (k : Node), k.name = nm → nm ≠ text "init_from" → ∀ (as : List (Text × Text)) (t : Text) (ks : List Node), (∀ k ∈ ks, k.name ∈ [text "format", text "format_hint", text "size", text "viewport_ratio", text "mip_levels"]) →
      loadInit (.elem (text "surface") as t ([k] ++ ks)) = (match (if nm = text "init_as_null" then some k else none), (if nm = text "init_as_target" then some k else none), (if nm = text "init_cube" then some k else none),
        (if nm = text "init_volume" then some k else none), (if nm = text "init_planar" then some k else none) with
      | some _, _, _, _, _ => some ([], some .asNull)
      | none, some _, _, _, _ => some ([], some .asTarget)
      | none, none, some v, _, _ => (loadCube [] v).map fun r => (r.1, some r.2)
      | none, none, none, some v, _ => (loadVolume [] v).map fun r => (r.1, some r.2)
      | none, none, none, none, some v => (loadPlanar [] v).map fun r => (r.1, some r.2)
      | none, none, none, none, none => some ([], none)) := by
    intro nm k hn hne as t ks hk
    have hc : ∀ a, a ∉ [text "format", text "format_hint", text "size", text "viewport_ratio", text "mip_levels"] → (Node.elem (text "surface") as t ([k] ++ ks)).child a = if nm = a then some k else none := by
      intro a ha
      rw [List.singleton_append, child_cons, (hother a as t ks hk ha).1, hn]
    unfold loadInit loadOtherInit
    rw [show (Node.elem (text "surface") as t ([k] ++ ks)).children (text "init_from") = [] by
      rw [List.singleton_append, children_cons, (hother (text "init_from") as t ks hk (by decide +kernel)).2, hn, if_neg hne], if_pos rfl, hc _ (by decide +kernel), hc _ (by decide +kernel), hc _ (by decide +kernel),
      hc _ (by decide +kernel), hc _ (by decide +kernel)]
    rfl
  have hfirst : s.images ≠ [] → ∃ id, s.images[0]? = some id ∧ s.images.take 1 = [id] ∧ ImageId id := by
    intro hne
    obtain ⟨id, l, e⟩ := List.exists_cons_of_ne_nil hne
    exact ⟨id, by rw [e]; rfl, by rw [e]; rfl, h.ids id (by rw [e]; simp)⟩
  cases hinit : s.init with
  | none =>
    refine ⟨[], by unfold initNodes; rw [hinit], by simp, fun as t ks hk => ?_⟩
    unfold loadInit loadOtherInit
    rw [List.nil_append, (hother (text "init_from") as t ks hk (by decide +kernel)).2, if_pos rfl, (hother (text "init_as_null") as t ks hk (by decide +kernel)).1,
      (hother (text "init_as_target") as t ks hk (by decide +kernel)).1, (hother (text "init_cube") as t ks hk (by decide +kernel)).1, (hother (text "init_volume") as t ks hk (by decide +kernel)).1,
      (hother (text "init_planar") as t ks hk (by decide +kernel)).1]
    rfl
  | some m =>
    cases m with
    | from_ m sl f =>
      by_cases hl : s.images.length = f.length ∨ s.images.length = m.length ∨ s.images.length = sl.length
      · have hall : ∀ k ∈ s.images.mapIdx (fun i id => fromNode m sl f i id), k.name = text "init_from" := by
          intro k hk
          obtain ⟨i, hi, rfl⟩ := List.mem_mapIdx.1 hk
          rfl
        refine ⟨s.images.mapIdx fun i id => fromNode m sl f i id, by unfold initNodes; rw [hinit]; exact if_pos hl, fun k hk => by rw [hall k hk]; simp, fun as t ks hk => ?_⟩
        unfold initAfter
        simp only
        rw [if_pos hl]
        by_cases he : s.images = []
        · rw [if_pos he, he, List.mapIdx_nil, List.nil_append]
          unfold loadInit loadOtherInit
          rw [(hother (text "init_from") as t ks hk (by decide +kernel)).2, if_pos rfl, (hother (text "init_as_null") as t ks hk (by decide +kernel)).1,
            (hother (text "init_as_target") as t ks hk (by decide +kernel)).1, (hother (text "init_cube") as t ks hk (by decide +kernel)).1, (hother (text "init_volume") as t ks hk (by decide +kernel)).1,
            (hother (text "init_planar") as t ks hk (by decide +kernel)).1]
        · unfold loadInit
          rw [children_append, children_all hall, (hother (text "init_from") as t ks hk (by decide +kernel)).2, List.append_nil, if_neg (by simpa using he),
            loadFrom_all s.images h.ids [] [] [] [] m sl f (Or.inl rfl) (h.attrs m sl f hinit), if_neg he, if_neg he]
          rfl
      · refine ⟨[textChild (text "init_from") (wordsText s.images)], by unfold initNodes; rw [hinit]; exact if_neg hl, by simp [textChild, Node.name], fun as t ks hk => ?_⟩
        have hc : (Node.elem (text "surface") as t ([textChild (text "init_from") (wordsText s.images)] ++ ks)).children (text "init_from") = [textChild (text "init_from") (wordsText s.images)] := by
          rw [List.singleton_append, children_cons, (hother (text "init_from") as t ks hk (by decide +kernel)).2, name_textChild, if_pos rfl]
        unfold loadInit initAfter
        simp only
        rw [hc, if_neg (by simp), if_neg hl, List.foldlM_cons]
        unfold loadFrom
        rw [show (textChild (text "init_from") (wordsText s.images)).direct = encode (wordsText s.images) from rfl, encode_unescaped (words_unescaped _ fun w hw => id_unescaped (h.ids w hw).2),
          toStringList_words s.images fun w hw => id_word (h.ids w hw), Option.bind_some]
        have hnames : (if s.images.head? = none ∨ s.images.head? = some [] then [] else s.images) = s.images := by
          split
          · next hh =>
            rcases hh with hh | hh
            · exact (List.head?_eq_none_iff.1 hh).symm
            · exact absurd rfl (h.ids [] (List.mem_of_head? hh)).1
          · rfl
        simp only [hnames]
        have hno : ∀ a : Text, (textChild (text "init_from") (wordsText s.images)).raw a = none := fun a => rfl
        split
        · rw [pushAttr_opt [] (hno _) (by simp), Option.bind_some, pushAttr_opt [] (hno _) (by simp), Option.bind_some, pushAttr_opt [] (hno _) (by simp)]
          rfl
        · rfl
    | asNull =>
      refine ⟨[leaf (text "init_as_null")], by unfold initNodes; rw [hinit], by simp [leaf, Node.name], fun as t ks hk => ?_⟩
      rw [one (text "init_as_null") _ rfl (by decide +kernel) as t ks hk]
      simp only [text_inj, String.reduceEq, if_true]
      rfl
    | asTarget =>
      refine ⟨[leaf (text "init_as_target")], by unfold initNodes; rw [hinit], by simp [leaf, Node.name], fun as t ks hk => ?_⟩
      rw [one (text "init_as_target") _ rfl (by decide +kernel) as t ks hk]
      simp only [text_inj, String.reduceEq, if_true, if_false]
      rfl
    | cube ty o =>
      have hread : ∀ (kk : List Node) (as : List (Text × Text)) (t : Text) (ks : List Node), (∀ k ∈ ks, k.name ∈ [text "format", text "format_hint", text "size", text "viewport_ratio", text "mip_levels"]) →
          loadInit (.elem (text "surface") as t ([.elem (text "init_cube") [] [] kk] ++ ks)) = (loadCube [] (.elem (text "init_cube") [] [] kk)).map fun r => (r.1, some r.2) := by
        intro kk as t ks hk
        rw [one (text "init_cube") _ rfl (by decide +kernel) as t ks hk]
        simp only [text_inj, String.reduceEq, if_true, if_false]
      unfold initNodes initAfter
      rw [hinit]
      simp only
      by_cases h0 : ty = 0
      · subst h0
        obtain ⟨id, e1, e2, e3⟩ := hfirst (h.first (Or.inr (Or.inl ⟨0, o, hinit, by decide⟩)))
        rw [if_pos rfl, e1, Option.map_some, if_pos (by decide), e2]
        refine ⟨_, rfl, by simp [Node.name], fun as t ks hk => ?_⟩
        rw [hread _ as t ks hk]
        unfold loadCube
        rw [child_cons, name_refNode, if_pos rfl]
        simp only [prop_ref e3, Option.map_some, List.nil_append]
      · rw [if_neg h0]
        by_cases h1 : ty = 1
        · subst h1
          obtain ⟨id, e1, e2, e3⟩ := hfirst (h.first (Or.inr (Or.inl ⟨1, o, hinit, by decide⟩)))
          rw [if_pos rfl, e1, Option.map_some, if_pos (by decide), e2]
          refine ⟨_, rfl, by simp [Node.name], fun as t ks hk => ?_⟩
          rw [hread _ as t ks hk]
          unfold loadCube
          rw [child_cons, name_refNode, if_neg (by decide +kernel), child_nil, child_cons, name_refNode, if_pos rfl]
          simp only [prop_ref e3, Option.map_some, List.nil_append]
        · rw [if_neg h1, if_neg (show ¬ ty ≤ 1 by omega)]
          by_cases h2 : ty = 2
          · subst h2
            rw [if_pos rfl]
            refine ⟨_, rfl, by simp [Node.name], fun as t ks hk => ?_⟩
            have hall : ∀ k ∈ s.images.map (fun id => refNode (text "face") id []), k.name = text "face" := by
              intro k hk
              obtain ⟨i, hi, rfl⟩ := List.mem_map.1 hk
              rfl
            rw [hread _ as t ks hk]
            unfold loadCube
            rw [child_other fun k hk => by rw [hall k hk]; decide +kernel, child_other fun k hk => by rw [hall k hk]; decide +kernel, children_all hall, pushRef_all _ h.ids, List.length_map]
            by_cases h6 : s.images.length = 6
            · simp [h6]
            · simp [h6]
          · rw [if_neg h2, if_neg (fun e => h2 e.1)]
            refine ⟨_, rfl, by simp [leaf, Node.name], fun as t ks hk => ?_⟩
            unfold leaf
            rw [hread _ as t ks hk]
            rfl
    | volume ty =>
      have hread : ∀ (kk : List Node) (as : List (Text × Text)) (t : Text) (ks : List Node), (∀ k ∈ ks, k.name ∈ [text "format", text "format_hint", text "size", text "viewport_ratio", text "mip_levels"]) →
          loadInit (.elem (text "surface") as t ([.elem (text "init_volume") [] [] kk] ++ ks)) = (loadVolume [] (.elem (text "init_volume") [] [] kk)).map fun r => (r.1, some r.2) := by
        intro kk as t ks hk
        rw [one (text "init_volume") _ rfl (by decide +kernel) as t ks hk]
        simp only [text_inj, String.reduceEq, if_true, if_false]
      unfold initNodes initAfter
      rw [hinit]
      simp only
      by_cases h0 : ty = 0
      · subst h0
        obtain ⟨id, e1, e2, e3⟩ := hfirst (h.first (Or.inl ⟨0, hinit, by decide⟩))
        rw [if_pos rfl, e1, Option.map_some, if_pos (by decide), e2]
        refine ⟨_, rfl, by simp [Node.name], fun as t ks hk => ?_⟩
        rw [hread _ as t ks hk]
        unfold loadVolume
        rw [child_cons, name_refNode, if_pos rfl]
        simp only [prop_ref e3, Option.map_some, List.nil_append]
      · rw [if_neg h0]
        by_cases h1 : ty = 1
        · subst h1
          obtain ⟨id, e1, e2, e3⟩ := hfirst (h.first (Or.inl ⟨1, hinit, by decide⟩))
          rw [if_pos rfl, e1, Option.map_some, if_pos (by decide), e2]
          refine ⟨_, rfl, by simp [Node.name], fun as t ks hk => ?_⟩
          rw [hread _ as t ks hk]
          unfold loadVolume
          rw [child_cons, name_refNode, if_neg (by decide +kernel), child_nil, child_cons, name_refNode, if_pos rfl]
          simp only [prop_ref e3, Option.map_some, List.nil_append]
        · rw [if_neg h1, if_neg (show ¬ ty ≤ 1 by omega)]
          refine ⟨_, rfl, by simp [leaf, Node.name], fun as t ks hk => ?_⟩
          unfold leaf
          rw [hread _ as t ks hk]
          rfl
    | planar =>
      obtain ⟨id, e1, e2, e3⟩ := hfirst (h.first (Or.inr (Or.inr hinit)))
      unfold initNodes initAfter
      rw [hinit]
      simp only
      rw [e1, Option.map_some, e2]
      refine ⟨_, rfl, by simp [Node.name], fun as t ks hk => ?_⟩
      rw [one (text "init_planar") _ rfl (by decide +kernel) as t ks hk]
      simp only [text_inj, String.reduceEq, if_true, if_false]
      unfold loadPlanar
      rw [child_cons, name_refNode, if_pos rfl]
      simp only [prop_ref e3, Option.map_some, List.nil_append]

/-! ## The other fields -/

theorem encode_intText (i : Int) : encode (intText i) = intText i := by
  refine encode_ok (fun c hc => (intText_plain i c hc).1) ?_
  unfold intText FBld.decimalInt
  split
  · intro c hc
    rcases List.mem_cons.1 hc with rfl | hc
    · decide
    · exact digit_contentOk (of_decide_eq_true (FConv.digit_iff c ▸ FConv.decimal_digits _ c hc))
  · exact fun c hc => digit_contentOk (of_decide_eq_true (FConv.digit_iff c ▸ FConv.decimal_digits _ c hc))

theorem codeOf_text (names : List Text) (hn : names.Nodup) (hu : text "unknown" ∉ names) (i : Nat) (h : i ≤ names.length) : codeOf names (codeText names i) = i := by
  unfold codeOf codeText
  by_cases h0 : i = 0
  · rw [if_pos h0, List.findIdx?_eq_none_iff.2 fun x hx => by
      simp only [decide_eq_false_iff_not]
      exact fun e => hu (e ▸ hx), h0]
  · have hl : i - 1 < names.length := by omega
    rw [if_neg h0, List.getElem?_eq_getElem hl, Option.getD_some]
    have : names.findIdx? (fun x => decide (x = names[i - 1])) = some (i - 1) := by
      rw [List.findIdx?_eq_some_iff_getElem]
      refine ⟨hl, by simp, fun j hj => ?_⟩
      simp only [decide_eq_true_eq]
      intro e
      have := (List.nodup_iff_injective_getElem.1 hn) (a₁ := ⟨j, by omega⟩) (a₂ := ⟨i - 1, hl⟩) e
      have := congrArg Fin.val this
      simp at this
      omega
    rw [this]
    simp only
    omega

theorem hint_texts : (∀ i : Fin 8, encode (codeText channelNames i) = codeText channelNames i) ∧ (∀ i : Fin 7, encode (codeText rangeNames i) = codeText rangeNames i) ∧
    (∀ i : Fin 4, encode (codeText precisionNames i) = codeText precisionNames i) ∧
    (∀ o : Fin 4, (optionNames.findIdx? fun x => decide (x = encode ((optionNames[o.val]?).getD []))) = some o.val) := by
  refine ⟨?_, ?_, ?_, ?_⟩ <;> decide +kernel

theorem loadHint_write (h : Hint) (hg : GoodHint h) : loadHint (hintNode h) = h := by
  obtain ⟨h1, h2, h3, h4⟩ := hint_texts
  have a1 := hg.channels
  have a2 := hg.range
  have a3 := hg.precision
  have hopt : ∀ k ∈ h.options.map (fun o => textChild (text "option") ((optionNames[o]?).getD [])), k.name = text "option" := by
    intro k hk
    obtain ⟨o, _, rfl⟩ := List.mem_map.1 hk
    rfl
  have e1 : (hintNode h).child (text "channels") = some (textChild (text "channels") (codeText channelNames h.channels)) := rfl
  have e2 : (hintNode h).child (text "range") = some (textChild (text "range") (codeText rangeNames h.range)) := by
    unfold hintNode
    simp only [List.cons_append, child_cons, name_textChild, text_inj, String.reduceEq, if_false, if_true]
  have e3 : (hintNode h).child (text "precision") = some (textChild (text "precision") (codeText precisionNames h.precision)) := by
    unfold hintNode
    simp only [List.cons_append, child_cons, name_textChild, text_inj, String.reduceEq, if_false, if_true]
  have e4 : (hintNode h).children (text "option") = h.options.map fun o => textChild (text "option") ((optionNames[o]?).getD []) := by
    unfold hintNode
    simp only [List.cons_append, List.nil_append, children_cons, name_textChild, text_inj, String.reduceEq, if_false]
    exact children_all hopt
  unfold loadHint
  rw [e1, e2, e3, e4]
  have d : ∀ a t, direct (some (textChild a t)) = encode t := fun _ _ => rfl
  rw [d, d, d, h1 ⟨h.channels, by omega⟩, h2 ⟨h.range, by omega⟩, h3 ⟨h.precision, by omega⟩]
  simp only
  rw [codeOf_text channelNames (by decide +kernel) (by decide +kernel) _ (by simpa [channelNames] using a1), codeOf_text rangeNames (by decide +kernel) (by decide +kernel) _ (by simpa [rangeNames] using a2),
    codeOf_text precisionNames (by decide +kernel) (by decide +kernel) _ (by simpa [precisionNames] using a3)]
  have ho : ∀ l : List Nat, (∀ o ∈ l, o < 4) →
      (l.map fun o => textChild (text "option") ((optionNames[o]?).getD [])).filterMap (fun k => optionNames.findIdx? fun x => decide (x = k.direct)) = l := by
    intro l hl
    induction l with
    | nil => rfl
    | cons o l ih =>
      rw [List.map_cons, List.filterMap_cons, show (textChild (text "option") ((optionNames[o]?).getD [])).direct = encode ((optionNames[o]?).getD []) from rfl, h4 ⟨o, hl o (by simp)⟩]
      simp only
      rw [ih fun x hx => hl x (by simp [hx])]
  rw [ho h.options hg.options]

/-- The elements behind those of the initialization. -/
def surfTail (fmt : ℚ → Text) (s : Surf) (v : V3) : List Node :=
  (if s.format = [] then [] else [textChild (text "format") s.format]) ++ (match s.hint with | some h => [hintNode h] | none => []) ++ sizeNodes fmt v s.ratio ++
    if s.mips = 0 then [] else [textChild (text "mip_levels") (intText s.mips)]

theorem tail_named (fmt : ℚ → Text) (s : Surf) (v : V3) : ∀ k ∈ surfTail fmt s v, k.name ∈ [text "format", text "format_hint", text "size", text "viewport_ratio", text "mip_levels"] := by
  intro k hk
  unfold surfTail sizeNodes at hk
  simp only [List.mem_append] at hk
  rcases hk with ((hk | hk) | hk) | hk
  · split at hk
    · simp at hk
    · rw [List.mem_singleton.1 hk]; simp [name_textChild]
  · split at hk
    · rw [List.mem_singleton.1 hk]; simp [hintNode, Node.name]
    · simp at hk
  · split at hk
    · rw [List.mem_singleton.1 hk]; simp [name_textChild]
    · split at hk
      · rw [List.mem_singleton.1 hk]; simp [name_textChild]
      · simp at hk
  · split at hk
    · simp at hk
    · rw [List.mem_singleton.1 hk]; simp [name_textChild]

theorem child_if {n t a : Text} {as : List (Text × Text)} (c : Prop) [Decidable c] (k : Node) : (Node.elem n as t (if c then [] else [k])).child a = if c then none else if k.name = a then some k else none := by
  split <;> simp [child_cons]

theorem child_hint {n t a : Text} {as : List (Text × Text)} (h : Option Hint) :
    (Node.elem n as t (match h with | some h => [hintNode h] | none => [])).child a = if text "format_hint" = a then h.map hintNode else none := by
  cases h with
  | none => simp
  | some h => simp only [child_cons, child_nil, Option.map_some]; rfl

theorem child_size {n t a : Text} {as : List (Text × Text)} (fmt : ℚ → Text) (v : V3) (r : ℚ) : (Node.elem n as t (sizeNodes fmt v r)).child a =
    if v ≠ (0, 0, 0) then (if text "size" = a then some (textChild (text "size") (vecText fmt v)) else none)
    else if r ≠ 1 then (if text "viewport_ratio" = a then some (textChild (text "viewport_ratio") (numText fmt r)) else none) else none := by
  unfold sizeNodes
  split
  · rw [child_cons, child_nil]; rfl
  · split
    · rw [child_cons, child_nil]; rfl
    · rfl

theorem tail_children (fmt : ℚ → Text) (s : Surf) (v : V3) (n t : Text) (as : List (Text × Text)) :
    (Node.elem n as t (surfTail fmt s v)).child (text "format") = (if s.format = [] then none else some (textChild (text "format") s.format)) ∧
    (Node.elem n as t (surfTail fmt s v)).child (text "format_hint") = s.hint.map hintNode ∧
    (Node.elem n as t (surfTail fmt s v)).child (text "size") = (if v ≠ (0, 0, 0) then some (textChild (text "size") (vecText fmt v)) else none) ∧
    (Node.elem n as t (surfTail fmt s v)).child (text "viewport_ratio") = (if v = (0, 0, 0) ∧ s.ratio ≠ 1 then some (textChild (text "viewport_ratio") (numText fmt s.ratio)) else none) ∧
    (Node.elem n as t (surfTail fmt s v)).child (text "mip_levels") = (if s.mips = 0 then none else some (textChild (text "mip_levels") (intText s.mips))) ∧
    (Node.elem n as t (surfTail fmt s v)).child (text "mipmap_generate") = none := by
  unfold surfTail
  refine ⟨?_, ?_, ?_, ?_, ?_, ?_⟩ <;>
  · rw [child_append, child_append, child_append, child_if, child_if, child_hint, child_size]
    simp only [name_textChild, text_inj, String.reduceEq, if_false, if_true]
    by_cases h1 : s.format = [] <;> by_cases h2 : v = (0, 0, 0) <;> by_cases h3 : s.ratio = 1 <;> by_cases h4 : s.mips = 0 <;> simp [h1, h2, h3, h4]

end Verif.FArc
