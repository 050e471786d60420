import Verif.ArcMorphSpec
import Verif.ArcSkinParts

/-! # Lemmas on saved and loaded morphers -/

namespace Verif.FArc

open Verif.FEff (Text text)
open Verif.FConv (Ov Formats shown)
open Verif.FCtrl (Geom)
open Verif.Enum (MorphMethod)

theorem lookup_isSome {α : Type} (i : Text) : ∀ l : List (Text × α), (l.lookup i).isSome = true ↔ i ∈ l.map (·.1)
  | [] => by simp
  | (k, v) :: l => by
    rw [List.lookup_cons, List.map_cons, List.mem_cons, ← lookup_isSome i l]
    by_cases h : i = k
    · subst h; simp
    · rw [show (i == k) = false from by simpa using h]
      simp [h]

theorem lookup_none {α : Type} {i : Text} {l : List (Text × α)} (h : i ∉ l.map (·.1)) : l.lookup i = none := by
  cases e : l.lookup i with
  | none => rfl
  | some x => exact absurd ((lookup_isSome i l).1 (by rw [e]; rfl)) h

theorem similar_iff (g x : Geom) : FCtrl.similarGeom (some (.geom g)) (some (.geom x)) = true ↔ SameVertices g x := by
  rcases g with p | a | _ <;> rcases x with (_ | q) | b | _ <;> simp [FCtrl.similarGeom, SameVertices]

theorem fits_iff (d : MorphDoc) (g : Geom) (t : Option Text × ℚ) : fits d g t = true ↔ Morphs d g t := by
  unfold fits Morphs
  rcases t with ⟨_ | i, w⟩
  · simp
  · simp only [Option.bind_some, Option.some.injEq]
    cases h : d.geoms.lookup i with
    | none => simp [h]
    | some x => simp [h, similar_iff]

theorem methodOf_text (m : MorphMethod) : methodOf (text m.toString) = methodAfter m := by
  cases m <;> decide

theorem method_plain (m : MorphMethod) : Plain (text m.toString) := by
  cases m <;> exact hplain _ (by decide)

theorem makeTargets_eq {d : MorphDoc} (hd : GoodIds d) (rnd : ℚ → ℚ) : ∀ l : List (Option Text × ℚ), (∀ t ∈ l, ∀ i, t.1 = some i → i ∈ d.geoms.map (·.1)) →
    makeTargets d (l.map targetIdText) ((l.map (·.2)).map (shown rnd)) = some (shownTargets rnd l)
  | [], _ => rfl
  | t :: l, h => by
    simp only [List.map_cons, makeTargets, makeTargets_eq hd rnd l fun x hx => h x (List.mem_cons_of_mem _ hx), Option.map_some, shownTargets]
    rcases t with ⟨_ | i, w⟩
    · simp [targetIdText, lookup_none hd.reserved]
    · have := (lookup_isSome i d.geoms).2 (h _ List.mem_cons_self i rfl)
      simp [targetIdText, this]

theorem target_words {d : MorphDoc} {id : Text} {m : Morph} (h : GoodMorph d id m) : ∀ w ∈ m.targets.map targetIdText, Word w := by
  intro w hw
  obtain ⟨t, ht, rfl⟩ := List.mem_map.1 hw
  rcases t with ⟨_ | i, q⟩
  · show Word (text "UNKNOWN_IDREF")
    unfold Word FConv.IsSpace
    decide
  · exact (h.targets _ ht i rfl).1

/-- The children of the element written for a morpher. -/
def morphKids (fmt : ℚ → Text) (id : Text) (m : Morph) : List Node :=
  [sourceNames (id ++ text "-targets") (m.targets.map targetIdText) (text "MORPH_TARGET") true,
    sourceFloats fmt (id ++ text "-morph_weights") (m.targets.map (·.2)) 1 (some [text "MORPH_WEIGHT"]),
    .elem (text "targets") [] [] [inputElem (id ++ text "-targets") (text "MORPH_TARGET") [], inputElem (id ++ text "-morph_weights") (text "MORPH_WEIGHT") []]]

/-- The attributes of the element written for a morpher. -/
def morphAttrs (m : Morph) : List (Text × Text) := (text "method", text m.method.toString) :: (match m.base with | none => [] | some b => [(text "source", 35 :: b.2)])

theorem writeMorph_eq (fmt : ℚ → Text) (id : Text) (m : Morph) : writeMorph fmt id m = .elem (text "morph") (morphAttrs m) [] (morphKids fmt id m) := by
  have n1 := suffix_ne_nil id (a := "-targets") (by decide)
  have n2 := suffix_ne_nil id (a := "-morph_weights") (by decide)
  unfold writeMorph morphKids morphAttrs
  rw [inputNode_eq n1 (by decide), inputNode_eq n2 (by decide)]
  rfl

theorem morph_attrs {d : MorphDoc} {id : Text} {m : Morph} (h : GoodMorph d id m) (t : Text) (ks : List Node) :
    prop (some (.elem (text "morph") (morphAttrs m) t ks)) (text "method") = some (text m.method.toString) ∧
    prop (some (.elem (text "morph") (morphAttrs m) t ks)) (text "source") = some (match m.base with | none => [] | some b => 35 :: b.2) := by
  unfold morphAttrs prop
  refine ⟨?_, ?_⟩
  · simp only [Option.bind_some, raw_cons, if_true]
    exact decode_plain (method_plain _)
  · cases hb : m.base with
    | none => simp [raw_cons, raw_nil, text_inj]
    | some b =>
      simp only [Option.bind_some, raw_cons, text_inj, String.reduceEq, if_false, if_true]
      exact decode_plain (plain_cons (by unfold FXml.IsChar; decide) (h.base b hb).1)

theorem morph_sources {fmt : ℚ → Text} {id : Text} {m : Morph} (hid : Plain id) (n : Text) (as : List (Text × Text)) (t : Text) :
    findById (.elem n as t (morphKids fmt id m)) (35 :: (id ++ text "-targets")) =
      some (some (sourceNames (id ++ text "-targets") (m.targets.map targetIdText) (text "MORPH_TARGET") true)) ∧
    findById (.elem n as t (morphKids fmt id m)) (35 :: (id ++ text "-morph_weights")) =
      some (some (sourceFloats fmt (id ++ text "-morph_weights") (m.targets.map (·.2)) 1 (some [text "MORPH_WEIGHT"]))) := by
  have p1 : Plain (id ++ text "-targets") := plain_suffix hid _ (by decide)
  have p2 : Plain (id ++ text "-morph_weights") := plain_suffix hid _ (by decide)
  have a1 : prop (some (sourceNames (id ++ text "-targets") (m.targets.map targetIdText) (text "MORPH_TARGET") true)) (text "id") = some (id ++ text "-targets") := (source_ids _ _ _ _ _ _ _ _ p1).1
  have a2 : prop (some (sourceFloats fmt (id ++ text "-morph_weights") (m.targets.map (·.2)) 1 (some [text "MORPH_WEIGHT"]))) (text "id") = some (id ++ text "-morph_weights") :=
    (source_ids _ _ _ _ _ _ _ _ p2).1
  rw [findById_hash, findById_hash]
  unfold morphKids Node.kids
  refine ⟨?_, ?_⟩
  · rw [firstWithId_cons_of_eq a1]
  · rw [firstWithId_cons_of_ne a1 (suffix_ne id (by decide)), firstWithId_cons_of_eq a2]

theorem morph_inputs {fmt : ℚ → Text} {id : Text} {m : Morph} (hid : Plain id) (n : Text) (as : List (Text × Text)) (t : Text) :
    (morphInputs (.elem n as t (morphKids fmt id m))).foldlM (morphInput (.elem n as t (morphKids fmt id m))) (none, none) =
      some (some (sourceNames (id ++ text "-targets") (m.targets.map targetIdText) (text "MORPH_TARGET") true),
        some (sourceFloats fmt (id ++ text "-morph_weights") (m.targets.map (·.2)) 1 (some [text "MORPH_WEIGHT"]))) := by
  have p1 : Plain (id ++ text "-targets") := plain_suffix hid _ (by decide)
  have p2 : Plain (id ++ text "-morph_weights") := plain_suffix hid _ (by decide)
  obtain ⟨s1, s2⟩ := morph_sources (fmt := fmt) (m := m) hid n as t
  obtain ⟨a1, a2, -⟩ := inputElem_props p1 (hplain (text "MORPH_TARGET") (by decide)) none
  obtain ⟨b1, b2, -⟩ := inputElem_props p2 (hplain (text "MORPH_WEIGHT") (by decide)) none
  simp only at a1 a2 b1 b2
  have hi : morphInputs (.elem n as t (morphKids fmt id m)) =
      [inputElem (id ++ text "-targets") (text "MORPH_TARGET") [], inputElem (id ++ text "-morph_weights") (text "MORPH_WEIGHT") []] := by
    unfold morphInputs morphKids
    simp only [child_cons, sourceNames, sourceFloats, sourceNode, Node.name, text_inj, String.reduceEq, if_false, if_true]
    rfl
  rw [hi]
  have j1 : morphInput (.elem n as t (morphKids fmt id m)) (none, none) (inputElem (id ++ text "-targets") (text "MORPH_TARGET") []) =
      some (some (sourceNames (id ++ text "-targets") (m.targets.map targetIdText) (text "MORPH_TARGET") true), none) := by
    unfold morphInput
    rw [a1, Option.bind_some, a2, Option.bind_some, s1, if_neg (by simp only [text_inj]; decide), if_pos (Or.inl rfl)]
    rfl
  have j2 (x : Option Node) : morphInput (.elem n as t (morphKids fmt id m)) (x, none) (inputElem (id ++ text "-morph_weights") (text "MORPH_WEIGHT") []) =
      some (x, some (sourceFloats fmt (id ++ text "-morph_weights") (m.targets.map (·.2)) 1 (some [text "MORPH_WEIGHT"]))) := by
    unfold morphInput
    rw [b1, Option.bind_some, b2, Option.bind_some, s2, if_pos (Or.inl rfl)]
    rfl
  simp only [List.foldlM_cons, List.foldlM_nil, j1, j2, Option.bind_eq_bind, Option.bind_some]
  rfl

theorem morph_loaded (ov : Ov) {fmt rnd} (hf : Formats fmt rnd) {d : MorphDoc} (hd : GoodIds d) {id : Text} {m : Morph} (h : GoodMorph d id m) :
    loadMorph ov d (writeMorph fmt id m) =
      some ({ method := methodAfter m.method, targets := shownTargets rnd m.targets }, match m.base with | none => [] | some b => 35 :: b.2) := by
  have hfew := h.few
  have r1 := names_source_partial (id ++ text "-targets") (m.targets.map targetIdText) (text "MORPH_TARGET") true (target_words h) (by simp; omega)
  have r2 := float_source_roundtrip ov hf (id ++ text "-morph_weights") (m.targets.map (·.2)) 1 (some [text "MORPH_WEIGHT"]) (by decide) (by simp; omega) []
  obtain ⟨a1, a2⟩ := morph_attrs h [] (morphKids fmt id m)
  rw [writeMorph_eq]
  unfold loadMorph
  rw [a1, Option.bind_some, a2, Option.bind_some, morph_inputs h.id, Option.bind_some]
  simp only [loadTargets, r1, r2, Option.bind_some, makeTargets_eq hd rnd m.targets fun t ht i hi => (h.targets t ht i hi).2, Option.map_some, methodOf_text]

end Verif.FArc
