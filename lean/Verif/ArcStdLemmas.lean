import Verif.ArcStdSpec
import Verif.ArcFxLoad

/-! # Lemmas about the saving and loading of the common profile -/

namespace Verif.FArc

open Verif.FEff (Text text Role)
open Verif.FConv (Ov Formats shown)

theorem readV4_numsText (ov : Ov) {fmt rnd} (hf : Formats fmt rnd) (v : V4) : readV4 ov (numsText fmt [v.1, v.2.1, v.2.2.1, v.2.2.2]) = some (shownV4 rnd v) := by
  obtain ⟨t, h1, -, h3⟩ := FConv.vector_roundtrip ov hf [v.1, v.2.1, v.2.2.1, v.2.2.2] (by simp)
  have h := (h3 []).2.1 (by simp)
  unfold readV4 numsText
  rw [h1, Option.getD_some, h]
  rfl

theorem tex_load (ov : Ov) (t : STex) (h : GoodTex ov t) : ∃ u, loadTex ov (texNode t) = some u ∧ TexBack ov t u := by
  have h1 : prop (some (texNode t)) (text "texture") = some t.sid := prop_raw (by unfold texNode; rw [raw_cons, if_pos rfl]) (valid_plain h.sid)
  have h2 : prop (some (texNode t)) (text "texcoord") = some t.sem := prop_raw (by unfold texNode; rw [raw_cons, if_neg (text_ne (by decide)), raw_cons, if_pos rfl]) h.sem
  have h3 : (if t.sid = [] then some [] else FLib.cleanSubId t.sid) = some t.sid := by
    split
    · next e => rw [e]
    · exact clean_good h.sid
  obtain ⟨i, hi⟩ : ∃ i, (if t.sem = [] then some (-1) else readInt ov t.sem) = some i := by
    split
    · exact ⟨_, rfl⟩
    · next e => exact h.number e
  have h4 : (texNode t).children (text "extra") = writeExtra t.extra := children_all fun k hk => extra_named hk
  refine ⟨⟨t.sid, t.sem, i, if FExtra.hasContent t.extra then t.extra else FExtra.newExtra⟩, ?_, ⟨rfl, rfl, ?_, rfl⟩⟩
  · unfold loadTex
    rw [h1, Option.bind_some, h3, Option.bind_some, h2, Option.bind_some, hi, Option.bind_some, h4, fx_extra_load _ h.extra]
    rfl
  · split
    · next e => rw [if_pos e] at hi; exact (Option.some.inj hi).symm
    · next e => rw [if_neg e] at hi; exact hi

theorem texs_load (ov : Ov) (ts : List STex) (h : ∀ t ∈ ts, GoodTex ov t) : ∃ us, (ts.map texNode).mapM (loadTex ov) = some us ∧ List.Forall₂ (TexBack ov) ts us := by
  induction ts with
  | nil => exact ⟨[], rfl, .nil⟩
  | cons t ts ih =>
    obtain ⟨u, e1, e2⟩ := tex_load ov t (h t (by simp))
    obtain ⟨us, f1, f2⟩ := ih fun x hx => h x (by simp [hx])
    refine ⟨u :: us, ?_, .cons e2 f2⟩
    rw [List.map_cons, List.mapM_cons, e1, f1]
    rfl

theorem texs_in (ov : Ov) (n : Text) (as : List (Text × Text)) (ts : List STex) (h : ∀ t ∈ ts, GoodTex ov t) : ∃ us, loadTexs ov (.elem n as [] (ts.map texNode)) = some us ∧ List.Forall₂ (TexBack ov) ts us := by
  obtain ⟨us, e1, e2⟩ := texs_load ov ts h
  refine ⟨us, ?_, e2⟩
  unfold loadTexs
  rw [children_all, e1]
  intro k hk
  obtain ⟨t, -, rfl⟩ := List.mem_map.1 hk
  rfl

theorem texs_none (ov : Ov) (n : Text) (as : List (Text × Text)) (ks : List Node) (h : ∀ k ∈ ks, k.name ≠ text "texture") : loadTexs ov (.elem n as [] ks) = some [] := by
  unfold loadTexs
  rw [children_other h]
  rfl

theorem colorValue_names {fmt : ℚ → Text} {p : SParm V4} : ∀ k ∈ colorValue fmt p, k.name ≠ text "texture" := by
  intro k hk
  unfold colorValue at hk
  split at hk
  · obtain rfl := List.mem_singleton.1 hk; exact text_ne (by decide)
  · obtain rfl := List.mem_singleton.1 hk; exact text_ne (by decide)
  · cases hk

theorem scalarValue_names {fmt : ℚ → Text} {p : SParm ℚ} : ∀ k ∈ scalarValue fmt p, k.name ≠ text "texture" := by
  intro k hk
  unfold scalarValue at hk
  split at hk
  · obtain rfl := List.mem_singleton.1 hk; exact text_ne (by decide)
  · obtain rfl := List.mem_singleton.1 hk; exact text_ne (by decide)
  · cases hk

theorem refName_refParam {t : Text} (h : FXml.ValidId false t) (hn : t ≠ []) : refName (refParam t) = some t := by
  unfold refName
  rw [show prop (some (refParam t)) (text "ref") = some t from prop_raw (by unfold refParam; rw [raw_cons, if_pos rfl]) (valid_plain h), Option.bind_some, if_pos hn]

theorem color_value (ov : Ov) {fmt rnd} (hf : Formats fmt rnd) (n : Text) (as : List (Text × Text)) (p q : SParm V4) (h : GoodSParm p) (hq : q.role = .constant) :
    ∃ r, parseColor ov (.elem n as [] (colorValue fmt p)) [] q = some r ∧ ParmBack (shownV4 rnd) p r := by
  unfold parseColor
  rw [if_neg (by simp)]
  rcases h with h | ⟨h, hv, hn⟩
  · unfold colorValue
    rw [h]
    refine ⟨{ q with value := shownV4 rnd p.value }, ?_, ⟨by rw [h]; exact hq, fun _ => rfl, fun e => by rw [h] at e; cases e⟩⟩
    rw [child_cons, name_textChild, if_neg (text_ne (by decide)), child_nil]
    dsimp only
    rw [child_cons, name_textChild, if_pos rfl]
    show (readV4 ov (encode _)).map _ = _
    rw [encode_nums hf, readV4_numsText ov hf]
    rfl
  · unfold colorValue
    rw [h]
    refine ⟨{ q with role := .referencer, ref := p.ref }, ?_, ⟨h.symm, fun e => (by rw [h] at e; cases e), fun _ => rfl⟩⟩
    dsimp only
    rw [child_cons, if_pos (show (refParam p.ref).name = text "param" from rfl)]
    dsimp only
    rw [refName_refParam hv hn, Option.bind_some, clean_good hv]
    rfl

theorem scalar_value (ov : Ov) {fmt rnd} (hf : Formats fmt rnd) (n : Text) (as : List (Text × Text)) (p q : SParm ℚ) (h : GoodSParm p) (hq : q.role = .constant) :
    ∃ r, parseScalar ov (.elem n as [] (scalarValue fmt p)) [] q = some r ∧ ParmBack (shown rnd) p r := by
  unfold parseScalar
  rw [if_neg (by simp)]
  rcases h with h | ⟨h, hv, hn⟩
  · unfold scalarValue
    rw [h]
    refine ⟨{ q with value := shown rnd p.value }, ?_, ⟨by rw [h]; exact hq, fun _ => rfl, fun e => by rw [h] at e; cases e⟩⟩
    rw [child_cons, show (valueChild (text "float") (numText fmt p.value)).name = text "float" from rfl, if_neg (text_ne (by decide)), child_nil]
    dsimp only
    rw [child_cons, show (valueChild (text "float") (numText fmt p.value)).name = text "float" from rfl, if_pos rfl]
    show (readNum ov (numText fmt p.value)).map _ = _
    rw [readNum_numText ov hf]
    rfl
  · unfold scalarValue
    rw [h]
    refine ⟨{ q with role := .referencer, ref := p.ref }, ?_, ⟨h.symm, fun e => (by rw [h] at e; cases e), fun _ => rfl⟩⟩
    dsimp only
    rw [child_cons, if_pos (show (refParam p.ref).name = text "param" from rfl)]
    dsimp only
    rw [refName_refParam hv hn, Option.bind_some, clean_good hv]
    rfl

theorem back_nil {ov : Ov} {ts us : List STex} (h : List.Forall₂ (TexBack ov) ts us) (hne : ts ≠ []) : us ≠ [] := by
  rintro rfl
  cases h
  exact hne rfl

/-- A colour with its textures. -/
theorem color_load (ov : Ov) {fmt rnd} (hf : Formats fmt rnd) (n : Text) (as : List (Text × Text)) (p : SParm V4) (ts : List STex) (v : V4) (h : GoodSParm p) (ht : ∀ t ∈ ts, GoodTex ov t) :
    ∃ us r, loadTexs ov (.elem n as [] (if ts = [] then colorValue fmt p else ts.map texNode)) = some us ∧ List.Forall₂ (TexBack ov) ts us ∧
      parseColor ov (.elem n as [] (if ts = [] then colorValue fmt p else ts.map texNode)) us { value := v } = some r ∧ ColorBack rnd ts p r := by
  by_cases hts : ts = []
  · subst hts
    obtain ⟨r, e1, e2⟩ := color_value ov hf n as p { value := v } h rfl
    exact ⟨[], r, texs_none ov n as _ colorValue_names, .nil, e1, e2⟩
  · rw [if_neg hts]
    obtain ⟨us, e1, e2⟩ := texs_in ov n as ts ht
    refine ⟨us, { value := (1, 1, 1, 1) }, e1, e2, ?_, ?_⟩
    · unfold parseColor
      rw [if_pos (back_nil e2 hts)]
    · unfold ColorBack
      rw [if_neg hts]

/-- A number with its textures. -/
theorem scalar_load (ov : Ov) {fmt rnd} (hf : Formats fmt rnd) (n : Text) (as : List (Text × Text)) (p : SParm ℚ) (ts : List STex) (v : ℚ) (h : GoodSParm p) (ht : ∀ t ∈ ts, GoodTex ov t) :
    ∃ us r, loadTexs ov (.elem n as [] (if ts = [] then scalarValue fmt p else ts.map texNode)) = some us ∧ List.Forall₂ (TexBack ov) ts us ∧
      parseScalar ov (.elem n as [] (if ts = [] then scalarValue fmt p else ts.map texNode)) us { value := v } = some r ∧ NumBack rnd ts p r := by
  by_cases hts : ts = []
  · subst hts
    obtain ⟨r, e1, e2⟩ := scalar_value ov hf n as p { value := v } h rfl
    exact ⟨[], r, texs_none ov n as _ scalarValue_names, .nil, e1, e2⟩
  · rw [if_neg hts]
    obtain ⟨us, e1, e2⟩ := texs_in ov n as ts ht
    refine ⟨us, { value := 1 }, e1, e2, ?_, ?_⟩
    · unfold parseScalar
      rw [if_pos (back_nil e2 hts)]
    · unfold NumBack
      rw [if_neg hts]

theorem fold_onlyIf (ov : Ov) (c : Prop) [Decidable c] (k : Node) (q r : StdFx × StdSeen) (h : stdStep ov q k = some r) : (onlyIf c k).foldlM (stdStep ov) q = some (if c then r else q) := by
  unfold onlyIf
  split
  · rw [List.foldlM_cons, h]
    rfl
  · rfl

theorem addTexs_nil (f : Chan → List STex) (c : Chan) : addTexs f c [] = f := by
  funext d
  unfold addTexs
  split
  · exact List.append_nil _
  · rfl

/-! ## One parameter -/

theorem seg_emission (ov : Ov) (c : Prop) [Decidable c] {k : Node} {us : List STex} {r : SParm V4} (s : StdFx) (e : StdSeen) (hk : k.name = text "emission") (hu : loadTexs ov k = some us)
    (hr : parseColor ov k us s.emission = some r) :
    (onlyIf c k).foldlM (stdStep ov) (s, e) = some ({ s with emission := if c then r else s.emission, tex := addTexs s.tex .emission (if c then us else []) }, e) := by
  rw [fold_onlyIf ov c k (s, e) ({ s with emission := r, tex := addTexs s.tex .emission us }, e)]
  · by_cases h : c
    · simp only [if_pos h]
    · simp only [if_neg h, addTexs_nil]
  · unfold stdStep colorStep
    simp only [hk, text_inj, String.reduceEq, if_false, if_true, hu, Option.bind_some, hr, Option.map_some]

theorem seg_ambient (ov : Ov) (c : Prop) [Decidable c] {k : Node} {us : List STex} {r : SParm V4} (s : StdFx) (e : StdSeen) (hk : k.name = text "ambient") (hu : loadTexs ov k = some us)
    (hr : parseColor ov k us s.ambient = some r) :
    (onlyIf c k).foldlM (stdStep ov) (s, e) = some ({ s with ambient := if c then r else s.ambient, tex := addTexs s.tex .ambient (if c then us else []) }, e) := by
  rw [fold_onlyIf ov c k (s, e) ({ s with ambient := r, tex := addTexs s.tex .ambient us }, e)]
  · by_cases h : c
    · simp only [if_pos h]
    · simp only [if_neg h, addTexs_nil]
  · unfold stdStep colorStep
    simp only [hk, text_inj, String.reduceEq, if_false, if_true, hu, Option.bind_some, hr, Option.map_some]

theorem seg_diffuse (ov : Ov) (c : Prop) [Decidable c] {k : Node} {us : List STex} {r : SParm V4} (s : StdFx) (e : StdSeen) (hk : k.name = text "diffuse") (hu : loadTexs ov k = some us)
    (hr : parseColor ov k us s.diffuse = some r) :
    (onlyIf c k).foldlM (stdStep ov) (s, e) = some ({ s with diffuse := if c then r else s.diffuse, tex := addTexs s.tex .diffuse (if c then us else []) }, e) := by
  rw [fold_onlyIf ov c k (s, e) ({ s with diffuse := r, tex := addTexs s.tex .diffuse us }, e)]
  · by_cases h : c
    · simp only [if_pos h]
    · simp only [if_neg h, addTexs_nil]
  · unfold stdStep colorStep
    simp only [hk, text_inj, String.reduceEq, if_false, if_true, hu, Option.bind_some, hr, Option.map_some]

theorem seg_specular (ov : Ov) (c : Prop) [Decidable c] {k : Node} {us : List STex} {r : SParm V4} (s : StdFx) (e : StdSeen) (hk : k.name = text "specular") (hu : loadTexs ov k = some us)
    (hr : parseColor ov k us s.specular = some r) :
    (onlyIf c k).foldlM (stdStep ov) (s, e) = some ({ s with specular := if c then r else s.specular, tex := addTexs s.tex .specular (if c then us else []) }, e) := by
  rw [fold_onlyIf ov c k (s, e) ({ s with specular := r, tex := addTexs s.tex .specular us }, e)]
  · by_cases h : c
    · simp only [if_pos h]
    · simp only [if_neg h, addTexs_nil]
  · unfold stdStep colorStep
    simp only [hk, text_inj, String.reduceEq, if_false, if_true, hu, Option.bind_some, hr, Option.map_some]

theorem seg_shininess (ov : Ov) (c : Prop) [Decidable c] {k : Node} {us : List STex} {r : SParm ℚ} (s : StdFx) (e : StdSeen) (hk : k.name = text "shininess") (hu : loadTexs ov k = some us)
    (hr : parseScalar ov k us s.shininess = some r) :
    (onlyIf c k).foldlM (stdStep ov) (s, e) = some ({ s with shininess := if c then r else s.shininess, tex := addTexs s.tex .shininess (if c then us else []) }, e) := by
  rw [fold_onlyIf ov c k (s, e) ({ s with shininess := r, tex := addTexs s.tex .shininess us }, e)]
  · by_cases h : c
    · simp only [if_pos h]
    · simp only [if_neg h, addTexs_nil]
  · unfold stdStep scalarStep
    simp only [hk, text_inj, String.reduceEq, if_false, if_true, hu, Option.bind_some, hr, Option.map_some]

theorem seg_reflect (ov : Ov) (c : Prop) [Decidable c] {k : Node} {us : List STex} {r : SParm V4} (s : StdFx) (e : StdSeen) (hk : k.name = text "reflective") (hu : loadTexs ov k = some us)
    (hr : parseColor ov k us s.reflect = some r) :
    (onlyIf c k).foldlM (stdStep ov) (s, e) = some ({ s with reflect := if c then r else s.reflect, tex := addTexs s.tex .reflection (if c then us else []) }, { e with refl := if c then true else e.refl }) := by
  rw [fold_onlyIf ov c k (s, e) ({ s with reflect := r, tex := addTexs s.tex .reflection us }, { e with refl := true })]
  · by_cases h : c
    · simp only [if_pos h]
    · simp only [if_neg h, addTexs_nil]
  · unfold stdStep colorStep
    simp only [hk, text_inj, String.reduceEq, if_false, if_true, hu, Option.bind_some, hr, Option.map_some]

theorem seg_reflectF (ov : Ov) (c : Prop) [Decidable c] {k : Node} {r : SParm ℚ} (s : StdFx) (e : StdSeen) (hk : k.name = text "reflectivity") (hr : parseScalar ov k [] s.reflectF = some r) :
    (onlyIf c k).foldlM (stdStep ov) (s, e) = some ({ s with reflectF := if c then r else s.reflectF }, { e with refl := if c then true else e.refl }) := by
  rw [fold_onlyIf ov c k (s, e) ({ s with reflectF := r }, { e with refl := true })]
  · by_cases h : c
    · simp only [if_pos h]
    · simp only [if_neg h]
  · unfold stdStep scalarStep
    simp only [hk, text_inj, String.reduceEq, if_false, if_true, hr, Option.map_some]

theorem seg_translF (ov : Ov) (c : Prop) [Decidable c] {k : Node} {r : SParm ℚ} (s : StdFx) (e : StdSeen) (hk : k.name = text "transparency") (hr : parseScalar ov k [] s.translF = some r) :
    (onlyIf c k).foldlM (stdStep ov) (s, e) = some ({ s with translF := if c then r else s.translF }, { e with transl := if c then true else e.transl }) := by
  rw [fold_onlyIf ov c k (s, e) ({ s with translF := r }, { e with transl := true })]
  · by_cases h : c
    · simp only [if_pos h]
    · simp only [if_neg h]
  · unfold stdStep scalarStep
    simp only [hk, text_inj, String.reduceEq, if_false, if_true, hr, Option.map_some]

theorem seg_refraction (ov : Ov) (c : Prop) [Decidable c] {k : Node} {us : List STex} {r : SParm ℚ} (s : StdFx) (e : StdSeen) (hk : k.name = text "index_of_refraction") (hu : loadTexs ov k = some us)
    (hr : parseScalar ov k us s.refraction = some r) :
    (onlyIf c k).foldlM (stdStep ov) (s, e) = some ({ s with refraction := if c then r else s.refraction, tex := addTexs s.tex .refraction (if c then us else []) }, { e with refr := if c then true else e.refr }) := by
  rw [fold_onlyIf ov c k (s, e) ({ s with refraction := r, tex := addTexs s.tex .refraction us }, { e with refr := true })]
  · by_cases h : c
    · simp only [if_pos h]
    · simp only [if_neg h, addTexs_nil]
  · unfold stdStep scalarStep
    simp only [hk, text_inj, String.reduceEq, if_false, if_true, hu, Option.bind_some, hr, Option.map_some]

theorem seg_specF (ov : Ov) (c : Prop) [Decidable c] {k : Node} {us : List STex} {r : SParm ℚ} (s : StdFx) (e : StdSeen) (hk : k.name = text "spec_level") (hu : loadTexs ov k = some us)
    (hr : parseScalar ov k us s.specF = some r) :
    (onlyIf c k).foldlM (stdStep ov) (s, e) = some ({ s with specF := if c then r else s.specF, tex := addTexs s.tex .specLevel (if c then us else []) }, e) := by
  rw [fold_onlyIf ov c k (s, e) ({ s with specF := r, tex := addTexs s.tex .specLevel us }, e)]
  · by_cases h : c
    · simp only [if_pos h]
    · simp only [if_neg h, addTexs_nil]
  · unfold stdStep scalarStep
    simp only [hk, text_inj, String.reduceEq, if_false, if_true, hu, Option.bind_some, hr, Option.map_some]

theorem seg_bump (ov : Ov) (c : Prop) [Decidable c] {k : Node} {us : List STex} (s : StdFx) (e : StdSeen) (hk : k.name = text "bump") (hu : loadTexs ov k = some us) :
    (onlyIf c k).foldlM (stdStep ov) (s, e) = some ({ s with tex := addTexs s.tex .bump (if c then us else []) }, e) := by
  rw [fold_onlyIf ov c k (s, e) ({ s with tex := addTexs s.tex .bump us }, e)]
  · by_cases h : c
    · simp only [if_pos h]
    · simp only [if_neg h, addTexs_nil]
  · unfold stdStep texStep
    simp only [hk, text_inj, String.reduceEq, if_false, if_true, hu, Option.map_some, or_self]

theorem seg_emissionF (ov : Ov) (c : Prop) [Decidable c] {k : Node} {us : List STex} {r : SParm ℚ} (s : StdFx) (e : StdSeen) (hk : k.name = text "emission_level") (hu : loadTexs ov k = some us)
    (hr : parseScalar ov k us s.emissionF = some r) :
    (onlyIf c k).foldlM (stdStep ov) (s, e) = some ({ s with emissionF := if c then r else s.emissionF, isEmission := if c then true else s.isEmission, tex := addTexs s.tex .emission (if c then us else []) }, e) := by
  rw [fold_onlyIf ov c k (s, e) ({ s with emissionF := r, isEmission := true, tex := addTexs s.tex .emission us }, e)]
  · by_cases h : c
    · simp only [if_pos h]
    · simp only [if_neg h, addTexs_nil]
  · unfold stdStep scalarStep
    simp only [hk, text_inj, String.reduceEq, if_false, if_true, hu, Option.bind_some, hr, Option.map_some]

theorem seg_displacement (ov : Ov) (c : Prop) [Decidable c] {k : Node} {us : List STex} (s : StdFx) (e : StdSeen) (hk : k.name = text "displacement") (hu : loadTexs ov k = some us) :
    (onlyIf c k).foldlM (stdStep ov) (s, e) = some ({ s with tex := addTexs s.tex .displacement (if c then us else []) }, e) := by
  rw [fold_onlyIf ov c k (s, e) ({ s with tex := addTexs s.tex .displacement us }, e)]
  · by_cases h : c
    · simp only [if_pos h]
    · simp only [if_neg h, addTexs_nil]
  · unfold stdStep texStep
    simp only [hk, text_inj, String.reduceEq, if_false, if_true, hu, Option.map_some, or_self]

theorem seg_filter (ov : Ov) (c : Prop) [Decidable c] {k : Node} {us : List STex} (s : StdFx) (e : StdSeen) (hk : k.name = text "filter_color") (hu : loadTexs ov k = some us) :
    (onlyIf c k).foldlM (stdStep ov) (s, e) = some ({ s with tex := addTexs s.tex .filter (if c then us else []) }, e) := by
  rw [fold_onlyIf ov c k (s, e) ({ s with tex := addTexs s.tex .filter us }, e)]
  · by_cases h : c
    · simp only [if_pos h]
    · simp only [if_neg h, addTexs_nil]
  · unfold stdStep texStep
    simp only [hk, text_inj, String.reduceEq, if_false, if_true, hu, Option.map_some, or_self]

theorem opaque_load (b : Bool) (s : StdFx) : loadOpaque s (if b then text "RGB_ZERO" else text "A_ONE") = { s with rgbZero := b } := by
  unfold loadOpaque
  cases b
  · rw [if_neg Bool.false_ne_true, if_neg (by decide +kernel), if_pos (by decide +kernel)]
  · rw [if_pos rfl, if_pos (by decide +kernel)]

theorem seg_transl (ov : Ov) {k : Node} {us : List STex} {r : SParm V4} (s : StdFx) (e : StdSeen) (b : Bool) (hk : k.name = text "transparent")
    (hb : prop (some k) (text "opaque") = some (if b then text "RGB_ZERO" else text "A_ONE")) (hu : loadTexs ov k = some us) (hr : parseColor ov k us s.transl = some r) :
    [k].foldlM (stdStep ov) (s, e) = some ({ s with rgbZero := b, transl := r, tex := addTexs s.tex .transparent us }, { e with transl := true }) := by
  rw [List.foldlM_cons]
  unfold stdStep colorStep
  simp only [hk, text_inj, String.reduceEq, if_false, if_true, hb, opaque_load, Option.bind_some, hu, hr, Option.map_some]
  rfl

end Verif.FArc
