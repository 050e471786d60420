import Verif.ArcImgLemmas
import Verif.ArcCamProps

/-!
# C168: images and materials survive saving and loading
-/

namespace Verif.FArc

open Verif.FEff (Text text)
open Verif.FConv (Ov DateTime Formats shown)

/-- **C168, partial.** What is written for an image is read back: its common part, its size, and the path of its file, which is written relative to the folder of the document, or as a URI if it shares no folder with it, with
any characters in its names but separators and delimiters of URIs. Saving leaves the image as it was, as in C145. Missing: other paths and documents in the root folder (`image_file_violated`, `image_root_violated`). -/
theorem image_roundtrip_partial (ov : Ov) {fmt rnd} (hf : Formats fmt rnd) (now now' : DateTime) (hn : GoodDate now) (stack : List FUri.Uri) (D : List Text) (hs : stack.getLast? = some (FPath.folderUri D)) (hD : GoodFolder D)
    (i : Img) (ts : List FExtra.Tech) (es : List FExtra.EType) (hx : i.ent.extra = ⟨[], ts⟩ :: es) (h : GoodEnt ov rnd i.ent) (ht : i.ent.target = []) (hi : GoodImg D i) :
    ∃ k i', writeImg ov fmt now stack i = some (k, i') ∧
      i' = { i with ent := { i.ent with asset := i.ent.asset.map fun a => { a with modified := now }, extra := if i.ent.note = [] then ⟨[], ts⟩ :: es else ⟨[], withoutTech ts⟩ :: es } } ∧
      loadImg ov now' stack {} k = some { i with ent := entAfter ov rnd now i.ent (extraAfter i.ent ts es) } := by
  obtain ⟨as, ns, h1, h2, h3, h4⟩ := ent_back ov hf now now' hn (text "image") i.ent ts es hx h ht
  have hmid : ∃ mid, imgFrom ov stack i.file = some mid ∧ (∀ k ∈ mid, k.name = text "init_from") ∧ ∃ t, fullContent mid.head? = some t ∧ imgFile ov stack t = some i.file := by
    rcases hi.file with e | ⟨F, name, e, hg⟩
    · refine ⟨[], by rw [e]; rfl, by simp, [], rfl, ?_⟩
      rw [e]
      cases ov <;> rfl
    · have hne : i.file ≠ [] := by
        rw [e]; intro e'
        have := FUri.abs_head (F ++ [name]) (by simp)
        rw [e'] at this; simp at this
      have hp := (FUri.file_path_parse ov _ (FUri.abs_head (F ++ [name]) (by simp)) (FUri.abs_free _ hg.names)).1
      obtain ⟨t, t1, t2, t3, t4⟩ := file_back ov stack D F name hs hD hg
      obtain ⟨x, x1, -, -⟩ := FXml.filename_roundtrip t [] [] t3
      have hsz : (FUri.abs (F ++ [name])).length < 2 ^ 61 := by have := hg.size; omega
      refine ⟨[textChild (text "init_from") x], ?_, fun k hk => by rw [List.mem_singleton.1 hk]; exact name_textChild _ _, t, ?_, ?_⟩
      · unfold imgFrom imgUrl
        rw [if_neg hne, e, hp, Option.bind_some, t1, Option.bind_some, x1, Option.map_some]
      · show content (textChild (text "init_from") x) = some t
        exact content_filename t3 x1
      · have hu := file_uri_back ov (FPath.folderUri D) (F ++ [name]) hg.names (by simp) hsz
        unfold imgFile setFile
        rw [if_neg t2, hs, Option.bind_some, t4, Option.bind_some, hp, Option.bind_some, if_neg (by simp [FUri.absoluteUri, FUri.schemeText, FUri.fileT]), Option.bind_some, hu, e]
  obtain ⟨mid, m1, m2, t, m3, m4⟩ := hmid
  refine ⟨_, _, by unfold writeImg; rw [m1, Option.bind_some, h3, Option.map_some], rfl, ?_⟩
  simp only [Node.name, Node.attrs, Node.kids, Node.direct]
  have hat : ∀ x ∈ imgAttrs i, x.1 ≠ text "id" ∧ x.1 ≠ text "name" := by
    intro x hx
    unfold imgAttrs countAttr at hx
    simp only [List.mem_append] at hx
    rcases hx with (hx | hx) | hx <;>
    · split at hx
      · rw [List.mem_singleton.1 hx]; simp [text_inj]
      · cases hx
  have hl := h4 mid (imgAttrs i) (fun k hk => by rw [m2 k hk]; simp [text_inj]) hat
  have hc : (Node.elem (text "image") (entAttrs true i.ent ++ imgAttrs i) [] (as ++ mid ++ ns)).child (text "init_from") = mid.head? := by
    unfold Node.child
    rw [kids_elem, List.find?_append, List.find?_append]
    have e1 : as.find? (fun c => decide (c.name = text "init_from")) = none := by
      rw [List.find?_eq_none]; intro k hk; simp [h1 k hk, text_inj]
    have e2 : ns.find? (fun c => decide (c.name = text "init_from")) = none := by
      rw [List.find?_eq_none]; intro k hk; simp [h2 k hk, text_inj]
    have e3 : mid.find? (fun c => decide (c.name = text "init_from")) = mid.head? := by
      cases mid with
      | nil => rfl
      | cons k mid => rw [List.find?_cons_of_pos (by simp [m2 k (by simp)])]; rfl
    rw [e1, e2, e3, Option.none_or, Option.or_none]
  obtain ⟨r1, r2, r3⟩ := imgAttrs_raw i.ent i (as ++ mid ++ ns)
  unfold loadImg
  rw [hl, Option.bind_some, if_neg (by simp [Node.name]), sizeIn_back hi.width r1, Option.bind_some, sizeIn_back hi.height r2, Option.bind_some, sizeIn_back hi.depth r3, Option.bind_some, hc, m3, Option.bind_some, m4, Option.map_some]

/-- A texture next to a document. -/
def sampleImg : Img := { ent := { id := text "img", name := text "wood" }, file := text "/home/me/my images/wood.png", width := 640, height := 480 }

example : GoodFolder [text "home", text "me", text "scenes"] ∧ GoodImg [text "home", text "me", text "scenes"] sampleImg ∧ GoodEnt .wrap (fun _ => 3 / 2) sampleImg.ent ∧ sampleImg.ent.extra = ⟨[], []⟩ :: [] ∧
    sampleImg.ent.target = [] := by
  refine ⟨⟨by simp, ?_⟩, ⟨Or.inr ⟨[text "home", text "me", text "my images"], text "wood.png", by decide +kernel, ?_, ?_, by decide +kernel⟩, by decide, by decide, by decide⟩,
    ⟨hplain _ (by decide +kernel), ⟨by decide +kernel, by decide +kernel, by decide +kernel⟩, hplain _ (by decide), hplain _ (by decide +kernel), by simp [sampleImg],
    ⟨⟨_, rfl, rfl⟩, by decide +kernel, ?_⟩, ?_⟩, rfl, rfl⟩
  · unfold FUri.Name FUri.Free; decide +kernel
  · unfold FUri.Name FUri.Free; decide +kernel
  · unfold FXml.IsChar; decide +kernel
  · intro t ht
    simp only [sampleImg, FExtra.newExtra, List.mem_singleton] at ht
    subst ht
    exact ⟨plain_nil, by decide, by simp⟩
  · intro t ht _
    simp only [sampleImg, FExtra.newExtra, List.mem_singleton] at ht
    subst ht
    simp [NoParams]

/-- What the file of an image is written as from the folder `/home/me/`, and what it is after loading. -/
def reloadedFile (ov : Ov) (folders : List Text) (file : Text) : Option (Text × Text) :=
  (writeImg ov fmt02 sampleDate [FPath.folderUri folders] { file := file }).bind fun k => (loadImg ov sampleDate [FPath.folderUri folders] {} k.1).map fun i => (direct (k.1.child (text "init_from")), i.file)

example (ov : Ov) : reloadedFile ov [text "home", text "me", text "scenes"] sampleImg.file = some (text "../my%20images/wood.png", sampleImg.file) := by
  cases ov <;> decide +kernel

/-- **C168, violated.** A file name is cut at a `#`, and at a `?`. -/
theorem image_file_violated (ov : Ov) : (reloadedFile ov [text "home", text "me"] (text "/home/me/a#1.png")).map Prod.snd = some (text "/home/me/a") ∧
    (reloadedFile ov [text "home", text "me"] (text "/home/me/a?1.png")).map Prod.snd = some (text "/home/me/a") := by
  refine ⟨?_, ?_⟩ <;> cases ov <;> decide +kernel

/-- **C168, violated.** From a document in the root folder no image can be saved that is on the same machine: this is undefined behaviour. -/
theorem image_root_violated (ov : Ov) (fmt : ℚ → Text) (now : DateTime) : writeImg ov fmt now [FPath.folderUri []] { file := text "/b.png" } = none := by
  have h : imgFrom ov [FPath.folderUri []] (text "/b.png") = none := by cases ov <;> decide +kernel
  unfold writeImg
  rw [h, Option.bind_none]

/-! ## Materials -/

/-- **C168, partial.** What is written for a material with an effect of the document is read back: its common part, the effect, the hints in their order and the parameters that change a value. Saving leaves the material as it
was, as in C145. Missing: parameters that declare a value (`material_newparam_violated`), materials without an effect (`material_unlinked_violated`). -/
theorem material_roundtrip_partial (ov : Ov) {fmt rnd} (hf : Formats fmt rnd) (now now' : DateTime) (hn : GoodDate now) (stack : List FUri.Uri) (effects : List Text)
    (m : Mtl) (ts : List FExtra.Tech) (es : List FExtra.EType) (hx : m.ent.extra = ⟨[], ts⟩ :: es) (h : GoodEnt ov rnd m.ent) (ht : m.ent.target = []) (hm : GoodMtl effects m) :
    ∃ k m', writeMtl ov fmt now stack effects m = some (k, m') ∧
      m' = { m with ent := { m.ent with asset := m.ent.asset.map fun a => { a with modified := now }, extra := if m.ent.note = [] then ⟨[], ts⟩ :: es else ⟨[], withoutTech ts⟩ :: es } } ∧
      loadMtl ov now' effects {} k =
        some ({ m with ent := entAfter ov rnd now m.ent (extraAfter m.ent ts es), params := (m.params.filter fun q => decide (q.role ≠ .generator)).map (parmAfter rnd) }, []) := by
  obtain ⟨as, ns, h1, h2, h3, h4⟩ := ent_back ov hf now now' hn (text "material") m.ent ts es hx h ht
  obtain ⟨ks, c1, c2⟩ := parms_spec ov hf m.params hm.params
  obtain ⟨r1, u, r2, r3⟩ := ref_back ov stack hm.effect
  have he : effectElem ov fmt stack effects m = some (.elem (text "instance_effect") [(text "url", 35 :: m.effect)] [] (m.hints.map hintElem ++ ks)) := by
    unfold effectElem
    rw [if_pos hm.found, r1, Option.bind_some, c1, Option.map_some]
  refine ⟨_, _, by unfold writeMtl; rw [he, Option.bind_some, h3, Option.map_some], rfl, ?_⟩
  have hl := h4 [.elem (text "instance_effect") [(text "url", 35 :: m.effect)] [] (m.hints.map hintElem ++ ks)] [] (fun k hk => by rw [List.mem_singleton.1 hk]; exact ⟨text_ne (by decide), text_ne (by decide)⟩) (by simp)
  rw [List.append_nil] at hl
  have hc : (Node.elem (text "material") (entAttrs true m.ent) [] (as ++ [.elem (text "instance_effect") [(text "url", 35 :: m.effect)] [] (m.hints.map hintElem ++ ks)] ++ ns)).child (text "instance_effect") =
      some (.elem (text "instance_effect") [(text "url", 35 :: m.effect)] [] (m.hints.map hintElem ++ ks)) := by
    unfold Node.child
    rw [kids_elem, List.append_assoc, List.find?_append]
    have e1 : as.find? (fun c => decide (c.name = text "instance_effect")) = none := by
      rw [List.find?_eq_none]; intro k hk; simp [h1 k hk, text_inj]
    rw [e1, Option.none_or]
    exact List.find?_cons_of_pos (decide_eq_true rfl)
  unfold loadMtl
  rw [hl, Option.bind_some, if_neg (by simp [Node.name]), hc, Option.bind_some, prop_raw (by rw [raw_cons, if_pos rfl]) (ref_plain hm.effect), Option.bind_some, r2, Option.bind_some, r3, id_clean hm.effect, Option.bind_some,
    kids_elem, List.foldlM_append, hints_load ov _ hm.hints, Option.bind_eq_bind, Option.bind_some, mtl_params_load ov c2, Option.map_some, if_pos hm.found]
  simp

/-- A material that changes a colour, with a hint. -/
def sampleMtl : Mtl where
  ent := { id := text "mat", name := text "red" }
  effect := text "fx"
  hints := [(text "PC", text "common")]
  params := [⟨.modifier, text "DIFFUSE", [], [], .float3 false (2, 0, 0)⟩]

theorem sampleMtl_params : ∀ p ∈ sampleMtl.params, GoodParm p := by
  intro p hp
  rw [show sampleMtl.params = [⟨.modifier, text "DIFFUSE", [], [], .float3 false (2, 0, 0)⟩] from rfl, List.mem_singleton] at hp
  subst hp
  exact ⟨Or.inr rfl, ⟨by decide +kernel, by decide +kernel, by decide +kernel⟩, by decide +kernel, plain_nil, fun _ => rfl, by simp, trivial⟩

example : GoodMtl [text "other", text "fx"] sampleMtl ∧ GoodEnt .wrap (fun _ => 3 / 2) sampleMtl.ent ∧ sampleMtl.ent.extra = ⟨[], []⟩ :: [] ∧ sampleMtl.ent.target = [] := by
  refine ⟨⟨⟨by decide +kernel, by decide +kernel, by decide +kernel⟩, by decide +kernel, ?_, sampleMtl_params⟩,
    ⟨hplain _ (by decide +kernel), ⟨by decide +kernel, by decide +kernel, by decide +kernel⟩, hplain _ (by decide), hplain _ (by decide +kernel), by simp [sampleMtl],
    ⟨⟨_, rfl, rfl⟩, by decide +kernel, ?_⟩, ?_⟩, rfl, rfl⟩
  · intro h hh
    rw [show sampleMtl.hints = [(text "PC", text "common")] from rfl, List.mem_singleton] at hh
    subst hh
    exact ⟨hplain _ (by decide +kernel), hplain _ (by decide +kernel)⟩
  · intro t ht
    simp only [sampleMtl, FExtra.newExtra, List.mem_singleton] at ht
    subst ht
    exact ⟨plain_nil, by decide, by simp⟩
  · intro t ht _
    simp only [sampleMtl, FExtra.newExtra, List.mem_singleton] at ht
    subst ht
    simp [NoParams]

/-- **C168, violated.** The hints of a material are not cleared when it is loaded, unlike its parameters: whatever the element, the hints that it had come first. -/
theorem material_hints_violated (ov : Ov) (now : DateTime) (effects : List Text) (m m' : Mtl) (ws : List MtlWarning) (n : Node) (h : loadMtl ov now effects m n = some (m', ws)) : m.hints <+: m'.hints := by
  have kid : ∀ (K : List Node) (a b : Mtl), K.foldlM (loadMtlKid ov) a = some b → a.hints <+: b.hints := by
    intro K
    induction K with
    | nil => intro a b e; obtain rfl := Option.some.inj e; exact List.prefix_refl _
    | cons k K ih =>
      intro a b e
      rw [List.foldlM_cons] at e
      obtain ⟨c, hc, e⟩ := Option.bind_eq_some_iff.1 e
      refine List.IsPrefix.trans ?_ (ih c b e)
      unfold loadMtlKid at hc
      split at hc
      · obtain ⟨p, -, rfl⟩ := Option.map_eq_some_iff.1 hc
        exact List.prefix_refl _
      · split at hc
        · obtain ⟨x, -, hc⟩ := Option.bind_eq_some_iff.1 hc
          obtain ⟨y, -, rfl⟩ := Option.map_eq_some_iff.1 hc
          exact List.prefix_append _ _
        · obtain rfl := Option.some.inj hc; exact List.prefix_refl _
  unfold loadMtl at h
  obtain ⟨s, -, h⟩ := Option.bind_eq_some_iff.1 h
  split at h
  · obtain ⟨rfl, -⟩ := Prod.mk.inj (Option.some.inj h)
    exact List.prefix_refl _
  · obtain ⟨e, -, h⟩ := Option.bind_eq_some_iff.1 h
    obtain ⟨t, -, h⟩ := Option.bind_eq_some_iff.1 h
    obtain ⟨u, -, h⟩ := Option.bind_eq_some_iff.1 h
    obtain ⟨id, -, h⟩ := Option.bind_eq_some_iff.1 h
    obtain ⟨b, hb, h⟩ := Option.map_eq_some_iff.1 h
    obtain ⟨rfl, -⟩ := Prod.mk.inj h
    exact kid _ { ent := s, effect := id, hints := m.hints } _ hb

/-- **C168, violated.** A `material` element without an `instance_effect`, whatever else is in it, is not loaded with a warning: its children are read through a null pointer. -/
theorem material_empty_violated (ov : Ov) (now : DateTime) (effects : List Text) (m : Mtl) (n : Node) (hn : n.name = text "material") (h : n.child (text "instance_effect") = none) : loadMtl ov now effects m n = none := by
  unfold loadMtl
  cases loadEnt ov now m.ent n with
  | none => rfl
  | some s => rw [Option.bind_some, if_neg (by simp [hn]), h, Option.bind_none]

example : (leaf (text "material")).name = text "material" ∧ (leaf (text "material")).child (text "instance_effect") = none := ⟨rfl, rfl⟩

/-- What of a material is there after saving and loading: its effect, the number of its parameters and of its hints, and whether there were no warnings. -/
def reloadedMtl (ov : Ov) (effects : List Text) (m : Mtl) : Option ((Text × Nat) × (Nat × Bool)) :=
  (writeMtl ov fmt02 sampleDate [] effects m).bind fun k => (loadMtl ov sampleDate effects {} k.1).map fun r => ((r.1.effect, r.1.params.length), (r.1.hints.length, decide (r.2 = [])))

/-- **C168, violated.** A parameter of a material that declares a value is written and not read. -/
theorem material_newparam_violated (ov : Ov) : reloadedMtl ov [text "fx"] { effect := text "fx", params := [⟨.generator, text "a", [], [], .bool true⟩] } = some ((text "fx", 0), (0, true)) := by
  cases ov <;> decide +kernel

/-- **C168, violated.** A material whose effect is not there loses its reference, its hints and its parameters. -/
theorem material_unlinked_violated (ov : Ov) : reloadedMtl ov [] sampleMtl = some (([], 0), (0, false)) := by
  cases ov <;> decide +kernel

end Verif.FArc
