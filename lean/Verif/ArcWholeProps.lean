import Verif.ArcWholeLemmas
import Verif.ArcTreeProps

/-!
# C177: whole documents are the same after saving and loading

Wanted: every document is loaded as it was saved, but for times of modification, with its numbers as they are shown. That is not so: see the theorems that end in `violated`, here and for the parts.
-/

namespace Verif.FArc

open Verif.FEff (Text text)
open Verif.FConv (Ov DateTime Formats shown)

/-- **C177, partial.** A document with any number of cameras, lights, images, materials, physics materials and physics scenes in its libraries, and any elements in the others, is loaded from its file with the same libraries:
each entity in its place with its values as they are shown, the assets and extra trees of the libraries, the asset, the scenes and the extra tree of the document. Saving leaves the document as it was, but for times of
modification and empty techniques. Missing: what the round trips of the parts leave out, and the assets of libraries without entities (`library_asset_violated`). -/
theorem whole_roundtrip_partial (ov : Ov) {fmt rnd} (hf : Formats fmt rnd) (now now' : DateTime) (hn : GoodDate now) (stack : List FUri.Uri) (D : List Text) (hs : stack.getLast? = some (FPath.folderUri D)) (hD : GoodFolder D)
    (d : TDoc Cam Light) (h : GoodTDoc ov rnd D d) :
    ∃ n, saveDoc ov fmt now stack d = some (n, docSaved now d) ∧ n.name = text "COLLADA" ∧ loadDoc ov now' stack n = some (docBack ov rnd now d) := by
  obtain ⟨A, a1, a2⟩ := asset_roundtrip_partial ov hf now now' d.asset hn h.asset
  obtain ⟨C, c1, c2, c3, c4, c5, c6⟩ := tlib_back ov hf now now' hn (cam_member ov hf now now' hn) d.cameras h.cameras
  obtain ⟨L, l1, l2, l3, l4, l5, l6⟩ := tlib_back ov hf now now' hn (light_member ov hf now now' hn) d.lights h.lights
  obtain ⟨I, i1, i2, i3, i4, i5, i6⟩ := tlib_back ov hf now now' hn (img_member ov hf now now' hn stack D hs hD) d.images h.images
  obtain ⟨M, m1, m2, m3, m4, m5, m6⟩ := tlib_back ov hf now now' hn (mtl_member ov hf now now' hn stack (effectIds (d.others .effect).ents)) d.materials h.materials
  obtain ⟨P, p1, p2, p3, p4, p5, p6⟩ := tlib_back ov hf now now' hn (pmat_member ov hf now now' hn) d.physicsMaterials h.physicsMaterials
  obtain ⟨S, s1, s2, s3, s4, s5, s6⟩ := tlib_back ov hf now now' hn (pscene_member ov hf now now' hn) d.physicsScenes h.physicsScenes
  have c7 := h.cameras.extra
  rw [← c4] at c7
  have l7 := h.lights.extra
  rw [← l4] at l7
  have i7 := h.images.extra
  rw [← i4] at i7
  have m7 := h.materials.extra
  rw [← m4] at m7
  have p7 := h.physicsMaterials.extra
  rw [← p4] at p7
  have s7 := h.physicsScenes.extra
  rw [← s4] at s7
  have hg : GoodDoc ov ⟨A, libsOf C L I M P S d.others, d.physics, d.scene, d.extra⟩ := by
    refine ⟨writeAsset_name (r := (_, _)) a1, fun k => ?_, fun k => ?_, fun k => ?_, h.extra, h.noLibraries, h.links, h.unused⟩
    · cases k <;> first | exact c2 | exact l2 | exact i2 | exact m2 | exact p2 | exact s2 | exact h.libAsset _
    · cases k <;> first | exact c3 | exact l3 | exact i3 | exact m3 | exact p3 | exact s3 | exact h.ents _
    · cases k <;> first | exact c7 | exact l7 | exact i7 | exact m7 | exact p7 | exact s7 | exact h.libExtra _
  obtain ⟨n, r, e1, e2, e3, e4, e5, e6, e7, e8, e9, e10⟩ := document_roundtrip_partial ov stack _ hg
  refine ⟨n, ?_, e2, ?_⟩
  · unfold saveDoc
    simp only [a1, c1, l1, i1, m1, p1, s1, Option.bind_some, e1, Option.map_some]
    rfl
  · unfold loadDoc
    have kept_iff : ∀ {α : Type} {l : TLib α} {X : Lib} (k : Kind), k ≠ .animation → k ≠ .emitter → k ≠ .unknown → libsOf C L I M P S d.others k = X → (l.kept ↔ X.ents ≠ [] ∨ FExtra.hasContent X.extra = true) →
        (DocParts.kept ⟨A, libsOf C L I M P S d.others, d.physics, d.scene, d.extra⟩ k ↔ l.kept) := by
      intro α l X k h1 h2 h3 h4 h5
      unfold DocParts.kept
      rw [h5, ← h4]
      simp [h1, h2, h3]
    have rd : ∀ {α β : Type} {l : TLib α} {X : Lib} (k : Kind) {ld : Node → Option β} {b : TLib β}, k ≠ .animation → k ≠ .emitter → k ≠ .unknown → libsOf C L I M P S d.others k = X →
        (l.kept ↔ X.ents ≠ [] ∨ FExtra.hasContent X.extra = true) →
        (∀ (r : DocLoaded) (k : Kind), r.of k = X.ents → (l.kept → r.assetsOf k = X.asset.toList ∧ r.libExtra k = X.extra) → (¬ l.kept → r.assetsOf k = [] ∧ r.libExtra k = FExtra.newExtra) →
          readTLib ov now' ld r k = some b) → readTLib ov now' ld r k = some b := by
      intro α β l X k ld b h1 h2 h3 h4 h5 h6
      refine h6 r k ?_ ?_ ?_
      · rw [e5, ← h4]
      · intro hk
        rw [← h4]
        exact e6 k ((kept_iff k h1 h2 h3 h4 h5).2 hk)
      · intro hk
        exact e10 k fun e => hk ((kept_iff k h1 h2 h3 h4 h5).1 e)
    have he : r.of .effect = (d.others .effect).ents := e5 .effect
    rw [e3, Option.bind_some, e4, List.foldlM_cons, a2, rd .camera (by decide) (by decide) (by decide) rfl c5 c6, rd .light (by decide) (by decide) (by decide) rfl l5 l6,
      rd .image (by decide) (by decide) (by decide) rfl i5 i6, he, rd .material (by decide) (by decide) (by decide) rfl m5 m6, rd .physicsMaterial (by decide) (by decide) (by decide) rfl p5 p6,
      rd .physicsScene (by decide) (by decide) (by decide) rfl s5 s6]
    simp only [Option.bind_eq_bind, Option.bind_some, List.foldlM_nil, Option.pure_def, Option.map_some]
    have ho : readOther r = otherBack d := by
      funext k
      have hu : typedKind k = false → readOther r k = otherBack d k := by
        intro ht
        have hl : libsOf C L I M P S d.others k = d.others k := by cases k <;> first | rfl | cases ht
        have hm : k ∉ [Kind.camera, .light, .image, .material, .physicsMaterial, .physicsScene] := by cases k <;> first | decide | cases ht
        have hk : DocParts.kept ⟨A, libsOf C L I M P S d.others, d.physics, d.scene, d.extra⟩ k ↔
            ¬ ((d.others k).ents = [] ∧ (k = .animation ∨ k = .emitter ∨ k = .unknown ∨ FExtra.hasContent (d.others k).extra = false)) := by
          unfold DocParts.kept
          simp only [hl]
          rw [not_and_or, not_or, not_or, not_or, Bool.not_eq_false]
        have h5 := e5 k
        simp only [hl] at h5
        unfold readOther otherBack
        rw [if_neg hm, ht, if_neg (by decide)]
        split
        · rename_i hc
          obtain ⟨h6, h7⟩ := e10 k fun e => hk.1 e hc
          rw [h5, h6, h7, hc.1]
          rfl
        · rename_i hc
          obtain ⟨h6, h7⟩ := e6 k (hk.2 hc)
          rw [h5, h6, h7]
          simp only [hl, Option.head?_toList]
      cases k <;> first | rfl | exact hu rfl
    rw [ho, e7, e8, e9]
    rfl

/-- An asset as a new document has it. -/
theorem newAsset_good (ov : Ov) : GoodAsset ov (fun _ => 3 / 2) (FEnt.newAsset sampleDate) := by
  refine ⟨?_, ?_, plain_nil, plain_nil, plain_nil, plain_nil, ⟨?_, by decide⟩, ?_, by decide⟩
  · unfold GoodDate; decide
  · intro c hc
    cases hc
  · unfold Plain FXml.IsChar; decide
  · unfold shown FEnt.newAsset; norm_num

/-- A document with two cameras in a library with an asset, a light, an image, a material of its effect, a physics material and a physics scene. -/
def sampleWhole : TDoc Cam Light where
  asset := FEnt.newAsset sampleDate
  cameras := { asset := some (FEnt.newAsset sampleDate), ents := [{ ent := { id := text "c1" }, near := 2 }, { ent := { id := text "c2" }, ortho := true }] }
  lights := { ents := [{ ent := { id := text "l1" }, kind := .spot }] }
  images := { ents := [{ ent := { id := text "i1" }, file := text "/home/me/my images/wood.png", width := 640, height := 480 }] }
  materials := { ents := [{ ent := { id := text "m1" }, effect := text "fx" }] }
  physicsMaterials := { ents := [{ ent := { id := text "p1" }, restitution := 2 }] }
  physicsScenes := { ents := [{ ent := { id := text "s1" }, step := 2 }] }
  others := fun k => if k = .effect then { ents := [.elem (text "effect") [(text "id", text "fx")] [] []] } else {}

theorem member_good (ov : Ov) (rnd : ℚ → ℚ) (id : Text) (h : Plain id) : GoodMember ov rnd { id := id } := ⟨newEnt_good ov rnd id [] h plain_nil, [], [], rfl⟩

theorem sampleWhole_good : GoodTDoc .wrap (fun _ => 3 / 2) [text "home", text "me", text "scenes"] sampleWhole := by
  refine ⟨newAsset_good _, ⟨?_, ?_, Or.inl rfl⟩, ⟨?_, ?_, Or.inl rfl⟩, ⟨?_, ?_, Or.inl rfl⟩, ⟨?_, ?_, Or.inl rfl⟩, ⟨?_, ?_, Or.inl rfl⟩, ⟨?_, ?_, Or.inl rfl⟩, ?_, ?_, ?_, Or.inl rfl, ?_, ?_, rfl⟩
  · rintro a ⟨⟩; exact newAsset_good _
  · intro x hx
    simp only [sampleWhole, List.mem_cons, List.not_mem_nil, or_false] at hx
    rcases hx with rfl | rfl
    · exact ⟨member_good _ _ _ (hplain _ (by decide +kernel)), fun h => by cases h⟩
    · exact ⟨member_good _ _ _ (hplain _ (by decide +kernel)), fun h => by cases h⟩
  · rintro a ⟨⟩
  · intro x hx
    simp only [sampleWhole, List.mem_cons, List.not_mem_nil, or_false] at hx
    subst hx
    refine ⟨member_good _ _ _ (hplain _ (by decide +kernel)), ?_⟩
    rintro t es ⟨⟩
    intro t ht
    cases ht
  · rintro a ⟨⟩
  · intro x hx
    simp only [sampleWhole, List.mem_cons, List.not_mem_nil, or_false] at hx
    subst hx
    refine ⟨member_good _ _ _ (hplain _ (by decide +kernel)), rfl, Or.inr ⟨[text "home", text "me", text "my images"], text "wood.png", by decide +kernel, ?_, ?_, by decide +kernel⟩, by decide, by decide, by decide⟩
    · unfold FUri.Name FUri.Free; decide +kernel
    · unfold FXml.IsChar; decide +kernel
  · rintro a ⟨⟩
  · intro x hx
    simp only [sampleWhole, List.mem_cons, List.not_mem_nil, or_false] at hx
    subst hx
    exact ⟨member_good _ _ _ (hplain _ (by decide +kernel)), rfl, ⟨by decide +kernel, by decide +kernel, by decide +kernel⟩, by decide +kernel, fun h hh => (by cases hh), fun h hh => (by cases hh)⟩
  · rintro a ⟨⟩
  · intro x hx
    simp only [sampleWhole, List.mem_cons, List.not_mem_nil, or_false] at hx
    subst hx
    exact ⟨member_good _ _ _ (hplain _ (by decide +kernel)), rfl⟩
  · rintro a ⟨⟩
  · intro x hx
    simp only [sampleWhole, List.mem_cons, List.not_mem_nil, or_false] at hx
    subst hx
    exact ⟨member_good _ _ _ (hplain _ (by decide +kernel)), rfl⟩
  · intro k a h
    simp only [sampleWhole] at h
    split at h <;> cases h
  · intro k n h
    simp only [sampleWhole] at h
    split at h
    · rw [List.mem_singleton.1 h]; simp [Node.name, text_inj]
    · cases h
  · intro k
    simp only [sampleWhole]
    split <;> exact Or.inl rfl
  · intro t ht
    simp only [sampleWhole, FExtra.newExtra, List.mem_singleton] at ht
    subst ht
    decide +kernel
  · intro u hu
    cases hu

example : GoodTDoc .wrap (fun _ => 3 / 2) [text "home", text "me", text "scenes"] sampleWhole ∧ GoodFolder [text "home", text "me", text "scenes"] ∧
    [FPath.folderUri [text "home", text "me", text "scenes"]].getLast? = some (FPath.folderUri [text "home", text "me", text "scenes"]) ∧ sampleWhole.cameras.kept := by
  refine ⟨sampleWhole_good, ⟨by simp, ?_⟩, rfl, Or.inl (by simp [sampleWhole])⟩
  unfold FUri.Name FUri.Free; decide +kernel

/-- **C177.** Libraries do not affect each other: two documents that can be saved in the same folder and have the same cameras are loaded with the same cameras. -/
theorem libraries_independent (ov : Ov) {fmt rnd} (hf : Formats fmt rnd) (now now' : DateTime) (hn : GoodDate now) (stack : List FUri.Uri) (D : List Text) (hs : stack.getLast? = some (FPath.folderUri D)) (hD : GoodFolder D)
    (d e : TDoc Cam Light) (h : GoodTDoc ov rnd D d) (g : GoodTDoc ov rnd D e) (hc : d.cameras = e.cameras) :
    ((saveDoc ov fmt now stack d).bind fun r => (loadDoc ov now' stack r.1).map (·.cameras)) = ((saveDoc ov fmt now stack e).bind fun r => (loadDoc ov now' stack r.1).map (·.cameras)) := by
  obtain ⟨n, h1, -, h2⟩ := whole_roundtrip_partial ov hf now now' hn stack D hs hD d h
  obtain ⟨m, g1, -, g2⟩ := whole_roundtrip_partial ov hf now now' hn stack D hs hD e g
  rw [h1, g1, Option.bind_some, Option.bind_some, h2, g2, Option.map_some, Option.map_some]
  unfold docBack
  simp only [hc]

example : GoodTDoc .wrap (fun _ => 3 / 2) [text "home", text "me", text "scenes"] sampleWhole ∧ sampleWhole.cameras = sampleWhole.cameras := ⟨sampleWhole_good, rfl⟩

/-- **C177, violated.** The asset of a library without entities is lost, whatever is in the rest of the document. -/
theorem library_asset_violated (ov : Ov) {fmt rnd} (hf : Formats fmt rnd) (now now' : DateTime) (hn : GoodDate now) (stack : List FUri.Uri) (D : List Text) (hs : stack.getLast? = some (FPath.folderUri D)) (hD : GoodFolder D)
    (d : TDoc Cam Light) (a : QAsset) (h : GoodTDoc ov rnd D d) (hc : d.cameras = { asset := some a }) :
    ((saveDoc ov fmt now stack d).bind fun r => (loadDoc ov now' stack r.1).map fun e => e.cameras.asset.isSome) = some false := by
  obtain ⟨n, h1, -, h2⟩ := whole_roundtrip_partial ov hf now now' hn stack D hs hD d h
  rw [h1, Option.bind_some, h2, Option.map_some]
  unfold docBack
  simp only [hc]
  rfl

example : GoodTDoc .wrap (fun _ => 3 / 2) [text "home", text "me", text "scenes"] { sampleWhole with cameras := { asset := some (FEnt.newAsset sampleDate) } } :=
  { sampleWhole_good with cameras := ⟨by rintro a ⟨⟩; exact newAsset_good _, fun x hx => (by cases hx), Or.inl rfl⟩ }

end Verif.FArc
