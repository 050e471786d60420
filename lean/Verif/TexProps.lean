import Verif.TexLemmas

/-! # Textures show the image they were given, and surfaces keep their images -/

namespace Verif.FTex

open Verif.FEff (Text text)

/-- C117. Setting the image of a texture, in part: whatever was done with the textures before, the texture then shows that image, or none if none was given; every texture that does not share its old
sampler still shows what it showed. Missing: textures that share the sampler, which lose their image, and ids of images that are not told apart as sub ids. -/
theorem set_image_partial (imgs : List Nat) (name : Nat → Text) (hn : GoodNames imgs name) (s : St × List Nat) (h : Reach imgs name s) (t : Nat) (img : Option Nat) (hl : Legal imgs s (.setImage t img)) :
    ∃ st', setImage s.1 name t img = some st' ∧ image st' t = img ∧ (∀ u, u ≠ t → ¬ Shares s.1 t u → image st' u = image s.1 u) ∧ ∀ u, u ≠ t → Shares s.1 t u → image st' u = none := by
  obtain ⟨st', e, _, _, h1, h2, h3⟩ := setImage_spec (reach_inv hn h) hn t img hl.2 hl.1
  exact ⟨st', e, h1, h3, h2⟩

/-- C117. A new texture shows no image, asking a texture for its sampler gives it one, and neither changes what the textures show. -/
theorem get_sampler (imgs : List Nat) (name : Nat → Text) (hn : GoodNames imgs name) (s : St × List Nat) (h : Reach imgs name s) (t : Nat) :
    (∀ u, (tex s.1 u).isSome → image (addTexture s.1) u = image s.1 u) ∧ image (addTexture s.1) s.1.next = none ∧
    (Legal imgs s (.getSampler t) → ∃ st' i, getSampler s.1 t = some (st', i) ∧ (tex st' t).bind T.sampler = some i ∧ ∀ u, image st' u = image s.1 u) := by
  have hi := reach_inv hn h
  have happ : ∀ u, tex (addTexture s.1) u = (tex s.1 u).or (if s.1.next = u then some ⟨s.1.next, none, []⟩ else none) := by
    intro u
    rw [tex, addTexture, List.find?_append, tex]
    by_cases hu : s.1.next = u <;> simp [hu]
  refine ⟨?_, ?_, ?_⟩
  · intro u hu
    rw [image_eq, image_eq, happ]
    obtain ⟨x, hx⟩ := Option.isSome_iff_exists.1 hu
    rw [hx]; rfl
  · rw [image_eq, happ]
    have : tex s.1 s.1.next = none := by
      rw [tex, List.find?_eq_none]
      intro x hx
      simpa using Nat.ne_of_lt (hi.tnext x hx)
    rw [this]; simp
  · intro hl
    obtain ⟨x, hx⟩ := Option.isSome_iff_exists.1 hl
    rcases hs : x.sampler with _ | i
    · have hk : Inv imgs name (addParam s.1 [] (.sampler none)) s.2 := inv_addParam hi _ _ rfl
      refine ⟨setSampler (addParam s.1 [] (.sampler none)) t (some s.1.next), s.1.next, by rw [getSampler, hx]; simp only [Option.map_some, hs], ?_, ?_⟩
      · rw [tex_setSampler]
        change ((tex s.1 t).map _).bind _ = _
        rw [hx]; simp
      · intro u
        by_cases hu : u = t
        · subst hu
          rw [image_setSampler_self (addParam s.1 _ _) u _ hl, Option.bind_some, image_eq, hx, Option.bind_some, hs, Option.bind_none]
          rcases hm : samplerImage (addParam s.1 [] (.sampler none)) s.1.next with _ | j
          · rfl
          · obtain ⟨p, hp, hpi, f, hkf, _⟩ := (samplerImage_iff hk _ _).1 hm
            rcases List.mem_append.1 hp with hp | hp
            · exact absurd hpi (Nat.ne_of_lt (hi.pnext p hp))
            · simp at hp; subst hp; simp at hkf
        · rw [image_setSampler_other _ _ _ _ hu, image_addParam hi _ _ hk]
    · refine ⟨s.1, i, by rw [getSampler, hx]; simp only [Option.map_some, hs], by rw [hx]; exact hs, fun _ => rfl⟩

/-- C117. When an image is released, exactly the textures that show it show none. -/
theorem image_released (imgs : List Nat) (name : Nat → Text) (hn : GoodNames imgs name) (s : St × List Nat) (h : Reach imgs name s) (img u : Nat) :
    image (releaseImage s.1 img) u = if image s.1 u = some img then none else image s.1 u := by
  have hi := reach_inv hn h
  rw [image_eq, image_eq]
  change (tex s.1 u).bind _ = _
  rcases tex s.1 u with _ | x
  · simp
  · rcases hs : x.sampler with _ | i
    · simp [hs]
    · simp only [Option.bind_some, hs]
      exact samplerImage_releaseImage hi img i

/-- Ids of images for the examples: "a", "aa", "aaa". -/
def exName (n : Nat) : Text := List.replicate (n + 1) 97

/-- Two new textures, 1 and 2. -/
def two : St := addTexture (addTexture ⟨[], [], 1⟩)

example : ((setImage two exName 1 (some 0)).bind fun a => (setImage a exName 2 (some 1)).map fun b => (image b 1, image b 2)) = some (some 0, some 1) := by decide +kernel

example : Reach [0, 1, 2] exName (two, []) := .step .addTexture (.step .addTexture .new trivial rfl) trivial rfl

example : GoodNames [0, 1, 2] exName := by
  refine ⟨by decide +kernel, ?_⟩
  intro a ha
  have : ∀ a ∈ [0, 1, 2], ∃ c t, exName a ++ text "-surface" = c :: t ∧ FXml.startChar c = true ∧ (t.all (FXml.nameChar false)) = true ∧ t.length < 512 := by
    intro a ha
    refine ⟨97, List.replicate a 97 ++ text "-surface", rfl, rfl, ?_⟩
    revert a; decide +kernel
  obtain ⟨c, t, e, h1, h2, h3⟩ := this a ha
  rw [e]
  exact ⟨h1, fun x hx => List.all_eq_true.1 h2 x hx, h3⟩

/-- C117. The negation for textures that show the same image: after both were given image 0, giving one image 1 leaves the other without an image; so does giving it image 0 again. -/
theorem shared_violated :
    ((setImage two exName 1 (some 0)).bind fun a => (setImage a exName 2 (some 0)).bind fun b => (setImage b exName 1 (some 1)).map fun c => (image b 1, image b 2, image c 1, image c 2)) =
      some (some 0, some 0, some 1, none) ∧
    ((setImage two exName 1 (some 0)).bind fun a => (setImage a exName 2 (some 0)).bind fun b => (setImage b exName 1 (some 0)).map fun c => (image c 1, image c 2)) = some (some 0, none) := by
  decide +kernel

/-- C117. The negation for ids with a dot: image 0 is "a.b", image 1 is "a_b". After texture 1 was given image 0, texture 2, given image 1, shows image 0. -/
theorem dot_violated :
    let name : Nat → Text := fun n => if n = 0 then text "a.b" else text "a_b"
    ((setImage two name 1 (some 0)).bind fun a => (setImage a name 2 (some 1)).map fun b => (image b 1, image b 2)) = some (some 0, some 0) := by decide +kernel

/-- C117. The negation for ids that are used again: image 0 with the id "x" is released, and image 1 gets that id; a texture given image 1 shows none. If image 0 is only renamed, it shows image 0. -/
theorem id_reused_violated :
    let name : Nat → Text := fun _ => text "x"
    ((setImage two name 1 (some 0)).bind fun a => (setImage (releaseImage a 0) name 2 (some 1)).map fun b => image b 2) = some none ∧
    ((setImage two name 1 (some 0)).bind fun a => (setImage a (fun n => if n = 0 then text "y" else text "x") 2 (some 1)).map fun b => image b 2) = some (some 0) := by decide +kernel

/-- C117. The sampler of a texture and the surface of a sampler are parameters of the effect, after any textures, images and releases of parameters and of images. -/
theorem pointers_live (name : Nat → Text) (ops : List POp) (s s' : St × List Nat) (h : Live s.1) (e : ops.foldlM (pstep name) s = some s') : Live s'.1 := by
  induction ops generalizing s with
  | nil => cases e; exact h
  | cons o ops ih =>
    rw [List.foldlM_cons] at e
    obtain ⟨s1, e1, e2⟩ := Option.bind_eq_some_iff.1 e
    refine ih s1 ?_ e2
    cases o with
    | release i => cases e1; exact live_release h i
    | op o =>
      cases o with
      | addTexture =>
        cases e1
        refine ⟨fun t ht i hi => ?_, h.2⟩
        rcases List.mem_append.1 ht with ht | ht
        · exact h.1 t ht i hi
        · rw [List.mem_singleton] at ht
          subst ht
          exact nomatch hi
      | getSampler t =>
        simp only [pstep, step, getSampler, Option.map_eq_some_iff] at e1
        obtain ⟨_, ⟨x, hx, rfl⟩, rfl⟩ := e1
        simp only
        split
        · exact h
        · exact live_setSampler (live_addParam h _ _ (by simp)) _ _ ⟨_, List.mem_append_right _ (List.mem_singleton.2 rfl), rfl⟩
      | setImage t img =>
        simp only [pstep, step, Option.map_eq_some_iff] at e1
        obtain ⟨st, hst, rfl⟩ := e1
        exact live_setImage h name t img hst
      | releaseImage img =>
        cases e1
        have hid : ∀ p : P, (P.lose img p).id = p.id := by intro p; rw [P.lose.eq_def]; split <;> rfl
        have hm : ∀ i, (∃ q ∈ s.1.params, q.id = i) → ∃ q ∈ (releaseImage s.1 img).params, q.id = i := by
          rintro i ⟨q, hq, e⟩
          exact ⟨_, List.mem_map.2 ⟨q, hq, rfl⟩, (hid q).trans e⟩
        refine ⟨fun t ht i hi => hm i (h.1 t ht i hi), fun p hp f hf => ?_⟩
        obtain ⟨p', hp', rfl⟩ := List.mem_map.1 hp
        refine hm f (h.2 p' hp' f ?_)
        rw [P.lose.eq_def] at hf
        split at hf
        · exact nomatch hf
        · exact hf

/-- A surface is released, and the sampler of the texture stays without it. -/
example : Live (⟨[], [], 1⟩ : St) ∧ ([.op .addTexture, .op (.setImage 1 (some 0)), .release 2].foldlM (pstep exName) (⟨[], [], 1⟩, [])).map (fun s => (s.1.params, s.1.texs)) =
    some ([⟨3, text "a-sampler", .sampler none⟩], [⟨1, some 3, []⟩]) := by
  refine ⟨⟨by simp, by simp⟩, by decide +kernel⟩
/-! ## Surfaces -/

/-- C118. An image is found in a surface exactly if it is there, at its first place. -/
theorem find_image (s : Surf) (img : Nat) :
    (findImage s img = none ↔ img ∉ s.images) ∧ ∀ i, findImage s img = some i ↔ s.images[i]? = some img ∧ ∀ j < i, s.images[j]? ≠ some img := by
  refine ⟨by rw [findImage]; exact List.idxOf?_eq_none_iff, fun i => ?_⟩
  rw [findImage]
  generalize s.images = l
  induction l generalizing i with
  | nil => simp
  | cons a l ih =>
    rw [List.idxOf?_cons]
    by_cases h : a = img
    · subst h
      simp only [beq_self_eq_true, if_true, Option.some.injEq]
      constructor
      · rintro rfl; simp
      · rintro ⟨_, hj⟩
        rcases i with _ | i
        · rfl
        · exact absurd rfl (hj 0 (by omega))
    · simp only [beq_iff_eq, h, if_false]
      rcases i with _ | i
      · simp [h]
      · rw [Option.map_eq_some_iff]
        constructor
        · rintro ⟨k, hk, hki⟩
          have : k = i := by omega
          subst this
          obtain ⟨h1, h2⟩ := (ih k).1 hk
          refine ⟨by simpa using h1, fun j hj => ?_⟩
          rcases j with _ | j
          · simpa using h
          · simpa using h2 j (by omega)
        · rintro ⟨h1, h2⟩
          exact ⟨i, (ih i).2 ⟨by simpa using h1, fun j hj => by simpa using h2 (j + 1) (by omega)⟩, rfl⟩

/-- C118. Adding an image, in part: without an index, a new image becomes the last and its index is given back, and an image that is there is not added again. Missing: the index of an image that is
there, and adding at an index. -/
theorem add_image_partial (s : Surf) (img : Nat) :
    (img ∉ s.images → ∃ s' i, addImage s img none = some (s', some i) ∧ s'.images = s.images ++ [img] ∧ s'.order = s.order ∧ findImage s' img = some i) ∧
    (img ∈ s.images → ∀ i, ∃ r, addImage s img i = some (s, r)) := by
  refine ⟨fun h => ?_, fun h i => ?_⟩
  · have h0 := (find_image s img).1.2 h
    refine ⟨{ s with images := s.images ++ [img] }, s.images.length, by rw [addImage.eq_def, h0], rfl, rfl, ?_⟩
    refine ((find_image _ img).2 _).2 ⟨by simp, fun j hj => ?_⟩
    simp only
    rw [List.getElem?_append_left hj]
    intro e
    exact h (List.mem_of_getElem? e)
  · rcases hf : findImage s img with _ | k
    · exact absurd h ((find_image s img).1.1 hf)
    · exact ⟨i, by rw [addImage.eq_def, hf]⟩

/-- C118. The negation for adding at an index: it never adds the image. Every index in the list, the end included, is refused, and every other is undefined. -/
theorem add_at_violated (s : Surf) (img i : Nat) (h : img ∉ s.images) : addImage s img (some i) = if i ≤ s.images.length then some (s, none) else none := by
  rw [addImage.eq_def, (find_image s img).1.2 h]
  simp only
  by_cases hi : i ≤ s.images.length
  · rw [if_neg (by omega), if_pos hi]
  · rw [if_pos (by omega), if_neg hi]

/-- C118. The negation for the index given back of an image that is there: it is the index asked for, so none when none was asked for, not the index of the image. -/
theorem add_index_violated (s : Surf) (img : Nat) (i : Option Nat) (h : img ∈ s.images) : addImage s img i = some (s, i) := by
  rcases hf : findImage s img with _ | k
  · exact absurd h ((find_image s img).1.1 hf)
  · rw [addImage.eq_def, hf]

/-- C118. Removing an image takes it away and nothing else, and every face of a cube map that showed another image shows it still; the faces that showed it are set to the first image. -/
theorem remove_image (s : Surf) (img : Nat) (hd : s.images.Nodup) :
    (removeImage s img).images = s.images.filter (fun i => decide (i ≠ img)) ∧ img ∉ (removeImage s img).images ∧
    (∀ k j, face s k = some j → j ≠ img → face (removeImage s img) k = some j) ∧
    ∀ k, face s k = some img → face (removeImage s img) k = (removeImage s img).images[0]? := by
  rcases hf : findImage s img with _ | i
  · have hm := (find_image s img).1.1 hf
    have he : removeImage s img = s := by rw [removeImage, hf]
    rw [he]
    refine ⟨?_, hm, fun _ _ h _ => h, ?_⟩
    · rw [List.filter_eq_self.2]
      intro a ha
      simpa using fun e : a = img => hm (e ▸ ha)
    · intro k hk
      rw [face, Option.bind_eq_some_iff] at hk
      obtain ⟨o, _, hk⟩ := hk
      rw [Option.bind_eq_some_iff] at hk
      obtain ⟨i, _, hk⟩ := hk
      exact absurd (List.mem_of_getElem? hk) hm
  · obtain ⟨h1, _⟩ := ((find_image s img).2 i).1 hf
    have he : removeImage s img = { images := s.images.eraseIdx i, order := s.order.map (List.map (shift i)) } := by rw [removeImage, hf]
    obtain ⟨hlt, hget⟩ := List.getElem?_eq_some_iff.1 h1
    have hfil : s.images.eraseIdx i = s.images.filter (fun a => decide (a ≠ img)) := by
      rw [← hget]
      have := List.Nodup.erase_getElem hd i hlt
      rw [← this, List.Nodup.erase_eq_filter hd]
      apply List.filter_congr
      intro a _
      rw [Bool.eq_iff_iff]; simp
    have hface : ∀ k j, face s k = some j → ∃ o a, s.order = some o ∧ o[k]? = some a ∧ s.images[a]? = some j := by
      intro k j hk
      rw [face, Option.bind_eq_some_iff] at hk
      obtain ⟨o, ho, hk⟩ := hk
      rw [Option.bind_eq_some_iff] at hk
      obtain ⟨a, ha, hk⟩ := hk
      exact ⟨o, a, ho, ha, hk⟩
    have huniq : ∀ a, s.images[a]? = some img → a = i := by
      intro a ha
      obtain ⟨hla, hga⟩ := List.getElem?_eq_some_iff.1 ha
      exact (List.Nodup.getElem_inj_iff hd).1 (hga.trans hget.symm)
    rw [he]
    refine ⟨hfil, ?_, ?_, ?_⟩
    · simp only; rw [hfil]; simp
    · intro k j hk hj
      obtain ⟨o, a, ho, ha, hs⟩ := hface k j hk
      have hai : a ≠ i := by
        rintro rfl
        rw [h1] at hs
        exact hj (Option.some.inj hs).symm
      simp only [face, ho, Option.map_some, Option.bind_some, List.getElem?_map, ha]
      rw [shift, if_neg hai]
      split
      · rename_i hgt
        rw [List.getElem?_eraseIdx_of_ge (by omega), show a - 1 + 1 = a by omega, hs]
      · rw [List.getElem?_eraseIdx_of_lt (by omega), hs]
    · intro k hk
      obtain ⟨o, a, ho, ha, hs⟩ := hface k img hk
      have := huniq a hs
      subst this
      simp only [face, ho, Option.map_some, Option.bind_some, List.getElem?_map, ha]
      rw [shift, if_pos rfl]

/-- What a program does with the images of a surface. -/
inductive SOp where
  | add (img : Nat) (index : Option Nat)
  | remove (img : Nat)
  | gone (img : Nat)

/-- The step of an operation. -/
def sstep (s : Surf) : SOp → Option Surf
  | .add img i => (addImage s img i).map Prod.fst
  | .remove img => some (removeImage s img)
  | .gone img => some (imageGone s img)

/-- C118. No image is twice in a surface, whatever is added, removed or released. -/
theorem images_distinct (ops : List SOp) (s s' : Surf) (hd : s.images.Nodup) (h : ops.foldlM sstep s = some s') : s'.images.Nodup := by
  induction ops generalizing s with
  | nil => obtain rfl := Option.some.inj h; exact hd
  | cons op ops ih =>
    rw [List.foldlM_cons, Option.bind_eq_bind, Option.bind_eq_some_iff] at h
    obtain ⟨s1, h1, h2⟩ := h
    refine ih s1 ?_ h2
    rcases op with ⟨img, i⟩ | img | img
    · by_cases hm : img ∈ s.images
      · rw [sstep, add_index_violated s img i hm] at h1
        obtain rfl := Option.some.inj h1
        exact hd
      · rcases i with _ | i
        · obtain ⟨s', k, e, hi, _⟩ := (add_image_partial s img).1 hm
          rw [sstep, e] at h1
          obtain rfl := Option.some.inj h1
          rw [hi, List.nodup_append]
          exact ⟨hd, by simp, fun a ha b hb => by simp at hb; subst hb; rintro rfl; exact hm ha⟩
        · rw [sstep, add_at_violated s img i hm] at h1
          split at h1
          · obtain rfl := Option.some.inj h1; exact hd
          · simp at h1
    · obtain rfl := Option.some.inj h1
      rw [(remove_image s img hd).1]
      exact hd.filter _
    · obtain rfl := Option.some.inj h1
      exact hd.erase _

/-- C118. The negation for released images: the faces of a cube map are not told, so the last face, which showed image 12, shows none, and the first, which showed the released image, shows image 11. -/
theorem image_gone_violated :
    let s : Surf := ⟨[10, 11, 12], some [0, 1, 2]⟩
    (List.range 3).map (face s) = [some 10, some 11, some 12] ∧ (List.range 3).map (face (imageGone s 10)) = [some 11, some 12, none] ∧
    (List.range 3).map (face (removeImage s 10)) = [some 11, some 11, some 12] := by decide +kernel

example : face (removeImage ⟨[10, 11, 12], some [2, 0, 1, 0, 2, 1]⟩ 11) 0 = some 12 := by decide +kernel

end Verif.FTex
