import Verif.ArcWholeSpec
import Verif.ArcCamProps
import Verif.ArcLightProps
import Verif.ArcImgProps
import Verif.ArcBodyProps
import Verif.ArcDocProps

/-! # Lemmas about whole documents in files -/

namespace Verif.FArc

open Verif.FEff (Text text)
open Verif.FConv (Ov DateTime Formats shown)

/-- The name of what is written for an asset. -/
theorem writeAsset_name {ov : Ov} {fmt now a r} (h : writeAsset ov fmt now a = some r) : r.1.name = text "asset" := by
  unfold writeAsset at h
  obtain ⟨x, -, rfl⟩ := Option.map_eq_some_iff.1 h
  rfl

/-- A library is written and read back if each of its entities is. -/
theorem mapM_write_read {α β : Type} {wr : α → Option (Node × α)} {ld : Node → Option β} {sv : α → α} {bk : α → β} :
    ∀ {l : List α}, (∀ x ∈ l, ∃ k, wr x = some (k, sv x) ∧ k.name ≠ text "asset" ∧ k.name ≠ text "extra" ∧ ld k = some (bk x)) →
      ∃ ks, l.mapM wr = some ks ∧ ks.map (·.2) = l.map sv ∧ (∀ k ∈ ks.map (·.1), k.name ≠ text "asset" ∧ k.name ≠ text "extra") ∧ (ks.map (·.1)).mapM ld = some (l.map bk)
  | [], _ => ⟨[], rfl, rfl, by simp, rfl⟩
  | x :: l, h => by
    obtain ⟨k, h1, h2, h3, h4⟩ := h x (List.mem_cons_self ..)
    obtain ⟨ks, g1, g2, g3, g4⟩ := mapM_write_read (l := l) fun y hy => h y (List.mem_cons_of_mem _ hy)
    refine ⟨(k, sv x) :: ks, ?_, by simp [g2], ?_, ?_⟩
    · rw [List.mapM_cons, h1, g1]; rfl
    · intro a ha
      rcases List.mem_cons.1 ha with rfl | ha
      · exact ⟨h2, h3⟩
      · exact g3 a ha
    · rw [List.map_cons, List.mapM_cons, h4, g4]; rfl

/-- What is written for a library, in terms of what `Verif/ArcDoc.lean` needs, and what is read from it. -/
theorem tlib_back {α β : Type} (ov : Ov) {fmt rnd} (hf : Formats fmt rnd) (now now' : DateTime) (hn : GoodDate now) {P : α → Prop} {wr : α → Option (Node × α)} {ld : Node → Option β} {sv : α → α} {bk : α → β}
    (hw : ∀ x, P x → ∃ k, wr x = some (k, sv x) ∧ k.name ≠ text "asset" ∧ k.name ≠ text "extra" ∧ ld k = some (bk x)) (l : TLib α) (h : l.Good ov rnd P) :
    ∃ L : Lib, writeTLib ov fmt now wr l = some (L, l.saved now sv) ∧ (∀ a, L.asset = some a → a.name = text "asset") ∧ (∀ n ∈ L.ents, n.name ≠ text "asset" ∧ n.name ≠ text "extra") ∧
      L.extra = l.extra ∧ (l.kept ↔ L.ents ≠ [] ∨ FExtra.hasContent L.extra = true) ∧
      ∀ (r : DocLoaded) (k : Kind), r.of k = L.ents → (l.kept → r.assetsOf k = L.asset.toList ∧ r.libExtra k = L.extra) → (¬ l.kept → r.assetsOf k = [] ∧ r.libExtra k = FExtra.newExtra) →
        readTLib ov now' ld r k = some (l.back ov rnd now bk) := by
  by_cases hk : l.kept
  · obtain ⟨ks, g1, g2, g3, g4⟩ := mapM_write_read fun x hx => hw x (h.ents x hx)
    have hk' : ¬ (l.ents.isEmpty = true ∧ FExtra.hasContent l.extra = false) := by
      rintro ⟨e1, e2⟩
      rcases hk with e | e
      · exact e (List.isEmpty_iff.1 e1)
      · rw [e2] at e; cases e
    have hlen : ks.map (·.1) ≠ [] ↔ l.ents ≠ [] := by
      have : ks.length = l.ents.length := by simpa using congrArg List.length g2
      rw [← List.length_pos_iff, ← List.length_pos_iff, List.length_map, this]
    obtain ⟨A, a1, a2, a3⟩ : ∃ A : Option Node, writeLibAsset ov fmt now l.asset = some (A, l.asset.map fun a => { a with modified := now }) ∧ (∀ a, A = some a → a.name = text "asset") ∧
        readLibAsset ov now' A.toList = some (l.asset.map (assetAfter ov rnd now)) := by
      cases ha : l.asset with
      | none => exact ⟨none, rfl, by simp, rfl⟩
      | some a =>
        obtain ⟨k, k1, k2⟩ := asset_roundtrip_partial ov hf now now' a hn (h.asset a ha)
        refine ⟨some k, by simp only [writeLibAsset, k1]; rfl, ?_, ?_⟩
        · rintro _ ⟨⟩
          exact writeAsset_name (r := (_, _)) k1
        · show ([k].foldlM (loadAsset ov) (FEnt.newAsset now')).map some = _
          rw [List.foldlM_cons, k2]
          rfl
    refine ⟨⟨A, ks.map (·.1), l.extra⟩, ?_, a2, g3, rfl, ?_, ?_⟩
    · unfold writeTLib TLib.saved
      rw [if_neg hk', if_pos hk, a1, Option.bind_some, g1, Option.map_some, g2]
    · exact or_congr_left hlen.symm
    · intro r k e1 e2 _
      obtain ⟨e2, e3⟩ := e2 hk
      unfold readTLib TLib.back
      rw [if_pos hk, e1, e2, e3, a3, Option.bind_some, g4, Option.map_some]
  · have hk' : l.ents.isEmpty = true ∧ FExtra.hasContent l.extra = false := by
      unfold TLib.kept at hk
      rw [not_or] at hk
      exact ⟨by simpa using hk.1, by simpa using hk.2⟩
    refine ⟨⟨none, [], l.extra⟩, ?_, by simp, by simp, rfl, ?_, ?_⟩
    · unfold writeTLib TLib.saved
      rw [if_pos hk', if_neg hk]
    · refine ⟨fun e => absurd e hk, ?_⟩
      rintro (e | e)
      · exact absurd rfl e
      · exact Or.inr e
    · intro r k e1 _ e2
      obtain ⟨e2, e3⟩ := e2 hk
      unfold readTLib TLib.back
      rw [if_neg hk, e1, e2, e3]
      rfl

/-! ## The entities -/

theorem writeCamera_name {ov : Ov} {fmt : ℚ → Text} {now : DateTime} {x : Cam} {r : Node × Cam} (h : writeCamera ov fmt now x = some r) : r.1.name = text "camera" := by
  unfold writeCamera at h
  obtain ⟨a, ha, rfl⟩ := Option.map_eq_some_iff.1 h
  exact (writeEnt_shape ha).1

theorem writeImg_name {ov : Ov} {fmt : ℚ → Text} {now : DateTime} {stack : List FUri.Uri} {x : Img} {r : Node × Img} (h : writeImg ov fmt now stack x = some r) : r.1.name = text "image" := by
  unfold writeImg at h
  obtain ⟨_, -, h⟩ := Option.bind_eq_some_iff.1 h
  obtain ⟨a, ha, rfl⟩ := Option.map_eq_some_iff.1 h
  exact (writeEnt_shape ha).1

theorem writeMtl_name {ov : Ov} {fmt : ℚ → Text} {now : DateTime} {stack : List FUri.Uri} {effects : List Text} {x : Mtl} {r : Node × Mtl} (h : writeMtl ov fmt now stack effects x = some r) : r.1.name = text "material" := by
  unfold writeMtl at h
  obtain ⟨_, -, h⟩ := Option.bind_eq_some_iff.1 h
  obtain ⟨a, ha, rfl⟩ := Option.map_eq_some_iff.1 h
  exact (writeEnt_shape ha).1

theorem writePMat_name {ov : Ov} {fmt : ℚ → Text} {now : DateTime} {x : PMat} {r : Node × PMat} (h : writePMat ov fmt now x = some r) : r.1.name = text "physics_material" := by
  unfold writePMat at h
  obtain ⟨a, ha, rfl⟩ := Option.map_eq_some_iff.1 h
  exact (writeEnt_shape ha).1

theorem writePScene_name {ov : Ov} {fmt : ℚ → Text} {now : DateTime} {x : PScene} {r : Node × PScene} (h : writePScene ov fmt now x = some r) : r.1.name = text "physics_scene" := by
  unfold writePScene at h
  obtain ⟨a, ha, rfl⟩ := Option.map_eq_some_iff.1 h
  exact (writeEnt_shape ha).1

theorem writeLight_name {ov : Ov} {fmt : ℚ → Text} {now : DateTime} {x : Light} {r : Node × Light} (h : writeLight ov fmt now x = some r) : r.1.name = text "light" := by
  unfold writeLight at h
  obtain ⟨_, -, h⟩ := Option.bind_eq_some_iff.1 h
  obtain ⟨a, ha, h'⟩ := Option.bind_eq_some_iff.1 h
  obtain ⟨_, -, rfl⟩ := Option.map_eq_some_iff.1 h'
  exact (writeEnt_shape ha).1

theorem cam_member (ov : Ov) {fmt rnd} (hf : Formats fmt rnd) (now now' : DateTime) (hn : GoodDate now) (x : Cam) (h : GoodCam ov rnd x) :
    ∃ k, writeCamera ov fmt now x = some (k, { x with ent := entSaved now x.ent }) ∧ k.name ≠ text "asset" ∧ k.name ≠ text "extra" ∧ loadCamera ov now' {} k = some (camBack ov rnd now x) := by
  obtain ⟨⟨g, ts, es, hx⟩, hz⟩ := h
  obtain ⟨k, x', h1, h2, h3⟩ := camera_roundtrip_partial ov hf now now' hn x ts es hx g hz
  have hk := writeCamera_name h1
  refine ⟨k, ?_, ?_, ?_, ?_⟩
  · rw [h1, h2]
    unfold entSaved
    rw [hx]
  · rw [show k.name = _ from hk]; exact text_ne (by decide)
  · rw [show k.name = _ from hk]; exact text_ne (by decide)
  · rw [h3]
    unfold camBack entBack
    rw [hx]

theorem light_member (ov : Ov) {fmt rnd} (hf : Formats fmt rnd) (now now' : DateTime) (hn : GoodDate now) (x : Light) (h : GoodLight ov rnd x) :
    ∃ k, writeLight ov fmt now x = some (k, { x with ent := entSavedLit now x.ent }) ∧ k.name ≠ text "asset" ∧ k.name ≠ text "extra" ∧ loadLight ov now' {} k = some (lightBack ov rnd now x) := by
  obtain ⟨⟨g, ts, es, hx⟩, hz⟩ := h
  obtain ⟨k, x', h1, h2, h3⟩ := light_roundtrip_partial ov hf now now' hn x ts es hx g (hz _ _ hx)
  have hk := writeLight_name h1
  refine ⟨k, ?_, ?_, ?_, ?_⟩
  · rw [h1, h2]
    unfold entSavedLit
    rw [hx]
  · rw [show k.name = _ from hk]; exact text_ne (by decide)
  · rw [show k.name = _ from hk]; exact text_ne (by decide)
  · rw [h3]
    unfold lightBack entBackLit
    rw [hx]

theorem img_member (ov : Ov) {fmt rnd} (hf : Formats fmt rnd) (now now' : DateTime) (hn : GoodDate now) (stack : List FUri.Uri) (D : List Text) (hs : stack.getLast? = some (FPath.folderUri D)) (hD : GoodFolder D) (x : Img) (h : GoodMember ov rnd x.ent ∧ x.ent.target = [] ∧ GoodImg D x) :
    ∃ k, writeImg ov fmt now stack x = some (k, { x with ent := entSaved now x.ent }) ∧ k.name ≠ text "asset" ∧ k.name ≠ text "extra" ∧ loadImg ov now' stack {} k = some (imgBack ov rnd now x) := by
  obtain ⟨⟨g, ts, es, hx⟩, ht, hi⟩ := h
  obtain ⟨k, x', h1, h2, h3⟩ := image_roundtrip_partial ov hf now now' hn stack D hs hD x ts es hx g ht hi
  have hk := writeImg_name h1
  refine ⟨k, ?_, ?_, ?_, ?_⟩
  · rw [h1, h2]
    unfold entSaved
    rw [hx]
    simp only [ht, and_true]
  · rw [show k.name = _ from hk]; exact text_ne (by decide)
  · rw [show k.name = _ from hk]; exact text_ne (by decide)
  · rw [h3]
    unfold imgBack entBack
    rw [hx]

theorem mtl_member (ov : Ov) {fmt rnd} (hf : Formats fmt rnd) (now now' : DateTime) (hn : GoodDate now) (stack : List FUri.Uri) (effects : List Text) (x : Mtl) (h : GoodMember ov rnd x.ent ∧ x.ent.target = [] ∧ GoodMtl effects x) :
    ∃ k, writeMtl ov fmt now stack effects x = some (k, { x with ent := entSaved now x.ent }) ∧ k.name ≠ text "asset" ∧ k.name ≠ text "extra" ∧ (loadMtl ov now' effects {} k).map Prod.fst = some (mtlBack ov rnd now x) := by
  obtain ⟨⟨g, ts, es, hx⟩, ht, hi⟩ := h
  obtain ⟨k, x', h1, h2, h3⟩ := material_roundtrip_partial ov hf now now' hn stack effects x ts es hx g ht hi
  have hk := writeMtl_name h1
  refine ⟨k, ?_, ?_, ?_, ?_⟩
  · rw [h1, h2]
    unfold entSaved
    rw [hx]
    simp only [ht, and_true]
  · rw [show k.name = _ from hk]; exact text_ne (by decide)
  · rw [show k.name = _ from hk]; exact text_ne (by decide)
  · rw [h3]
    unfold mtlBack entBack
    rw [hx]; rfl

theorem pmat_member (ov : Ov) {fmt rnd} (hf : Formats fmt rnd) (now now' : DateTime) (hn : GoodDate now) (x : PMat) (h : GoodMember ov rnd x.ent ∧ x.ent.target = []) :
    ∃ k, writePMat ov fmt now x = some (k, { x with ent := entSaved now x.ent }) ∧ k.name ≠ text "asset" ∧ k.name ≠ text "extra" ∧ loadPMat ov now' {} k = some (pmatBack ov rnd now x) := by
  obtain ⟨⟨g, ts, es, hx⟩, ht⟩ := h
  obtain ⟨k, x', h1, h2, h3⟩ := physics_material_roundtrip ov hf now now' hn x ts es hx g ht
  have hk := writePMat_name h1
  refine ⟨k, ?_, ?_, ?_, ?_⟩
  · rw [h1, h2]
    unfold entSaved
    rw [hx]
    simp only [ht, and_true]
  · rw [show k.name = _ from hk]; exact text_ne (by decide)
  · rw [show k.name = _ from hk]; exact text_ne (by decide)
  · rw [h3]
    unfold pmatBack entBack
    rw [hx]

theorem pscene_member (ov : Ov) {fmt rnd} (hf : Formats fmt rnd) (now now' : DateTime) (hn : GoodDate now) (x : PScene) (h : GoodMember ov rnd x.ent ∧ x.ent.target = []) :
    ∃ k, writePScene ov fmt now x = some (k, { x with ent := entSaved now x.ent }) ∧ k.name ≠ text "asset" ∧ k.name ≠ text "extra" ∧ loadPScene ov now' {} k = some (psceneBack ov rnd now x) := by
  obtain ⟨⟨g, ts, es, hx⟩, ht⟩ := h
  obtain ⟨k, x', h1, h2, h3⟩ := scene_values_roundtrip ov hf now now' hn x ts es hx g ht
  have hk := writePScene_name h1
  refine ⟨k, ?_, ?_, ?_, ?_⟩
  · rw [h1, h2]
    unfold entSaved
    rw [hx]
    simp only [ht, and_true]
  · rw [show k.name = _ from hk]; exact text_ne (by decide)
  · rw [show k.name = _ from hk]; exact text_ne (by decide)
  · rw [h3]
    unfold psceneBack entBack
    rw [hx]

end Verif.FArc
