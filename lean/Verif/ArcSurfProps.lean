import Verif.ArcSurfLemmas
import Verif.ArcCamProps

/-!
# C162: surfaces are saved and loaded
-/

namespace Verif.FArc

open Verif.FEff (Text text)
open Verif.FConv (Ov Formats shown)
open Verif.FFx (Init Hint)

/-- **C162, partial.** A surface is written, and what is written is loaded as `surfAfter` says: type, format, hint, number of mip levels and, when they are written, size and ratio come back.
Missing: the flag for the generation of mip maps, a ratio beside a size, the order of a cube, and the images and the size in the cases of `surface_violated`. -/
theorem surface_roundtrip_partial (ov : Ov) {fmt rnd} (hf : Formats fmt rnd) (s : Surf) (h : GoodSurf s) : ∃ n, surfNode fmt s = some n ∧ loadSurf ov n = some (surfAfter rnd s) := by
  obtain ⟨ns, e1, e2, e3⟩ := loadInit_write s h
  obtain ⟨v, hv⟩ := Option.ne_none_iff_exists'.1 h.size
  have hn : surfNode fmt s = some (.elem (text "surface") [(text "type", s.type)] [] (ns ++ surfTail fmt s v)) := by
    unfold surfNode surfTail
    rw [e1, Option.bind_some, hv, Option.map_some]
    simp only [List.append_assoc]
    rfl
  refine ⟨_, hn, ?_⟩
  have hc : ∀ a, a ∉ [text "init_from", text "init_as_null", text "init_as_target", text "init_cube", text "init_volume", text "init_planar"] →
      (Node.elem (text "surface") [(text "type", s.type)] [] (ns ++ surfTail fmt s v)).child a = (Node.elem (text "surface") [(text "type", s.type)] [] (surfTail fmt s v)).child a := by
    intro a ha
    rw [child_append, child_other fun k hk (e : k.name = a) => ha (e ▸ e2 k hk), Option.none_or]
  obtain ⟨c1, c2, c3, c4, c5, c6⟩ := tail_children fmt s v (text "surface") [] [(text "type", s.type)]
  unfold loadSurf
  rw [prop_raw (t := s.type) (by rw [raw_cons, if_pos rfl]) h.type, Option.bind_some, e3 _ _ _ (tail_named fmt s v), Option.bind_some, hc _ (by decide +kernel), hc _ (by decide +kernel), hc _ (by decide +kernel),
    hc _ (by decide +kernel), hc _ (by decide +kernel), hc _ (by decide +kernel), c1, c2, c3, c4, c5, c6]
  have hsize : readSize ov (direct (if v ≠ (0, 0, 0) then some (textChild (text "size") (vecText fmt v)) else none)) = some (sizeAfter rnd s.size) := by
    rw [hv]
    unfold sizeAfter
    by_cases h0 : v = (0, 0, 0)
    · simp only [h0, ne_eq, not_true, if_false, if_true]; rfl
    · simp only [h0, ne_eq, not_false_eq_true, if_true, if_false]
      unfold readSize
      rw [show direct (some (textChild (text "size") (vecText fmt v))) = encode (vecText fmt v) from rfl, show vecText fmt v = numsText fmt [v.1, v.2.1, v.2.2] from rfl, encode_nums hf, if_neg,
        show numsText fmt [v.1, v.2.1, v.2.2] = vecText fmt v from rfl, readV3_vecText ov hf, Option.map_some]
      obtain ⟨L, -, -, -, h4⟩ := lits hf
      rw [h4]
      simp [FConv.joined]
  have hratio : readNum ov (direct (if v = (0, 0, 0) ∧ s.ratio ≠ 1 then some (textChild (text "viewport_ratio") (numText fmt s.ratio)) else none)) =
      some (if s.size = some (0, 0, 0) ∧ s.ratio ≠ 1 then shown rnd s.ratio else 0) := by
    rw [hv]
    simp only [Option.some.injEq]
    split
    · rw [show direct (some (textChild (text "viewport_ratio") (numText fmt s.ratio))) = encode (numText fmt s.ratio) from rfl, numText_eq hf, encode_nums hf, ← numText_eq hf, readNum_numText ov hf]
    · cases ov <;> rfl
  have hmips : ∃ i, readInt ov (direct (if s.mips = 0 then none else some (textChild (text "mip_levels") (intText s.mips)))) = some i ∧ (i % 65536).toNat = s.mips := by
    have hb := h.mips
    by_cases h0 : s.mips = 0
    · rw [if_pos h0, h0]
      exact ⟨0, by cases ov <;> rfl, rfl⟩
    · rw [if_neg h0, show direct (some (textChild (text "mip_levels") (intText s.mips))) = encode (intText s.mips) from rfl, encode_intText, readInt_intText ov _ (by omega)]
      exact ⟨_, rfl, by omega⟩
  obtain ⟨i, hi1, hi2⟩ := hmips
  rw [hsize, Option.bind_some, hratio, Option.bind_some, hi1, Option.bind_some, show readBool (direct none) = some false from rfl, Option.map_some]
  unfold surfAfter
  rw [hi2]
  have hfm : loadFormat (if s.format = [] then none else some (textChild (text "format") s.format)) = if s.format = [] then text "A8R8G8B8" else s.format := by
    by_cases h0 : s.format = []
    · simp only [h0, if_true]; rfl
    · simp only [h0, if_false]
      exact encode_unescaped h.format
  have hh : (s.hint.map hintNode).map loadHint = s.hint := by
    cases hx : s.hint with
    | none => rfl
    | some x => rw [Option.map_some, Option.map_some, loadHint_write x (h.hint x hx)]
  rw [hfm, hh]

/-- **C162, partial.** When all images of a surface are written and the document has them, they are found again, in their order. -/
theorem surface_images_partial (rnd : ℚ → ℚ) (doc : List Text) (s : Surf) (hw : AllWritten s) (hn : s.images.Nodup) (hd : ∀ t ∈ s.images, t ∈ doc) : (linkSurf doc (surfAfter rnd s)).images = s.images := by
  have hnames : (initAfter s.images s.init).1 = s.images := by
    unfold AllWritten at hw
    have one : s.images.length = 1 → s.images.take 1 = s.images ∧ [s.images.flatten] = s.images := by
      intro h
      obtain ⟨a, e⟩ := List.length_eq_one_iff.1 h
      rw [e]; simp
    split at hw
    · next m sl f e =>
      rw [e]
      unfold initAfter
      simp only
      split
      · rw [if_neg hw.1]
        rcases hw.2 with h1 | h1
        · exact (one h1).2
        · omega
      · rfl
    · next t e =>
      rw [e]
      unfold initAfter
      simp only [hw.1, if_true]
      exact (one hw.2).1
    · next t o e =>
      rw [e]
      unfold initAfter
      simp only
      rcases hw with hw | hw
      · rw [if_pos hw.1]; exact (one hw.2).1
      · rw [if_neg (by omega), if_pos hw]
    · next e =>
      rw [e]
      exact (one hw).1
    · rw [hw]
      unfold initAfter
      split <;> first | rfl | skip
      · split <;> rfl
      · split <;> rfl
      · split
        · rfl
        · split <;> rfl
  unfold linkSurf surfAfter
  rw [hnames]
  simp only
  have : ∀ (l acc : List Text), (acc ++ l).Nodup → (∀ t ∈ l, t ∈ doc) → l.foldl (fun l n => if n ∈ doc ∧ n ∉ l then l ++ [n] else l) acc = acc ++ l := by
    intro l
    induction l with
    | nil => intro acc _ _; simp
    | cons a l ih =>
      intro acc h1 h2
      rw [List.foldl_cons, if_pos ⟨h2 a (by simp), fun hm => by
        have := (List.nodup_append.1 h1).2.2 a hm a (by simp)
        exact this rfl⟩, ih _ (by simpa using h1) fun t ht => h2 t (by simp [ht])]
      simp
  exact this s.images [] (by simpa using hn) hd

/-- A surface of the two first images of a cube, with a hint. -/
def sampleSurf : Surf := { images := [text "img1", text "img2.b"], init := some (.from_ [text "0"] [] []), hint := some ⟨2, 5, 3, [0, 3, 0]⟩, size := some (1, 2, 3), mips := 4, type := text "CUBE" }

theorem sampleSurf_good : GoodSurf sampleSurf where
  ids := by
    intro t ht
    rcases List.mem_cons.1 ht with rfl | ht
    · exact ⟨by decide, by decide +kernel, by decide +kernel, by decide +kernel⟩
    · rw [List.mem_singleton.1 ht]
      exact ⟨by decide, by decide +kernel, by decide +kernel, by decide +kernel⟩
  first := by simp [sampleSurf]
  attrs := by
    intro m sl f e t ht
    obtain ⟨rfl, rfl, rfl⟩ : [text "0"] = m ∧ [] = sl ∧ [] = f := by simpa [sampleSurf] using e
    rw [show t = text "0" by simpa using ht]
    exact hplain _ (by decide)
  format := by unfold Unescaped FXml.IsChar; decide +kernel
  type := hplain _ (by decide)
  hint := by
    intro h e
    obtain rfl : (⟨2, 5, 3, [0, 3, 0]⟩ : Hint) = h := by simpa [sampleSurf] using e
    exact ⟨by decide, by decide, by decide, by decide⟩
  size := by simp [sampleSurf]
  mips := by decide

example : AllWritten sampleSurf ∧ sampleSurf.images.Nodup := ⟨⟨by decide, by decide⟩, by decide⟩

example : (surfNode fmt02 sampleSurf).bind (loadSurf .wrap) =
    some { names := [text "img1", text "img2.b"], init := some (.from_ [] [] []), hint := some ⟨2, 5, 3, [0, 3, 0]⟩, size := some (2, 2, 2), ratio := 0, mips := 4, type := text "CUBE" } := by decide +kernel

/-- **C162, violated.** Two images that are each written for a face are loaded as one name, so that no image is found. A surface without size is loaded with an indeterminate one, and the ratio 1 and the generation of
mip maps are lost. The five images of a cube, the second image of a volume, and a method without images, are lost. Without images a planar surface cannot be written. -/
theorem surface_violated :
    (((surfNode fmt02 { images := [text "a", text "b"], init := some (.from_ [] [] [text "POSITIVE_X", text "NEGATIVE_X"]) }).bind (loadSurf .wrap)).map fun s => (s.names, (linkSurf [text "a", text "b"] s).images)) =
      some ([text "ab"], []) ∧
    ((surfNode fmt02 { generate := true }).bind (loadSurf .wrap)).map (fun s => (s.size, s.ratio, s.generate)) = some (none, 0, false) ∧
    ((surfNode fmt02 { images := [text "a", text "b", text "c", text "d", text "e"], init := some (.cube 2 []) }).bind (loadSurf .wrap)).map (fun s => (s.names, s.init)) = some ([], some (.cube 0 [])) ∧
    ((surfNode fmt02 { images := [text "a", text "b"], init := some (.volume 1) }).bind (loadSurf .wrap)).map (fun s => (s.names, s.init)) = some ([text "a"], some (.volume 1)) ∧
    ((surfNode fmt02 { init := some (.from_ [] [] []) }).bind (loadSurf .wrap)).map (fun s => (s.names, s.init)) = some ([], none) ∧
    surfNode fmt02 { init := some .planar } = none := by
  refine ⟨?_, ?_, ?_, ?_, ?_, ?_⟩ <;> decide +kernel

end Verif.FArc
