import Verif.ArcTexLinkSpec
import Verif.ArcEffProps

/-! # Lemmas about the linking of samplers and textures -/

namespace Verif.FArc

open Verif.FEff (Text text)

/-- In a list of parameters with different references, each one is found. -/
theorem find_ref : ∀ {ps : List Parm}, (ps.map Parm.ref).Nodup → ∀ {p : Parm}, p ∈ ps → ∀ f : Parm → Bool, f p = true → (ps.find? fun q => decide (q.ref = p.ref) && f q) = some p
  | [], _, _, h, _, _ => nomatch h
  | a :: ps, hn, p, hp, f, hf => by
    rw [List.map_cons, List.nodup_cons] at hn
    rcases List.mem_cons.1 hp with rfl | hp
    · exact List.find?_cons_of_pos (by simp [hf])
    · rw [List.find?_cons_of_neg, find_ref hn.2 hp f hf]
      have : a.ref ≠ p.ref := fun e => hn.1 (e ▸ List.mem_map_of_mem hp)
      simp [this]

theorem isSamp_after (rnd : ℚ → ℚ) (p : Parm) : isSamp (parmAfter rnd p) = isSamp p := by
  unfold isSamp parmAfter
  cases p.body <;> rfl

theorem samplerFor_after (rnd : ℚ → ℚ) (ps : List Parm) (sid : Text) : samplerFor (ps.map (parmAfter rnd)) sid = (samplerFor ps sid).map (parmAfter rnd) := by
  unfold samplerFor
  rw [List.find?_map, show ((fun p : Parm => decide (p.ref = sid) && isSamp p) ∘ parmAfter rnd) = fun p => decide (p.ref = sid) && isSamp p from funext fun p => by
    simp only [Function.comp, isSamp_after]
    rfl]

theorem linkSamp_after (rnd : ℚ → ℚ) {ps : List Parm} (hn : (ps.map Parm.ref).Nodup) {q : Parm} (hq : q ∈ ps) {f : Surf} (hf : q.body = .surface f) {s : Samp} (hs : s.surface = q.ref) :
    linkSamp (ps.map (parmAfter rnd)) (sampAfter s) = some (parmAfter rnd q) := by
  unfold linkSamp
  rw [List.find?_map]
  have : (ps.find? ((fun p : Parm => decide (p.ref = (sampAfter s).surface)) ∘ parmAfter rnd)) = some q := by
    have := find_ref hn hq (fun _ => true) rfl
    simp only [Bool.and_true] at this
    rw [← this, show ((fun p : Parm => decide (p.ref = (sampAfter s).surface)) ∘ parmAfter rnd) = fun p => decide (p.ref = q.ref) from funext fun p => by
      show decide (p.ref = s.surface) = _
      rw [hs]]
  rw [this, Option.map_some, Option.bind_some]
  have hb : (parmAfter rnd q).body = .surface (surfAfter rnd f) := by
    unfold parmAfter
    rw [hf]
    rfl
  rw [hb]

/-- The first image of a sampler is found again among the parameters that come back. -/
theorem sampImage_after (rnd : ℚ → ℚ) {doc : List Text} {ps : List Parm} (hn : (ps.map Parm.ref).Nodup) {p q : Parm} (hq : q ∈ ps) {s : Samp} (hp : p.body = .sampler s) {f : Surf} (hf : q.body = .surface f)
    (hs : s.surface = q.ref) (hw : AllWritten f) (hd : f.images.Nodup) (hi : ∀ id ∈ f.images, id ∈ doc) : sampImage doc (ps.map (parmAfter rnd)) (parmAfter rnd p) = f.images.head? := by
  have hb : (parmAfter rnd p).body = .sampler (sampAfter s) := by
    unfold parmAfter
    rw [hp]
    rfl
  have hc : (parmAfter rnd q).body = .surface (surfAfter rnd f) := by
    unfold parmAfter
    rw [hf]
    rfl
  unfold sampImage
  rw [hb]
  simp only
  rw [linkSamp_after rnd hn hq hf hs, Option.map_some, hc]
  simp only
  rw [surface_images_partial rnd doc f hw hd hi]

end Verif.FArc
