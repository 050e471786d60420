import Verif.ArcLightLemmas
import Verif.ArcMeshParts
import Verif.ArcTransProps

/-!
# Lights are saved and loaded (C152)
-/

namespace Verif.FArc

open Verif.FEff (Text text)
open Verif.FConv (Ov DateTime Formats shown)

/-- **C152, partial.** What is written for a light is read back: type, color, intensity and the values that its type has in a file, and its common part with the address of its target; saving leaves the
light as it was, but for the time of modification of its asset and the technique of the library if that is empty. Missing: the values that its type does not have in a file are those of a new light
afterwards, and parameters of the user called as a value of lights are taken for it (`light_violated`); what C145 leaves out. -/
theorem light_roundtrip_partial (ov : Ov) {fmt rnd} (hf : Formats fmt rnd) (now now' : DateTime) (hn : GoodDate now) (l : Light) (ts : List FExtra.Tech) (es : List FExtra.EType)
    (hx : l.ent.extra = ⟨[], ts⟩ :: es) (h : GoodEnt ov rnd l.ent) (hl : NoLightParams ts) :
    ∃ k l', writeLight ov fmt now l = some (k, l') ∧
      l' = { l with ent := { l.ent with asset := l.ent.asset.map fun a => { a with modified := now }, extra := ⟨[], withoutTech ts⟩ :: es } } ∧
      loadLight ov now' {} k = some (lightAfter rnd l (entAfter ov rnd now l.ent (⟨[], withTech ts⟩ :: es)), addressOf l.ent.target) := by
  have hs := h.extra
  rw [hx] at hs
  have hp : NoParams ts := h.params ⟨[], ts⟩ (by rw [hx]; simp) rfl
  have p2 : (ts.map (·.profile)).Nodup := (hs.2.2 _ (List.mem_cons_self ..)).2.1
  have p3 : ∀ x ∈ ts, SaveTech x := (hs.2.2 _ (List.mem_cons_self ..)).2.2
  obtain ⟨A, x, B, h1, h2, h3, h4, h5⟩ := withTech_split ts
  have hW := withTech_save p2 p3
  have hP := withTech_params hp
  have hL : NoLightParams (withTech ts) := by
    unfold withTech
    split
    · exact hl
    · intro t ht
      rcases List.mem_append.1 ht with ht | ht
      · exact hl t ht
      · rw [List.mem_singleton.1 ht]
        intro c hc
        simp [FExtra.blank, FExtra.Node.children] at hc
  rw [h1] at hW hP hL
  set ps := lightParams fmt l with hps
  have hne : ps ≠ [] := by
    rw [hps]
    unfold lightParams
    simp
  have hpush : pushParams ps ts = A ++ addPs ps x :: B := by
    obtain ⟨p, qs, hc⟩ := List.exists_cons_of_ne_nil hne
    rw [hc]
    exact pushParams_split p qs h4 h2 h3
  set y := addPs ps x with hy
  have hok := lightParams_ok hf l
  have hm := mid_save (x := x) (y := y) (addPs_profile ps x) hW (addPs_save ps x (fun p hp => ⟨(lightNames_valid _ (hok p hp).1).2, (hok p hp).2⟩) (hW.2 x (by simp)))
  have hpar : NoParams (A ++ y :: B) := by
    intro t m
    rcases List.mem_append.1 m with m | m
    · exact hP t (by simp [m])
    · rcases List.mem_cons.1 m with rfl | m
      · intro c hc
        rw [hy, addPs_children] at hc
        rcases List.mem_append.1 hc with hc | hc
        · have := hP x (by simp) c hc
          rw [hy, addPs_profile]
          exact this
        · obtain ⟨p, hp, rfl⟩ := List.mem_map.1 hc
          have hn := (hok p hp).1
          rw [paramOf, (lightNames_valid _ hn).1]
          have : ∀ n ∈ lightNames, n ≠ text "target" ∧ n ≠ text "user_properties" ∧ n ≠ text "note" := by decide +kernel
          obtain ⟨q1, q2, q3⟩ := this _ hn
          exact ⟨q1, fun _ => ⟨q2, q3⟩⟩
      · exact hP t (by simp [m])
  have hgood : GoodEnt ov rnd { l.ent with extra := ⟨[], A ++ y :: B⟩ :: es } :=
    ⟨h.id, h.name, h.note, h.target, h.asset, saveable_head hs _ hm.1 hm.2, fun t ht htn => by
      rcases List.mem_cons.1 ht with rfl | ht
      · exact hpar
      · exact h.params t (by rw [hx]; simp [ht]) htn⟩
  obtain ⟨k, w1, w2⟩ := entity_roundtrip_partial ov hf now now' hn (text "light") (by simp [text_inj]) { l.ent with extra := ⟨[], A ++ y :: B⟩ :: es } (A ++ y :: B) es rfl hgood
    [.elem (text "technique_common") [] [] [.elem l.kind.name [] [] (lightValues fmt l)]] (by simp [Node.name, text_inj])
  obtain ⟨s1, s2⟩ := writeEnt_shape w1
  have hyc : y.node.children ≠ [] := by
    rw [hy, addPs_children]
    simp [hne]
  have hwt : withoutTech (A ++ y :: B) = A ++ y :: B := by
    refine List.filter_eq_self.2 fun t ht => ?_
    have hnd := hm.1
    rw [decide_eq_true_eq]
    rintro ⟨q1, q2⟩
    rcases List.mem_append.1 ht with ht | ht
    · exact h3 (q1 ▸ List.mem_map_of_mem ht)
    · rcases List.mem_cons.1 ht with rfl | ht
      · exact hyc q2
      · rw [List.map_append, List.map_cons, List.nodup_append] at hnd
        have := (List.nodup_cons.1 hnd.2.1).1
        rw [hy, addPs_profile, h2] at this
        exact this (q1 ▸ List.mem_map_of_mem ht)
  have hpop := popParams_mid ps A B x h2 h3
  rw [withoutTech_split p2 h2 h3 h5, ← hy] at hpop
  refine ⟨k, _, ?_, rfl, ?_⟩
  · unfold writeLight
    rw [hx, onDefault_head, ← hps, hpush, Option.bind_some, w1, Option.bind_some, hwt]
    simp only [ite_self, onDefault_head, hpop, Option.map_some]
  · have hc : k.child (text "technique_common") = some (.elem (text "technique_common") [] [] [.elem l.kind.name [] [] (lightValues fmt l)]) := by
      rw [s2 _ (by simp [text_inj]) (by simp [text_inj])]
      rfl
    have hext : extraAfter { l.ent with extra := ⟨[], A ++ y :: B⟩ :: es } (A ++ y :: B) es = ⟨[], A ++ y :: B⟩ :: es := by
      unfold extraAfter
      have hcont : FExtra.hasContent (⟨[], A ++ y :: B⟩ :: es) = true := by
        simp [FExtra.hasContent, List.length_pos_iff, hyc]
      have hwith : withTech (A ++ y :: B) = A ++ y :: B := by
        unfold withTech
        rw [if_pos]
        rw [List.map_append, List.map_cons, hy, addPs_profile, h2]
        simp
      rw [hcont, hwith]
      simp
    unfold loadLight
    rw [w2, Option.bind_some, if_neg (by rw [s1]; simp), hc, Option.bind_some, lightValues_load ov hf l, Option.bind_some, loadLightExtra_eq ov hf l _ A B x es hext hL, Option.map_some, h1]
    unfold lightAfter entAfter addressOf
    cases l.kind <;> simp

/-- A light with a target and a parameter of its own. -/
def sampleLight : Light :=
  { ent := { id := text "lamp", target := text "aim", extra := [⟨[], [⟨text "MAYA", .mk [] [] [] [.mk (text "g") (text "a b") [] []]⟩]⟩] }, kind := .spot, color := (1, 0, 2), fallAngle := 30, outer := 40 }

example : GoodEnt .wrap (fun _ => 3 / 2) sampleLight.ent ∧ NoLightParams [⟨text "MAYA", .mk [] [] [] [.mk (text "g") (text "a b") [] []]⟩] := by
  refine ⟨⟨hplain _ (by decide +kernel), trivial, hplain _ (by decide), hplain _ (by decide +kernel), by simp [sampleLight], ⟨⟨_, rfl, rfl⟩, by decide +kernel, ?_⟩, ?_⟩, ?_⟩
  · intro t ht
    simp only [sampleLight, List.mem_singleton] at ht
    subst ht
    refine ⟨plain_nil, by decide +kernel, fun x hx => ?_⟩
    simp only [List.mem_singleton] at hx
    subst hx
    refine ⟨hplain _ (by decide +kernel), rfl, fun c hc => ?_⟩
    simp only [FExtra.Node.children, List.mem_singleton] at hc
    subst hc
    refine (FExtra.within_iff SaveHere _).2 ⟨⟨⟨⟨103, rfl, .inl ((FExtra.letter_iff 103).2 (.inl ⟨by decide, by decide⟩))⟩, ?_⟩, hplain _ (by decide +kernel), fun h => h.2 rfl, ?_, by decide⟩,
      fun c hc => by simp [FExtra.Node.children] at hc⟩
    · intro d hd
      have : d = 103 := by simpa [FExtra.Node.name, text] using hd
      subst this
      exact .inl ((FExtra.letter_iff 103).2 (.inl ⟨by decide, by decide⟩))
    · intro a ha
      simp [FExtra.Node.attrs] at ha
  · intro t ht _ x hx c hc
    simp only [sampleLight, List.mem_singleton] at ht
    subst ht
    simp only [List.mem_singleton] at hx
    subst hx
    simp only [FExtra.Node.children, List.mem_singleton] at hc
    subst hc
    simp [FExtra.Node.name, text_inj]
  · intro t ht c hc
    simp only [List.mem_singleton] at ht
    subst ht
    simp only [FExtra.Node.children, List.mem_singleton] at hc
    subst hc
    decide +kernel

/-- The values of a light after saving and loading, and how many parameters the extra tree has. -/
structure LRow where
  kind : LKind
  intensity : ℚ
  constAtt : ℚ
  fallAngle : ℚ
  outer : ℚ
  params : Nat
deriving DecidableEq

/-- The light after saving and loading. -/
def reloadedLight (l : Light) : Option LRow :=
  (writeLight .wrap fmt02 sampleDate l).bind fun k => (loadLight .wrap sampleDate {} k.1).map fun r =>
    ⟨r.1.kind, r.1.intensity, r.1.constAtt, r.1.fallAngle, r.1.outer, (r.1.ent.extra.map fun t => (t.techs.map fun x => x.node.children.length).sum).sum⟩

/-- A light with a parameter of the user. -/
def withUser (n : Text) (l : Light) : Light := { l with ent := { l.ent with extra := [⟨[], [⟨text "GAME", .mk [] [] [] [.mk n (text "2") [] []]⟩]⟩] } }

/-- **C152, violated.** The outer angle of a point light and the attenuation of an ambient light are lost; a parameter of the user called as a value of lights becomes that value and is gone, in any
profile; one called as the penumbra changes the outer angle; the element of a light without `technique_common` is undefined behaviour. -/
theorem light_violated :
    reloadedLight { kind := .point, intensity := 2, constAtt := 2, outer := 2 } = some ⟨.point, 2, 2, 5, 5, 0⟩ ∧
    reloadedLight { kind := .ambient, intensity := 2, constAtt := 2 } = some ⟨.ambient, 2, 1, 5, 5, 0⟩ ∧
    reloadedLight (withUser (text "constant_attenuation") { kind := .point, intensity := 2, constAtt := 0 }) = some ⟨.point, 2, 2, 5, 5, 0⟩ ∧
    reloadedLight (withUser (text "penumbra_angle") { kind := .spot, intensity := 2, constAtt := 2, fallAngle := 2, outer := 2 }) = some ⟨.spot, 2, 2, 2, 6, 0⟩ ∧
    (loadLight .wrap sampleDate {} (.elem (text "light") [] [] [])).isNone := by
  refine ⟨?_, ?_, ?_, ?_, ?_⟩ <;> decide +kernel

end Verif.FArc
