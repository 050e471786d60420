import Verif.ArcStdWhole

/-!
# C167: the common profile survives saving and loading
-/

namespace Verif.FArc

open Verif.FEff (Text text Role)
open Verif.FConv (Ov Formats shown)

/-- **C167, partial.** A common profile is always written, and loaded with the same lighting, flags, colours, numbers, references, textures, parameters and extra, as far as its lighting and its flags make use of them. Missing:
what they do not make use of, the values of what is textured, and the violations below. -/
theorem common_roundtrip_partial {fmt rnd} (ov : Ov) (hf : Formats fmt rnd) (around : List Node) (ha : ∀ a ∈ around, PlainSids a) (s : StdFx) (h : GoodStd ov s) :
    ∃ n u, writeStd fmt around s = some n ∧ loadStd ov {} n = some u ∧ StdBack ov rnd s u := by
  obtain ⟨n, u, h1, h2, h3, -⟩ := std_spec ov hf around ha s h
  exact ⟨n, u, h1, h2, h3⟩

/-! ## A profile that meets the hypotheses -/

/-- A texture with a set whose semantic is a number. -/
def sampleTex : STex := { sid := text "brick-sampler", sem := text "3", set := 0 }

theorem sampleTex_good (ov : Ov) : GoodTex ov sampleTex :=
  ⟨⟨by decide +kernel, by decide +kernel, by decide +kernel⟩, hplain _ (by decide +kernel), fun _ => ⟨3, by cases ov <;> decide +kernel⟩, Or.inr rfl⟩

/-- A shiny material with a texture for the diffuse colour, a reference for the ambient one, and a bump map. -/
def sampleStd : StdFx where
  lighting := .phong
  rgbZero := true
  reflective := true
  ambient := { role := .referencer, ref := text "amb", value := (0, 0, 0, 0) }
  specular := { value := (2, 0, 2, 2) }
  shininess := { value := 0 }
  specF := { value := 2 }
  reflectF := { value := 2 }
  tex := fun c => if c = .diffuse ∨ c = .bump then [sampleTex] else []

theorem sampleStd_good (ov : Ov) : GoodStd ov sampleStd where
  params := by simp [sampleStd]
  extra := Or.inr rfl
  lighting := by decide
  emission := Or.inl rfl
  emissionF := Or.inl rfl
  reflect := Or.inl rfl
  reflectF := Or.inl rfl
  refraction := Or.inl rfl
  transl := Or.inl rfl
  translF := Or.inl rfl
  diffuse := Or.inl rfl
  ambient := Or.inr ⟨rfl, ⟨by decide +kernel, by decide +kernel, by decide +kernel⟩, by decide +kernel⟩
  specular := Or.inl rfl
  specF := Or.inl rfl
  shininess := Or.inl rfl
  tex := by
    intro c t ht
    unfold sampleStd at ht
    dsimp only at ht
    split at ht
    · rw [List.mem_singleton.1 ht]; exact sampleTex_good ov
    · cases ht

/-- A profile that has been saved and loaded. -/
def again (s : StdFx) : Option StdFx := (writeStd fmt02 [] s).bind (loadStd .wrap {})

example : (again sampleStd).map (fun u => (u.lighting, u.rgbZero, u.reflective, u.refractive)) = some (.phong, true, true, false) ∧
    (again sampleStd).map (fun u => u.ambient.ref) = some (text "amb") ∧
    (again sampleStd).map (fun u => u.specular.value) = some (2, 0, 2, 2) ∧
    (again sampleStd).map (fun u => (u.shininess.value, u.specF.value, u.reflectF.value)) = some (0, 2, 2) ∧
    (again sampleStd).map (fun u => (u.tex .bump).map STex.sid) = some [text "brick-sampler"] := by
  refine ⟨?_, ?_, ?_, ?_, ?_⟩ <;> decide +kernel

/-! ## What is lost -/

/-- **C167, violated.** The colour under a texture is lost: it is loaded as white. -/
theorem textured_color_violated : (again { lighting := .lambert, diffuse := { value := (2, 0, 0, 2) }, tex := fun c => if c = .diffuse then [sampleTex] else [] }).map (fun u => u.diffuse.value) = some (1, 1, 1, 1) := by
  decide +kernel

/-- **C167, violated.** The number of a texture set is replaced by the number that its semantic begins with. -/
theorem texture_set_violated : (again { lighting := .lambert, tex := fun c => if c = .diffuse then [{ sampleTex with sem := text "UV1", set := 7 }] else [] }).map (fun u => (u.tex .diffuse).map STex.set) = some [0] := by
  decide +kernel

/-- **C167, violated.** The shininess is written besides its textures, but they replace it when it is loaded. -/
theorem shininess_violated : (again { lighting := .phong, shininess := { value := 2 }, tex := fun c => if c = .shininess then [sampleTex] else [] }).map (fun u => u.shininess.value) = some 1 := by
  decide +kernel

/-- **C167, violated.** The textures of the specular level are lost if the level is one. -/
theorem spec_level_violated : (again { lighting := .phong, tex := fun c => if c = .specLevel then [sampleTex] else [] }).map (fun u => (u.tex .specLevel).length) = some 0 := by
  decide +kernel

/-- **C167, violated.** Textures of the refraction make a profile refractive, and its index of refraction one. -/
theorem refraction_violated : (again { refraction := { value := 2 }, refractive := true, tex := fun c => if c = .refraction then [sampleTex] else [] }).map (fun u => (u.refractive, u.refraction.value)) = some (true, 1) ∧
    (again { tex := fun c => if c = .refraction then [sampleTex] else [] }).map (fun u => u.refractive) = some true := by
  constructor <;> decide +kernel

/-- **C167, violated.** An emission level hides the emission colour and its textures. -/
theorem emission_violated : (again { isEmission := true, emission := { value := (2, 0, 0, 2) }, tex := fun c => if c = .emission then [sampleTex] else [] }).map (fun u => (u.emission.value, (u.tex .emission).length)) = some ((0, 0, 0, 1), 0) := by
  decide +kernel

/-- **C167, violated.** With an unknown lighting everything in the element is lost, and the lighting is loaded as constant. -/
theorem unknown_lighting_violated : (again { lighting := .unknown, transl := { value := (2, 0, 0, 2) }, rgbZero := true }).map (fun u => (u.lighting, u.rgbZero, u.transl.value)) = some (.constant, false, (1, 1, 1, 1)) := by
  decide +kernel

/-- **C167, violated.** A colour that is neither constant nor a reference is written as an empty element, which is read as an indeterminate value. -/
theorem generator_color_violated (ov : Ov) : (writeStd fmt02 [] { emission := { role := .generator, value := (0, 0, 0, 1) } }).isSome = true ∧
    (writeStd fmt02 [] { emission := { role := .generator, value := (0, 0, 0, 1) } }).bind (fun n => (loadStd ov {} n).map fun _ => ()) = none := by
  cases ov <;> constructor <;> decide +kernel

/-- **C167, violated.** Saving a texture without sampler changes the profile: the next time it is saved, another parameter is written, one without a name. -/
theorem saving_adds_sampler_violated :
    (writeStd fmt02 [] { lighting := .lambert, tex := fun c => if c = .diffuse then [{}] else [] }).map (fun n => n.kids.map Node.name) = some [text "technique"] ∧
    (writeStd fmt02 [] (samplersAfter 1 { lighting := .lambert, tex := fun c => if c = .diffuse then [{}] else [] })).map (fun n => n.kids.map Node.name) = some [text "newparam", text "technique"] := by
  constructor <;> decide +kernel

end Verif.FArc
