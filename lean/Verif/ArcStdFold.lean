import Verif.ArcStdLemmas

/-! # The parameters of the common profile, read in turn -/

namespace Verif.FArc

open Verif.FEff (Text text Role)
open Verif.FConv (Ov Formats shown)

theorem onlyIf_true (n : Node) : [n] = onlyIf True n := by
  unfold onlyIf
  rw [if_pos trivial]

theorem names_common (fmt : ℚ → Text) (s : StdFx) : ∀ k ∈ commonKids fmt s, k.name ≠ text "technique" ∧ k.name ≠ text "extra" := by
  intro k hk
  unfold commonKids onlyIf at hk
  simp only [List.mem_append, List.mem_ite_nil_right, List.mem_singleton] at hk
  rcases hk with ((((((((⟨-, rfl⟩ | ⟨-, rfl⟩) | ⟨-, rfl⟩) | ⟨-, rfl⟩) | ⟨-, rfl⟩) | ⟨-, rfl⟩) | ⟨-, rfl⟩) | rfl) | rfl) | ⟨-, rfl⟩ <;> exact ⟨text_ne (by decide), text_ne (by decide)⟩

theorem names_extra (fmt : ℚ → Text) (s : StdFx) : ∀ k ∈ extraKids fmt s, k.name ≠ text "technique" ∧ k.name ≠ text "extra" := by
  intro k hk
  unfold extraKids onlyIf at hk
  simp only [List.mem_append, List.mem_ite_nil_right, List.mem_singleton] at hk
  rcases hk with (((((⟨-, rfl⟩ | ⟨-, rfl⟩) | ⟨-, rfl⟩) | ⟨-, rfl⟩) | ⟨-, rfl⟩) | ⟨-, rfl⟩) | ⟨-, rfl⟩ <;> exact ⟨text_ne (by decide), text_ne (by decide)⟩

theorem parse_texs (ov : Ov) (k : Node) {ts us : List STex} (h : List.Forall₂ (TexBack ov) ts us) (hne : ts ≠ []) (p : SParm ℚ) : parseScalar ov k us p = some { p with value := 1 } := by
  unfold parseScalar
  rw [if_pos (back_nil h hne)]

theorem seg_shininess_tex (ov : Ov) (c : Prop) [Decidable c] {ts us : List STex} (s : StdFx) (e : StdSeen) (hu : loadTexs ov (texturesNode (text "shininess") ts) = some us) (h : List.Forall₂ (TexBack ov) ts us) :
    (onlyIf (c ∧ ts ≠ []) (texturesNode (text "shininess") ts)).foldlM (stdStep ov) (s, e) =
      some ({ s with shininess := if c ∧ ts ≠ [] then { s.shininess with value := 1 } else s.shininess, tex := addTexs s.tex .shininess (if c ∧ ts ≠ [] then us else []) }, e) := by
  by_cases hx : c ∧ ts ≠ []
  · exact seg_shininess ov _ s e rfl hu (parse_texs ov _ h hx.2 _)
  · unfold onlyIf
    simp only [if_neg hx, addTexs_nil]
    rfl

theorem seg_refraction_tex (ov : Ov) {ts us : List STex} (s : StdFx) (e : StdSeen) (hu : loadTexs ov (texturesNode (text "index_of_refraction") ts) = some us) (h : List.Forall₂ (TexBack ov) ts us) :
    (onlyIf (ts ≠ []) (texturesNode (text "index_of_refraction") ts)).foldlM (stdStep ov) (s, e) =
      some ({ s with refraction := if ts ≠ [] then { s.refraction with value := 1 } else s.refraction, tex := addTexs s.tex .refraction (if ts ≠ [] then us else []) }, { e with refr := if ts ≠ [] then true else e.refr }) := by
  by_cases hx : ts ≠ []
  · exact seg_refraction ov _ s e rfl hu (parse_texs ov _ h hx _)
  · unfold onlyIf
    simp only [if_neg hx, addTexs_nil]
    rfl

theorem std_fold (ov : Ov) {fmt rnd} (hf : Formats fmt rnd) (s : StdFx) (h : GoodStd ov s) (ps : List Parm) (ex : FExtra.Extra) :
    ∃ q, (commonKids fmt s ++ extraKids fmt s).foldlM (stdStep ov) ({ params := ps, extra := ex, lighting := s.lighting }, {}) = some q ∧
      (ps = (s.params.filter fun q => decide (q.role = .generator)).map (parmAfter rnd) → ex = (if FExtra.hasContent s.extra then s.extra else FExtra.newExtra) → StdBack ov rnd s (stdEnd q)) := by
  obtain ⟨u1, r1, a1, b1, c1, d1⟩ := color_load ov hf (text "emission") [] s.emission (s.tex .emission) (0, 0, 0, 1) h.emission (h.tex _)
  obtain ⟨u2, r2, a2, b2, c2, d2⟩ := color_load ov hf (text "ambient") [] s.ambient (s.tex .ambient) (0, 0, 0, 1) h.ambient (h.tex _)
  obtain ⟨u3, r3, a3, b3, c3, d3⟩ := color_load ov hf (text "diffuse") [] s.diffuse (s.tex .diffuse) (0, 0, 0, 1) h.diffuse (h.tex _)
  obtain ⟨u4, r4, a4, b4, c4, d4⟩ := color_load ov hf (text "specular") [] s.specular (s.tex .specular) (0, 0, 0, 1) h.specular (h.tex _)
  obtain ⟨u5, r5, a5, b5, c5, d5⟩ := scalar_load ov hf (text "shininess") [] s.shininess [] 20 h.shininess (by simp)
  obtain ⟨u6, r6, a6, b6, c6, d6⟩ := color_load ov hf (text "reflective") [] s.reflect (s.tex .reflection) (1, 1, 1, 1) h.reflect (h.tex _)
  obtain ⟨r7, c7, d7⟩ := scalar_value ov hf (text "reflectivity") [] s.reflectF { value := 1 } h.reflectF rfl
  obtain ⟨u8, r8, a8, b8, c8, d8⟩ := color_load ov hf (text "transparent") [(text "opaque", if s.rgbZero then text "RGB_ZERO" else text "A_ONE")] s.transl (s.tex .transparent) (0, 0, 0, 1) h.transl (h.tex _)
  obtain ⟨r9, c9, d9⟩ := scalar_value ov hf (text "transparency") [] s.translF { value := 1 } h.translF rfl
  obtain ⟨u10, r10, a10, b10, c10, d10⟩ := scalar_load ov hf (text "index_of_refraction") [] s.refraction [] 1 h.refraction (by simp)
  obtain ⟨v1, e1, f1⟩ := texs_in ov (text "shininess") [] (s.tex .shininess) (h.tex _)
  obtain ⟨u11, r11, a11, b11, c11, d11⟩ := scalar_load ov hf (text "spec_level") [] s.specF (s.tex .specLevel) 1 h.specF (h.tex _)
  obtain ⟨v2, e2, f2⟩ := texs_in ov (text "bump") [] (s.tex .bump) (h.tex _)
  obtain ⟨u12, r12, a12, b12, c12, d12⟩ := scalar_load ov hf (text "emission_level") [] s.emissionF [] 1 h.emissionF (by simp)
  obtain ⟨v3, e3, f3⟩ := texs_in ov (text "displacement") [] (s.tex .displacement) (h.tex _)
  obtain ⟨v4, e4, f4⟩ := texs_in ov (text "filter_color") [] (s.tex .filter) (h.tex _)
  obtain ⟨v5, e5, f5⟩ := texs_in ov (text "index_of_refraction") [] (s.tex .refraction) (h.tex _)
  obtain rfl : u5 = [] := by cases b5; rfl
  obtain rfl : u10 = [] := by cases b10; rfl
  obtain rfl : u12 = [] := by cases b12; rfl
  have hb : prop (some ((colorNode fmt (text "transparent") s.transl (s.tex .transparent)).put (text "opaque") (if s.rgbZero then text "RGB_ZERO" else text "A_ONE"))) (text "opaque") =
      some (if s.rgbZero then text "RGB_ZERO" else text "A_ONE") := by
    refine prop_raw (by unfold colorNode Node.put; exact (raw_cons ..).trans (if_pos rfl)) ?_
    cases s.rgbZero <;> exact hplain _ (by decide +kernel)
  have g1 : (onlyIf (s.isEmission = false) (colorNode fmt (text "emission") s.emission (s.tex .emission))).foldlM (stdStep ov) (({ params := ps, extra := ex, lighting := s.lighting } : StdFx), ({} : StdSeen)) =
      some (({ params := ps, extra := ex, lighting := s.lighting, emission := if s.isEmission = false then r1 else { value := (0, 0, 0, 1) }, tex := addTexs (fun _ => []) .emission (if s.isEmission = false then u1 else []) } : StdFx), ({} : StdSeen)) := seg_emission ov _ _ _ rfl a1 c1
  have g2 : (onlyIf (hasDiffuse s) (colorNode fmt (text "ambient") s.ambient (s.tex .ambient))).foldlM (stdStep ov) (({ params := ps, extra := ex, lighting := s.lighting, emission := if s.isEmission = false then r1 else { value := (0, 0, 0, 1) }, tex := addTexs (fun _ => []) .emission (if s.isEmission = false then u1 else []) } : StdFx), ({} : StdSeen)) =
      some (({ params := ps, extra := ex, lighting := s.lighting, emission := if s.isEmission = false then r1 else { value := (0, 0, 0, 1) }, ambient := if hasDiffuse s then r2 else { value := (0, 0, 0, 1) }, tex := addTexs (addTexs (fun _ => []) .emission (if s.isEmission = false then u1 else [])) .ambient (if hasDiffuse s then u2 else []) } : StdFx), ({} : StdSeen)) := seg_ambient ov _ _ _ rfl a2 c2
  have g3 : (onlyIf (hasDiffuse s) (colorNode fmt (text "diffuse") s.diffuse (s.tex .diffuse))).foldlM (stdStep ov) (({ params := ps, extra := ex, lighting := s.lighting, emission := if s.isEmission = false then r1 else { value := (0, 0, 0, 1) }, ambient := if hasDiffuse s then r2 else { value := (0, 0, 0, 1) }, tex := addTexs (addTexs (fun _ => []) .emission (if s.isEmission = false then u1 else [])) .ambient (if hasDiffuse s then u2 else []) } : StdFx), ({} : StdSeen)) =
      some (({ params := ps, extra := ex, lighting := s.lighting, emission := if s.isEmission = false then r1 else { value := (0, 0, 0, 1) }, ambient := if hasDiffuse s then r2 else { value := (0, 0, 0, 1) }, diffuse := if hasDiffuse s then r3 else { value := (0, 0, 0, 1) }, tex := addTexs (addTexs (addTexs (fun _ => []) .emission (if s.isEmission = false then u1 else [])) .ambient (if hasDiffuse s then u2 else [])) .diffuse (if hasDiffuse s then u3 else []) } : StdFx), ({} : StdSeen)) := seg_diffuse ov _ _ _ rfl a3 c3
  have g4 : (onlyIf (hasSpecular s) (colorNode fmt (text "specular") s.specular (s.tex .specular))).foldlM (stdStep ov) (({ params := ps, extra := ex, lighting := s.lighting, emission := if s.isEmission = false then r1 else { value := (0, 0, 0, 1) }, ambient := if hasDiffuse s then r2 else { value := (0, 0, 0, 1) }, diffuse := if hasDiffuse s then r3 else { value := (0, 0, 0, 1) }, tex := addTexs (addTexs (addTexs (fun _ => []) .emission (if s.isEmission = false then u1 else [])) .ambient (if hasDiffuse s then u2 else [])) .diffuse (if hasDiffuse s then u3 else []) } : StdFx), ({} : StdSeen)) =
      some (({ params := ps, extra := ex, lighting := s.lighting, emission := if s.isEmission = false then r1 else { value := (0, 0, 0, 1) }, ambient := if hasDiffuse s then r2 else { value := (0, 0, 0, 1) }, diffuse := if hasDiffuse s then r3 else { value := (0, 0, 0, 1) }, specular := if hasSpecular s then r4 else { value := (0, 0, 0, 1) }, tex := addTexs (addTexs (addTexs (addTexs (fun _ => []) .emission (if s.isEmission = false then u1 else [])) .ambient (if hasDiffuse s then u2 else [])) .diffuse (if hasDiffuse s then u3 else [])) .specular (if hasSpecular s then u4 else []) } : StdFx), ({} : StdSeen)) := seg_specular ov _ _ _ rfl a4 c4
  have g5 : (onlyIf (hasSpecular s) (scalarNode fmt (text "shininess") s.shininess [])).foldlM (stdStep ov) (({ params := ps, extra := ex, lighting := s.lighting, emission := if s.isEmission = false then r1 else { value := (0, 0, 0, 1) }, ambient := if hasDiffuse s then r2 else { value := (0, 0, 0, 1) }, diffuse := if hasDiffuse s then r3 else { value := (0, 0, 0, 1) }, specular := if hasSpecular s then r4 else { value := (0, 0, 0, 1) }, tex := addTexs (addTexs (addTexs (addTexs (fun _ => []) .emission (if s.isEmission = false then u1 else [])) .ambient (if hasDiffuse s then u2 else [])) .diffuse (if hasDiffuse s then u3 else [])) .specular (if hasSpecular s then u4 else []) } : StdFx), ({} : StdSeen)) =
      some (({ params := ps, extra := ex, lighting := s.lighting, emission := if s.isEmission = false then r1 else { value := (0, 0, 0, 1) }, ambient := if hasDiffuse s then r2 else { value := (0, 0, 0, 1) }, diffuse := if hasDiffuse s then r3 else { value := (0, 0, 0, 1) }, specular := if hasSpecular s then r4 else { value := (0, 0, 0, 1) }, shininess := if hasSpecular s then r5 else { value := 20 }, tex := addTexs (addTexs (addTexs (addTexs (addTexs (fun _ => []) .emission (if s.isEmission = false then u1 else [])) .ambient (if hasDiffuse s then u2 else [])) .diffuse (if hasDiffuse s then u3 else [])) .specular (if hasSpecular s then u4 else [])) .shininess (if hasSpecular s then [] else []) } : StdFx), ({} : StdSeen)) := seg_shininess ov _ _ _ rfl a5 c5
  have g6 : (onlyIf (s.reflective = true) (colorNode fmt (text "reflective") s.reflect (s.tex .reflection))).foldlM (stdStep ov) (({ params := ps, extra := ex, lighting := s.lighting, emission := if s.isEmission = false then r1 else { value := (0, 0, 0, 1) }, ambient := if hasDiffuse s then r2 else { value := (0, 0, 0, 1) }, diffuse := if hasDiffuse s then r3 else { value := (0, 0, 0, 1) }, specular := if hasSpecular s then r4 else { value := (0, 0, 0, 1) }, shininess := if hasSpecular s then r5 else { value := 20 }, tex := addTexs (addTexs (addTexs (addTexs (addTexs (fun _ => []) .emission (if s.isEmission = false then u1 else [])) .ambient (if hasDiffuse s then u2 else [])) .diffuse (if hasDiffuse s then u3 else [])) .specular (if hasSpecular s then u4 else [])) .shininess (if hasSpecular s then [] else []) } : StdFx), ({} : StdSeen)) =
      some (({ params := ps, extra := ex, lighting := s.lighting, emission := if s.isEmission = false then r1 else { value := (0, 0, 0, 1) }, ambient := if hasDiffuse s then r2 else { value := (0, 0, 0, 1) }, diffuse := if hasDiffuse s then r3 else { value := (0, 0, 0, 1) }, specular := if hasSpecular s then r4 else { value := (0, 0, 0, 1) }, shininess := if hasSpecular s then r5 else { value := 20 }, reflect := if s.reflective = true then r6 else { value := (1, 1, 1, 1) }, tex := addTexs (addTexs (addTexs (addTexs (addTexs (addTexs (fun _ => []) .emission (if s.isEmission = false then u1 else [])) .ambient (if hasDiffuse s then u2 else [])) .diffuse (if hasDiffuse s then u3 else [])) .specular (if hasSpecular s then u4 else [])) .shininess (if hasSpecular s then [] else [])) .reflection (if s.reflective = true then u6 else []) } : StdFx), ({ refl := if s.reflective = true then true else false } : StdSeen)) := seg_reflect ov _ _ _ rfl a6 c6
  have g7 : (onlyIf (s.reflective = true) (scalarNode fmt (text "reflectivity") s.reflectF [])).foldlM (stdStep ov) (({ params := ps, extra := ex, lighting := s.lighting, emission := if s.isEmission = false then r1 else { value := (0, 0, 0, 1) }, ambient := if hasDiffuse s then r2 else { value := (0, 0, 0, 1) }, diffuse := if hasDiffuse s then r3 else { value := (0, 0, 0, 1) }, specular := if hasSpecular s then r4 else { value := (0, 0, 0, 1) }, shininess := if hasSpecular s then r5 else { value := 20 }, reflect := if s.reflective = true then r6 else { value := (1, 1, 1, 1) }, tex := addTexs (addTexs (addTexs (addTexs (addTexs (addTexs (fun _ => []) .emission (if s.isEmission = false then u1 else [])) .ambient (if hasDiffuse s then u2 else [])) .diffuse (if hasDiffuse s then u3 else [])) .specular (if hasSpecular s then u4 else [])) .shininess (if hasSpecular s then [] else [])) .reflection (if s.reflective = true then u6 else []) } : StdFx), ({ refl := if s.reflective = true then true else false } : StdSeen)) =
      some (({ params := ps, extra := ex, lighting := s.lighting, emission := if s.isEmission = false then r1 else { value := (0, 0, 0, 1) }, ambient := if hasDiffuse s then r2 else { value := (0, 0, 0, 1) }, diffuse := if hasDiffuse s then r3 else { value := (0, 0, 0, 1) }, specular := if hasSpecular s then r4 else { value := (0, 0, 0, 1) }, shininess := if hasSpecular s then r5 else { value := 20 }, reflect := if s.reflective = true then r6 else { value := (1, 1, 1, 1) }, reflectF := if s.reflective = true then r7 else { value := 1 }, tex := addTexs (addTexs (addTexs (addTexs (addTexs (addTexs (fun _ => []) .emission (if s.isEmission = false then u1 else [])) .ambient (if hasDiffuse s then u2 else [])) .diffuse (if hasDiffuse s then u3 else [])) .specular (if hasSpecular s then u4 else [])) .shininess (if hasSpecular s then [] else [])) .reflection (if s.reflective = true then u6 else []) } : StdFx), ({ refl := if s.reflective = true then true else if s.reflective = true then true else false } : StdSeen)) := seg_reflectF ov _ _ _ rfl c7
  have g8 : ([(colorNode fmt (text "transparent") s.transl (s.tex .transparent)).put (text "opaque") (if s.rgbZero then text "RGB_ZERO" else text "A_ONE")]).foldlM (stdStep ov) (({ params := ps, extra := ex, lighting := s.lighting, emission := if s.isEmission = false then r1 else { value := (0, 0, 0, 1) }, ambient := if hasDiffuse s then r2 else { value := (0, 0, 0, 1) }, diffuse := if hasDiffuse s then r3 else { value := (0, 0, 0, 1) }, specular := if hasSpecular s then r4 else { value := (0, 0, 0, 1) }, shininess := if hasSpecular s then r5 else { value := 20 }, reflect := if s.reflective = true then r6 else { value := (1, 1, 1, 1) }, reflectF := if s.reflective = true then r7 else { value := 1 }, tex := addTexs (addTexs (addTexs (addTexs (addTexs (addTexs (fun _ => []) .emission (if s.isEmission = false then u1 else [])) .ambient (if hasDiffuse s then u2 else [])) .diffuse (if hasDiffuse s then u3 else [])) .specular (if hasSpecular s then u4 else [])) .shininess (if hasSpecular s then [] else [])) .reflection (if s.reflective = true then u6 else []) } : StdFx), ({ refl := if s.reflective = true then true else if s.reflective = true then true else false } : StdSeen)) =
      some (({ params := ps, extra := ex, lighting := s.lighting, emission := if s.isEmission = false then r1 else { value := (0, 0, 0, 1) }, ambient := if hasDiffuse s then r2 else { value := (0, 0, 0, 1) }, diffuse := if hasDiffuse s then r3 else { value := (0, 0, 0, 1) }, specular := if hasSpecular s then r4 else { value := (0, 0, 0, 1) }, shininess := if hasSpecular s then r5 else { value := 20 }, reflect := if s.reflective = true then r6 else { value := (1, 1, 1, 1) }, reflectF := if s.reflective = true then r7 else { value := 1 }, rgbZero := s.rgbZero, transl := r8, tex := addTexs (addTexs (addTexs (addTexs (addTexs (addTexs (addTexs (fun _ => []) .emission (if s.isEmission = false then u1 else [])) .ambient (if hasDiffuse s then u2 else [])) .diffuse (if hasDiffuse s then u3 else [])) .specular (if hasSpecular s then u4 else [])) .shininess (if hasSpecular s then [] else [])) .reflection (if s.reflective = true then u6 else [])) .transparent (u8) } : StdFx), ({ refl := if s.reflective = true then true else if s.reflective = true then true else false, transl := true } : StdSeen)) := seg_transl ov _ _ s.rgbZero rfl hb a8 c8
  have g9 : (onlyIf True (scalarNode fmt (text "transparency") s.translF [])).foldlM (stdStep ov) (({ params := ps, extra := ex, lighting := s.lighting, emission := if s.isEmission = false then r1 else { value := (0, 0, 0, 1) }, ambient := if hasDiffuse s then r2 else { value := (0, 0, 0, 1) }, diffuse := if hasDiffuse s then r3 else { value := (0, 0, 0, 1) }, specular := if hasSpecular s then r4 else { value := (0, 0, 0, 1) }, shininess := if hasSpecular s then r5 else { value := 20 }, reflect := if s.reflective = true then r6 else { value := (1, 1, 1, 1) }, reflectF := if s.reflective = true then r7 else { value := 1 }, rgbZero := s.rgbZero, transl := r8, tex := addTexs (addTexs (addTexs (addTexs (addTexs (addTexs (addTexs (fun _ => []) .emission (if s.isEmission = false then u1 else [])) .ambient (if hasDiffuse s then u2 else [])) .diffuse (if hasDiffuse s then u3 else [])) .specular (if hasSpecular s then u4 else [])) .shininess (if hasSpecular s then [] else [])) .reflection (if s.reflective = true then u6 else [])) .transparent (u8) } : StdFx), ({ refl := if s.reflective = true then true else if s.reflective = true then true else false, transl := true } : StdSeen)) =
      some (({ params := ps, extra := ex, lighting := s.lighting, emission := if s.isEmission = false then r1 else { value := (0, 0, 0, 1) }, ambient := if hasDiffuse s then r2 else { value := (0, 0, 0, 1) }, diffuse := if hasDiffuse s then r3 else { value := (0, 0, 0, 1) }, specular := if hasSpecular s then r4 else { value := (0, 0, 0, 1) }, shininess := if hasSpecular s then r5 else { value := 20 }, reflect := if s.reflective = true then r6 else { value := (1, 1, 1, 1) }, reflectF := if s.reflective = true then r7 else { value := 1 }, rgbZero := s.rgbZero, transl := r8, translF := if True then r9 else { value := 1 }, tex := addTexs (addTexs (addTexs (addTexs (addTexs (addTexs (addTexs (fun _ => []) .emission (if s.isEmission = false then u1 else [])) .ambient (if hasDiffuse s then u2 else [])) .diffuse (if hasDiffuse s then u3 else [])) .specular (if hasSpecular s then u4 else [])) .shininess (if hasSpecular s then [] else [])) .reflection (if s.reflective = true then u6 else [])) .transparent (u8) } : StdFx), ({ refl := if s.reflective = true then true else if s.reflective = true then true else false, transl := if True then true else true } : StdSeen)) := seg_translF ov _ _ _ rfl c9
  have g10 : (onlyIf (s.refractive = true) (scalarNode fmt (text "index_of_refraction") s.refraction [])).foldlM (stdStep ov) (({ params := ps, extra := ex, lighting := s.lighting, emission := if s.isEmission = false then r1 else { value := (0, 0, 0, 1) }, ambient := if hasDiffuse s then r2 else { value := (0, 0, 0, 1) }, diffuse := if hasDiffuse s then r3 else { value := (0, 0, 0, 1) }, specular := if hasSpecular s then r4 else { value := (0, 0, 0, 1) }, shininess := if hasSpecular s then r5 else { value := 20 }, reflect := if s.reflective = true then r6 else { value := (1, 1, 1, 1) }, reflectF := if s.reflective = true then r7 else { value := 1 }, rgbZero := s.rgbZero, transl := r8, translF := if True then r9 else { value := 1 }, tex := addTexs (addTexs (addTexs (addTexs (addTexs (addTexs (addTexs (fun _ => []) .emission (if s.isEmission = false then u1 else [])) .ambient (if hasDiffuse s then u2 else [])) .diffuse (if hasDiffuse s then u3 else [])) .specular (if hasSpecular s then u4 else [])) .shininess (if hasSpecular s then [] else [])) .reflection (if s.reflective = true then u6 else [])) .transparent (u8) } : StdFx), ({ refl := if s.reflective = true then true else if s.reflective = true then true else false, transl := if True then true else true } : StdSeen)) =
      some (({ params := ps, extra := ex, lighting := s.lighting, emission := if s.isEmission = false then r1 else { value := (0, 0, 0, 1) }, ambient := if hasDiffuse s then r2 else { value := (0, 0, 0, 1) }, diffuse := if hasDiffuse s then r3 else { value := (0, 0, 0, 1) }, specular := if hasSpecular s then r4 else { value := (0, 0, 0, 1) }, shininess := if hasSpecular s then r5 else { value := 20 }, reflect := if s.reflective = true then r6 else { value := (1, 1, 1, 1) }, reflectF := if s.reflective = true then r7 else { value := 1 }, rgbZero := s.rgbZero, transl := r8, translF := if True then r9 else { value := 1 }, refraction := if s.refractive = true then r10 else { value := 1 }, tex := addTexs (addTexs (addTexs (addTexs (addTexs (addTexs (addTexs (addTexs (fun _ => []) .emission (if s.isEmission = false then u1 else [])) .ambient (if hasDiffuse s then u2 else [])) .diffuse (if hasDiffuse s then u3 else [])) .specular (if hasSpecular s then u4 else [])) .shininess (if hasSpecular s then [] else [])) .reflection (if s.reflective = true then u6 else [])) .transparent (u8)) .refraction (if s.refractive = true then [] else []) } : StdFx), ({ refl := if s.reflective = true then true else if s.reflective = true then true else false, transl := if True then true else true, refr := if s.refractive = true then true else false } : StdSeen)) := seg_refraction ov _ _ _ rfl a10 c10
  have g11 : (onlyIf (hasSpecular s ∧ s.tex .shininess ≠ []) (texturesNode (text "shininess") (s.tex .shininess))).foldlM (stdStep ov) (({ params := ps, extra := ex, lighting := s.lighting, emission := if s.isEmission = false then r1 else { value := (0, 0, 0, 1) }, ambient := if hasDiffuse s then r2 else { value := (0, 0, 0, 1) }, diffuse := if hasDiffuse s then r3 else { value := (0, 0, 0, 1) }, specular := if hasSpecular s then r4 else { value := (0, 0, 0, 1) }, shininess := if hasSpecular s then r5 else { value := 20 }, reflect := if s.reflective = true then r6 else { value := (1, 1, 1, 1) }, reflectF := if s.reflective = true then r7 else { value := 1 }, rgbZero := s.rgbZero, transl := r8, translF := if True then r9 else { value := 1 }, refraction := if s.refractive = true then r10 else { value := 1 }, tex := addTexs (addTexs (addTexs (addTexs (addTexs (addTexs (addTexs (addTexs (fun _ => []) .emission (if s.isEmission = false then u1 else [])) .ambient (if hasDiffuse s then u2 else [])) .diffuse (if hasDiffuse s then u3 else [])) .specular (if hasSpecular s then u4 else [])) .shininess (if hasSpecular s then [] else [])) .reflection (if s.reflective = true then u6 else [])) .transparent (u8)) .refraction (if s.refractive = true then [] else []) } : StdFx), ({ refl := if s.reflective = true then true else if s.reflective = true then true else false, transl := if True then true else true, refr := if s.refractive = true then true else false } : StdSeen)) =
      some (({ params := ps, extra := ex, lighting := s.lighting, emission := if s.isEmission = false then r1 else { value := (0, 0, 0, 1) }, ambient := if hasDiffuse s then r2 else { value := (0, 0, 0, 1) }, diffuse := if hasDiffuse s then r3 else { value := (0, 0, 0, 1) }, specular := if hasSpecular s then r4 else { value := (0, 0, 0, 1) }, shininess := if hasSpecular s ∧ s.tex .shininess ≠ [] then { (if hasSpecular s then r5 else { value := 20 } : SParm ℚ) with value := 1 } else if hasSpecular s then r5 else { value := 20 }, reflect := if s.reflective = true then r6 else { value := (1, 1, 1, 1) }, reflectF := if s.reflective = true then r7 else { value := 1 }, rgbZero := s.rgbZero, transl := r8, translF := if True then r9 else { value := 1 }, refraction := if s.refractive = true then r10 else { value := 1 }, tex := addTexs (addTexs (addTexs (addTexs (addTexs (addTexs (addTexs (addTexs (addTexs (fun _ => []) .emission (if s.isEmission = false then u1 else [])) .ambient (if hasDiffuse s then u2 else [])) .diffuse (if hasDiffuse s then u3 else [])) .specular (if hasSpecular s then u4 else [])) .shininess (if hasSpecular s then [] else [])) .reflection (if s.reflective = true then u6 else [])) .transparent (u8)) .refraction (if s.refractive = true then [] else [])) .shininess (if hasSpecular s ∧ s.tex .shininess ≠ [] then v1 else []) } : StdFx), ({ refl := if s.reflective = true then true else if s.reflective = true then true else false, transl := if True then true else true, refr := if s.refractive = true then true else false } : StdSeen)) := seg_shininess_tex ov (hasSpecular s) _ _ e1 f1
  have g12 : (onlyIf (hasSpecular s ∧ s.specF.value ≠ 1) (scalarNode fmt (text "spec_level") s.specF (s.tex .specLevel))).foldlM (stdStep ov) (({ params := ps, extra := ex, lighting := s.lighting, emission := if s.isEmission = false then r1 else { value := (0, 0, 0, 1) }, ambient := if hasDiffuse s then r2 else { value := (0, 0, 0, 1) }, diffuse := if hasDiffuse s then r3 else { value := (0, 0, 0, 1) }, specular := if hasSpecular s then r4 else { value := (0, 0, 0, 1) }, shininess := if hasSpecular s ∧ s.tex .shininess ≠ [] then { (if hasSpecular s then r5 else { value := 20 } : SParm ℚ) with value := 1 } else if hasSpecular s then r5 else { value := 20 }, reflect := if s.reflective = true then r6 else { value := (1, 1, 1, 1) }, reflectF := if s.reflective = true then r7 else { value := 1 }, rgbZero := s.rgbZero, transl := r8, translF := if True then r9 else { value := 1 }, refraction := if s.refractive = true then r10 else { value := 1 }, tex := addTexs (addTexs (addTexs (addTexs (addTexs (addTexs (addTexs (addTexs (addTexs (fun _ => []) .emission (if s.isEmission = false then u1 else [])) .ambient (if hasDiffuse s then u2 else [])) .diffuse (if hasDiffuse s then u3 else [])) .specular (if hasSpecular s then u4 else [])) .shininess (if hasSpecular s then [] else [])) .reflection (if s.reflective = true then u6 else [])) .transparent (u8)) .refraction (if s.refractive = true then [] else [])) .shininess (if hasSpecular s ∧ s.tex .shininess ≠ [] then v1 else []) } : StdFx), ({ refl := if s.reflective = true then true else if s.reflective = true then true else false, transl := if True then true else true, refr := if s.refractive = true then true else false } : StdSeen)) =
      some (({ params := ps, extra := ex, lighting := s.lighting, emission := if s.isEmission = false then r1 else { value := (0, 0, 0, 1) }, ambient := if hasDiffuse s then r2 else { value := (0, 0, 0, 1) }, diffuse := if hasDiffuse s then r3 else { value := (0, 0, 0, 1) }, specular := if hasSpecular s then r4 else { value := (0, 0, 0, 1) }, shininess := if hasSpecular s ∧ s.tex .shininess ≠ [] then { (if hasSpecular s then r5 else { value := 20 } : SParm ℚ) with value := 1 } else if hasSpecular s then r5 else { value := 20 }, reflect := if s.reflective = true then r6 else { value := (1, 1, 1, 1) }, reflectF := if s.reflective = true then r7 else { value := 1 }, rgbZero := s.rgbZero, transl := r8, translF := if True then r9 else { value := 1 }, refraction := if s.refractive = true then r10 else { value := 1 }, specF := if hasSpecular s ∧ s.specF.value ≠ 1 then r11 else { value := 1 }, tex := addTexs (addTexs (addTexs (addTexs (addTexs (addTexs (addTexs (addTexs (addTexs (addTexs (fun _ => []) .emission (if s.isEmission = false then u1 else [])) .ambient (if hasDiffuse s then u2 else [])) .diffuse (if hasDiffuse s then u3 else [])) .specular (if hasSpecular s then u4 else [])) .shininess (if hasSpecular s then [] else [])) .reflection (if s.reflective = true then u6 else [])) .transparent (u8)) .refraction (if s.refractive = true then [] else [])) .shininess (if hasSpecular s ∧ s.tex .shininess ≠ [] then v1 else [])) .specLevel (if hasSpecular s ∧ s.specF.value ≠ 1 then u11 else []) } : StdFx), ({ refl := if s.reflective = true then true else if s.reflective = true then true else false, transl := if True then true else true, refr := if s.refractive = true then true else false } : StdSeen)) := seg_specF ov _ _ _ rfl a11 c11
  have g13 : (onlyIf (s.tex .bump ≠ []) (texturesNode (text "bump") (s.tex .bump))).foldlM (stdStep ov) (({ params := ps, extra := ex, lighting := s.lighting, emission := if s.isEmission = false then r1 else { value := (0, 0, 0, 1) }, ambient := if hasDiffuse s then r2 else { value := (0, 0, 0, 1) }, diffuse := if hasDiffuse s then r3 else { value := (0, 0, 0, 1) }, specular := if hasSpecular s then r4 else { value := (0, 0, 0, 1) }, shininess := if hasSpecular s ∧ s.tex .shininess ≠ [] then { (if hasSpecular s then r5 else { value := 20 } : SParm ℚ) with value := 1 } else if hasSpecular s then r5 else { value := 20 }, reflect := if s.reflective = true then r6 else { value := (1, 1, 1, 1) }, reflectF := if s.reflective = true then r7 else { value := 1 }, rgbZero := s.rgbZero, transl := r8, translF := if True then r9 else { value := 1 }, refraction := if s.refractive = true then r10 else { value := 1 }, specF := if hasSpecular s ∧ s.specF.value ≠ 1 then r11 else { value := 1 }, tex := addTexs (addTexs (addTexs (addTexs (addTexs (addTexs (addTexs (addTexs (addTexs (addTexs (fun _ => []) .emission (if s.isEmission = false then u1 else [])) .ambient (if hasDiffuse s then u2 else [])) .diffuse (if hasDiffuse s then u3 else [])) .specular (if hasSpecular s then u4 else [])) .shininess (if hasSpecular s then [] else [])) .reflection (if s.reflective = true then u6 else [])) .transparent (u8)) .refraction (if s.refractive = true then [] else [])) .shininess (if hasSpecular s ∧ s.tex .shininess ≠ [] then v1 else [])) .specLevel (if hasSpecular s ∧ s.specF.value ≠ 1 then u11 else []) } : StdFx), ({ refl := if s.reflective = true then true else if s.reflective = true then true else false, transl := if True then true else true, refr := if s.refractive = true then true else false } : StdSeen)) =
      some (({ params := ps, extra := ex, lighting := s.lighting, emission := if s.isEmission = false then r1 else { value := (0, 0, 0, 1) }, ambient := if hasDiffuse s then r2 else { value := (0, 0, 0, 1) }, diffuse := if hasDiffuse s then r3 else { value := (0, 0, 0, 1) }, specular := if hasSpecular s then r4 else { value := (0, 0, 0, 1) }, shininess := if hasSpecular s ∧ s.tex .shininess ≠ [] then { (if hasSpecular s then r5 else { value := 20 } : SParm ℚ) with value := 1 } else if hasSpecular s then r5 else { value := 20 }, reflect := if s.reflective = true then r6 else { value := (1, 1, 1, 1) }, reflectF := if s.reflective = true then r7 else { value := 1 }, rgbZero := s.rgbZero, transl := r8, translF := if True then r9 else { value := 1 }, refraction := if s.refractive = true then r10 else { value := 1 }, specF := if hasSpecular s ∧ s.specF.value ≠ 1 then r11 else { value := 1 }, tex := addTexs (addTexs (addTexs (addTexs (addTexs (addTexs (addTexs (addTexs (addTexs (addTexs (addTexs (fun _ => []) .emission (if s.isEmission = false then u1 else [])) .ambient (if hasDiffuse s then u2 else [])) .diffuse (if hasDiffuse s then u3 else [])) .specular (if hasSpecular s then u4 else [])) .shininess (if hasSpecular s then [] else [])) .reflection (if s.reflective = true then u6 else [])) .transparent (u8)) .refraction (if s.refractive = true then [] else [])) .shininess (if hasSpecular s ∧ s.tex .shininess ≠ [] then v1 else [])) .specLevel (if hasSpecular s ∧ s.specF.value ≠ 1 then u11 else [])) .bump (if s.tex .bump ≠ [] then v2 else []) } : StdFx), ({ refl := if s.reflective = true then true else if s.reflective = true then true else false, transl := if True then true else true, refr := if s.refractive = true then true else false } : StdSeen)) := seg_bump ov _ _ _ rfl e2
  have g14 : (onlyIf (s.isEmission = true) (scalarNode fmt (text "emission_level") s.emissionF [])).foldlM (stdStep ov) (({ params := ps, extra := ex, lighting := s.lighting, emission := if s.isEmission = false then r1 else { value := (0, 0, 0, 1) }, ambient := if hasDiffuse s then r2 else { value := (0, 0, 0, 1) }, diffuse := if hasDiffuse s then r3 else { value := (0, 0, 0, 1) }, specular := if hasSpecular s then r4 else { value := (0, 0, 0, 1) }, shininess := if hasSpecular s ∧ s.tex .shininess ≠ [] then { (if hasSpecular s then r5 else { value := 20 } : SParm ℚ) with value := 1 } else if hasSpecular s then r5 else { value := 20 }, reflect := if s.reflective = true then r6 else { value := (1, 1, 1, 1) }, reflectF := if s.reflective = true then r7 else { value := 1 }, rgbZero := s.rgbZero, transl := r8, translF := if True then r9 else { value := 1 }, refraction := if s.refractive = true then r10 else { value := 1 }, specF := if hasSpecular s ∧ s.specF.value ≠ 1 then r11 else { value := 1 }, tex := addTexs (addTexs (addTexs (addTexs (addTexs (addTexs (addTexs (addTexs (addTexs (addTexs (addTexs (fun _ => []) .emission (if s.isEmission = false then u1 else [])) .ambient (if hasDiffuse s then u2 else [])) .diffuse (if hasDiffuse s then u3 else [])) .specular (if hasSpecular s then u4 else [])) .shininess (if hasSpecular s then [] else [])) .reflection (if s.reflective = true then u6 else [])) .transparent (u8)) .refraction (if s.refractive = true then [] else [])) .shininess (if hasSpecular s ∧ s.tex .shininess ≠ [] then v1 else [])) .specLevel (if hasSpecular s ∧ s.specF.value ≠ 1 then u11 else [])) .bump (if s.tex .bump ≠ [] then v2 else []) } : StdFx), ({ refl := if s.reflective = true then true else if s.reflective = true then true else false, transl := if True then true else true, refr := if s.refractive = true then true else false } : StdSeen)) =
      some (({ params := ps, extra := ex, lighting := s.lighting, emission := if s.isEmission = false then r1 else { value := (0, 0, 0, 1) }, ambient := if hasDiffuse s then r2 else { value := (0, 0, 0, 1) }, diffuse := if hasDiffuse s then r3 else { value := (0, 0, 0, 1) }, specular := if hasSpecular s then r4 else { value := (0, 0, 0, 1) }, shininess := if hasSpecular s ∧ s.tex .shininess ≠ [] then { (if hasSpecular s then r5 else { value := 20 } : SParm ℚ) with value := 1 } else if hasSpecular s then r5 else { value := 20 }, reflect := if s.reflective = true then r6 else { value := (1, 1, 1, 1) }, reflectF := if s.reflective = true then r7 else { value := 1 }, rgbZero := s.rgbZero, transl := r8, translF := if True then r9 else { value := 1 }, refraction := if s.refractive = true then r10 else { value := 1 }, specF := if hasSpecular s ∧ s.specF.value ≠ 1 then r11 else { value := 1 }, emissionF := if s.isEmission = true then r12 else { value := 1 }, isEmission := if s.isEmission = true then true else false, tex := addTexs (addTexs (addTexs (addTexs (addTexs (addTexs (addTexs (addTexs (addTexs (addTexs (addTexs (addTexs (fun _ => []) .emission (if s.isEmission = false then u1 else [])) .ambient (if hasDiffuse s then u2 else [])) .diffuse (if hasDiffuse s then u3 else [])) .specular (if hasSpecular s then u4 else [])) .shininess (if hasSpecular s then [] else [])) .reflection (if s.reflective = true then u6 else [])) .transparent (u8)) .refraction (if s.refractive = true then [] else [])) .shininess (if hasSpecular s ∧ s.tex .shininess ≠ [] then v1 else [])) .specLevel (if hasSpecular s ∧ s.specF.value ≠ 1 then u11 else [])) .bump (if s.tex .bump ≠ [] then v2 else [])) .emission (if s.isEmission = true then [] else []) } : StdFx), ({ refl := if s.reflective = true then true else if s.reflective = true then true else false, transl := if True then true else true, refr := if s.refractive = true then true else false } : StdSeen)) := seg_emissionF ov _ _ _ rfl a12 c12
  have g15 : (onlyIf (s.tex .displacement ≠ []) (texturesNode (text "displacement") (s.tex .displacement))).foldlM (stdStep ov) (({ params := ps, extra := ex, lighting := s.lighting, emission := if s.isEmission = false then r1 else { value := (0, 0, 0, 1) }, ambient := if hasDiffuse s then r2 else { value := (0, 0, 0, 1) }, diffuse := if hasDiffuse s then r3 else { value := (0, 0, 0, 1) }, specular := if hasSpecular s then r4 else { value := (0, 0, 0, 1) }, shininess := if hasSpecular s ∧ s.tex .shininess ≠ [] then { (if hasSpecular s then r5 else { value := 20 } : SParm ℚ) with value := 1 } else if hasSpecular s then r5 else { value := 20 }, reflect := if s.reflective = true then r6 else { value := (1, 1, 1, 1) }, reflectF := if s.reflective = true then r7 else { value := 1 }, rgbZero := s.rgbZero, transl := r8, translF := if True then r9 else { value := 1 }, refraction := if s.refractive = true then r10 else { value := 1 }, specF := if hasSpecular s ∧ s.specF.value ≠ 1 then r11 else { value := 1 }, emissionF := if s.isEmission = true then r12 else { value := 1 }, isEmission := if s.isEmission = true then true else false, tex := addTexs (addTexs (addTexs (addTexs (addTexs (addTexs (addTexs (addTexs (addTexs (addTexs (addTexs (addTexs (fun _ => []) .emission (if s.isEmission = false then u1 else [])) .ambient (if hasDiffuse s then u2 else [])) .diffuse (if hasDiffuse s then u3 else [])) .specular (if hasSpecular s then u4 else [])) .shininess (if hasSpecular s then [] else [])) .reflection (if s.reflective = true then u6 else [])) .transparent (u8)) .refraction (if s.refractive = true then [] else [])) .shininess (if hasSpecular s ∧ s.tex .shininess ≠ [] then v1 else [])) .specLevel (if hasSpecular s ∧ s.specF.value ≠ 1 then u11 else [])) .bump (if s.tex .bump ≠ [] then v2 else [])) .emission (if s.isEmission = true then [] else []) } : StdFx), ({ refl := if s.reflective = true then true else if s.reflective = true then true else false, transl := if True then true else true, refr := if s.refractive = true then true else false } : StdSeen)) =
      some (({ params := ps, extra := ex, lighting := s.lighting, emission := if s.isEmission = false then r1 else { value := (0, 0, 0, 1) }, ambient := if hasDiffuse s then r2 else { value := (0, 0, 0, 1) }, diffuse := if hasDiffuse s then r3 else { value := (0, 0, 0, 1) }, specular := if hasSpecular s then r4 else { value := (0, 0, 0, 1) }, shininess := if hasSpecular s ∧ s.tex .shininess ≠ [] then { (if hasSpecular s then r5 else { value := 20 } : SParm ℚ) with value := 1 } else if hasSpecular s then r5 else { value := 20 }, reflect := if s.reflective = true then r6 else { value := (1, 1, 1, 1) }, reflectF := if s.reflective = true then r7 else { value := 1 }, rgbZero := s.rgbZero, transl := r8, translF := if True then r9 else { value := 1 }, refraction := if s.refractive = true then r10 else { value := 1 }, specF := if hasSpecular s ∧ s.specF.value ≠ 1 then r11 else { value := 1 }, emissionF := if s.isEmission = true then r12 else { value := 1 }, isEmission := if s.isEmission = true then true else false, tex := addTexs (addTexs (addTexs (addTexs (addTexs (addTexs (addTexs (addTexs (addTexs (addTexs (addTexs (addTexs (addTexs (fun _ => []) .emission (if s.isEmission = false then u1 else [])) .ambient (if hasDiffuse s then u2 else [])) .diffuse (if hasDiffuse s then u3 else [])) .specular (if hasSpecular s then u4 else [])) .shininess (if hasSpecular s then [] else [])) .reflection (if s.reflective = true then u6 else [])) .transparent (u8)) .refraction (if s.refractive = true then [] else [])) .shininess (if hasSpecular s ∧ s.tex .shininess ≠ [] then v1 else [])) .specLevel (if hasSpecular s ∧ s.specF.value ≠ 1 then u11 else [])) .bump (if s.tex .bump ≠ [] then v2 else [])) .emission (if s.isEmission = true then [] else [])) .displacement (if s.tex .displacement ≠ [] then v3 else []) } : StdFx), ({ refl := if s.reflective = true then true else if s.reflective = true then true else false, transl := if True then true else true, refr := if s.refractive = true then true else false } : StdSeen)) := seg_displacement ov _ _ _ rfl e3
  have g16 : (onlyIf (s.tex .filter ≠ []) (texturesNode (text "filter_color") (s.tex .filter))).foldlM (stdStep ov) (({ params := ps, extra := ex, lighting := s.lighting, emission := if s.isEmission = false then r1 else { value := (0, 0, 0, 1) }, ambient := if hasDiffuse s then r2 else { value := (0, 0, 0, 1) }, diffuse := if hasDiffuse s then r3 else { value := (0, 0, 0, 1) }, specular := if hasSpecular s then r4 else { value := (0, 0, 0, 1) }, shininess := if hasSpecular s ∧ s.tex .shininess ≠ [] then { (if hasSpecular s then r5 else { value := 20 } : SParm ℚ) with value := 1 } else if hasSpecular s then r5 else { value := 20 }, reflect := if s.reflective = true then r6 else { value := (1, 1, 1, 1) }, reflectF := if s.reflective = true then r7 else { value := 1 }, rgbZero := s.rgbZero, transl := r8, translF := if True then r9 else { value := 1 }, refraction := if s.refractive = true then r10 else { value := 1 }, specF := if hasSpecular s ∧ s.specF.value ≠ 1 then r11 else { value := 1 }, emissionF := if s.isEmission = true then r12 else { value := 1 }, isEmission := if s.isEmission = true then true else false, tex := addTexs (addTexs (addTexs (addTexs (addTexs (addTexs (addTexs (addTexs (addTexs (addTexs (addTexs (addTexs (addTexs (fun _ => []) .emission (if s.isEmission = false then u1 else [])) .ambient (if hasDiffuse s then u2 else [])) .diffuse (if hasDiffuse s then u3 else [])) .specular (if hasSpecular s then u4 else [])) .shininess (if hasSpecular s then [] else [])) .reflection (if s.reflective = true then u6 else [])) .transparent (u8)) .refraction (if s.refractive = true then [] else [])) .shininess (if hasSpecular s ∧ s.tex .shininess ≠ [] then v1 else [])) .specLevel (if hasSpecular s ∧ s.specF.value ≠ 1 then u11 else [])) .bump (if s.tex .bump ≠ [] then v2 else [])) .emission (if s.isEmission = true then [] else [])) .displacement (if s.tex .displacement ≠ [] then v3 else []) } : StdFx), ({ refl := if s.reflective = true then true else if s.reflective = true then true else false, transl := if True then true else true, refr := if s.refractive = true then true else false } : StdSeen)) =
      some (({ params := ps, extra := ex, lighting := s.lighting, emission := if s.isEmission = false then r1 else { value := (0, 0, 0, 1) }, ambient := if hasDiffuse s then r2 else { value := (0, 0, 0, 1) }, diffuse := if hasDiffuse s then r3 else { value := (0, 0, 0, 1) }, specular := if hasSpecular s then r4 else { value := (0, 0, 0, 1) }, shininess := if hasSpecular s ∧ s.tex .shininess ≠ [] then { (if hasSpecular s then r5 else { value := 20 } : SParm ℚ) with value := 1 } else if hasSpecular s then r5 else { value := 20 }, reflect := if s.reflective = true then r6 else { value := (1, 1, 1, 1) }, reflectF := if s.reflective = true then r7 else { value := 1 }, rgbZero := s.rgbZero, transl := r8, translF := if True then r9 else { value := 1 }, refraction := if s.refractive = true then r10 else { value := 1 }, specF := if hasSpecular s ∧ s.specF.value ≠ 1 then r11 else { value := 1 }, emissionF := if s.isEmission = true then r12 else { value := 1 }, isEmission := if s.isEmission = true then true else false, tex := addTexs (addTexs (addTexs (addTexs (addTexs (addTexs (addTexs (addTexs (addTexs (addTexs (addTexs (addTexs (addTexs (addTexs (fun _ => []) .emission (if s.isEmission = false then u1 else [])) .ambient (if hasDiffuse s then u2 else [])) .diffuse (if hasDiffuse s then u3 else [])) .specular (if hasSpecular s then u4 else [])) .shininess (if hasSpecular s then [] else [])) .reflection (if s.reflective = true then u6 else [])) .transparent (u8)) .refraction (if s.refractive = true then [] else [])) .shininess (if hasSpecular s ∧ s.tex .shininess ≠ [] then v1 else [])) .specLevel (if hasSpecular s ∧ s.specF.value ≠ 1 then u11 else [])) .bump (if s.tex .bump ≠ [] then v2 else [])) .emission (if s.isEmission = true then [] else [])) .displacement (if s.tex .displacement ≠ [] then v3 else [])) .filter (if s.tex .filter ≠ [] then v4 else []) } : StdFx), ({ refl := if s.reflective = true then true else if s.reflective = true then true else false, transl := if True then true else true, refr := if s.refractive = true then true else false } : StdSeen)) := seg_filter ov _ _ _ rfl e4
  have g17 : (onlyIf (s.tex .refraction ≠ []) (texturesNode (text "index_of_refraction") (s.tex .refraction))).foldlM (stdStep ov) (({ params := ps, extra := ex, lighting := s.lighting, emission := if s.isEmission = false then r1 else { value := (0, 0, 0, 1) }, ambient := if hasDiffuse s then r2 else { value := (0, 0, 0, 1) }, diffuse := if hasDiffuse s then r3 else { value := (0, 0, 0, 1) }, specular := if hasSpecular s then r4 else { value := (0, 0, 0, 1) }, shininess := if hasSpecular s ∧ s.tex .shininess ≠ [] then { (if hasSpecular s then r5 else { value := 20 } : SParm ℚ) with value := 1 } else if hasSpecular s then r5 else { value := 20 }, reflect := if s.reflective = true then r6 else { value := (1, 1, 1, 1) }, reflectF := if s.reflective = true then r7 else { value := 1 }, rgbZero := s.rgbZero, transl := r8, translF := if True then r9 else { value := 1 }, refraction := if s.refractive = true then r10 else { value := 1 }, specF := if hasSpecular s ∧ s.specF.value ≠ 1 then r11 else { value := 1 }, emissionF := if s.isEmission = true then r12 else { value := 1 }, isEmission := if s.isEmission = true then true else false, tex := addTexs (addTexs (addTexs (addTexs (addTexs (addTexs (addTexs (addTexs (addTexs (addTexs (addTexs (addTexs (addTexs (addTexs (fun _ => []) .emission (if s.isEmission = false then u1 else [])) .ambient (if hasDiffuse s then u2 else [])) .diffuse (if hasDiffuse s then u3 else [])) .specular (if hasSpecular s then u4 else [])) .shininess (if hasSpecular s then [] else [])) .reflection (if s.reflective = true then u6 else [])) .transparent (u8)) .refraction (if s.refractive = true then [] else [])) .shininess (if hasSpecular s ∧ s.tex .shininess ≠ [] then v1 else [])) .specLevel (if hasSpecular s ∧ s.specF.value ≠ 1 then u11 else [])) .bump (if s.tex .bump ≠ [] then v2 else [])) .emission (if s.isEmission = true then [] else [])) .displacement (if s.tex .displacement ≠ [] then v3 else [])) .filter (if s.tex .filter ≠ [] then v4 else []) } : StdFx), ({ refl := if s.reflective = true then true else if s.reflective = true then true else false, transl := if True then true else true, refr := if s.refractive = true then true else false } : StdSeen)) =
      some (({ params := ps, extra := ex, lighting := s.lighting, emission := if s.isEmission = false then r1 else { value := (0, 0, 0, 1) }, ambient := if hasDiffuse s then r2 else { value := (0, 0, 0, 1) }, diffuse := if hasDiffuse s then r3 else { value := (0, 0, 0, 1) }, specular := if hasSpecular s then r4 else { value := (0, 0, 0, 1) }, shininess := if hasSpecular s ∧ s.tex .shininess ≠ [] then { (if hasSpecular s then r5 else { value := 20 } : SParm ℚ) with value := 1 } else if hasSpecular s then r5 else { value := 20 }, reflect := if s.reflective = true then r6 else { value := (1, 1, 1, 1) }, reflectF := if s.reflective = true then r7 else { value := 1 }, rgbZero := s.rgbZero, transl := r8, translF := if True then r9 else { value := 1 }, refraction := if s.tex .refraction ≠ [] then { (if s.refractive = true then r10 else { value := 1 } : SParm ℚ) with value := 1 } else if s.refractive = true then r10 else { value := 1 }, specF := if hasSpecular s ∧ s.specF.value ≠ 1 then r11 else { value := 1 }, emissionF := if s.isEmission = true then r12 else { value := 1 }, isEmission := if s.isEmission = true then true else false, tex := addTexs (addTexs (addTexs (addTexs (addTexs (addTexs (addTexs (addTexs (addTexs (addTexs (addTexs (addTexs (addTexs (addTexs (addTexs (fun _ => []) .emission (if s.isEmission = false then u1 else [])) .ambient (if hasDiffuse s then u2 else [])) .diffuse (if hasDiffuse s then u3 else [])) .specular (if hasSpecular s then u4 else [])) .shininess (if hasSpecular s then [] else [])) .reflection (if s.reflective = true then u6 else [])) .transparent (u8)) .refraction (if s.refractive = true then [] else [])) .shininess (if hasSpecular s ∧ s.tex .shininess ≠ [] then v1 else [])) .specLevel (if hasSpecular s ∧ s.specF.value ≠ 1 then u11 else [])) .bump (if s.tex .bump ≠ [] then v2 else [])) .emission (if s.isEmission = true then [] else [])) .displacement (if s.tex .displacement ≠ [] then v3 else [])) .filter (if s.tex .filter ≠ [] then v4 else [])) .refraction (if s.tex .refraction ≠ [] then v5 else []) } : StdFx), ({ refl := if s.reflective = true then true else if s.reflective = true then true else false, transl := if True then true else true, refr := if s.tex .refraction ≠ [] then true else if s.refractive = true then true else false } : StdSeen)) := seg_refraction_tex ov _ _ e5 f5
  refine ⟨(({ params := ps, extra := ex, lighting := s.lighting, emission := if s.isEmission = false then r1 else { value := (0, 0, 0, 1) }, ambient := if hasDiffuse s then r2 else { value := (0, 0, 0, 1) }, diffuse := if hasDiffuse s then r3 else { value := (0, 0, 0, 1) }, specular := if hasSpecular s then r4 else { value := (0, 0, 0, 1) }, shininess := if hasSpecular s ∧ s.tex .shininess ≠ [] then { (if hasSpecular s then r5 else { value := 20 } : SParm ℚ) with value := 1 } else if hasSpecular s then r5 else { value := 20 }, reflect := if s.reflective = true then r6 else { value := (1, 1, 1, 1) }, reflectF := if s.reflective = true then r7 else { value := 1 }, rgbZero := s.rgbZero, transl := r8, translF := if True then r9 else { value := 1 }, refraction := if s.tex .refraction ≠ [] then { (if s.refractive = true then r10 else { value := 1 } : SParm ℚ) with value := 1 } else if s.refractive = true then r10 else { value := 1 }, specF := if hasSpecular s ∧ s.specF.value ≠ 1 then r11 else { value := 1 }, emissionF := if s.isEmission = true then r12 else { value := 1 }, isEmission := if s.isEmission = true then true else false, tex := addTexs (addTexs (addTexs (addTexs (addTexs (addTexs (addTexs (addTexs (addTexs (addTexs (addTexs (addTexs (addTexs (addTexs (addTexs (fun _ => []) .emission (if s.isEmission = false then u1 else [])) .ambient (if hasDiffuse s then u2 else [])) .diffuse (if hasDiffuse s then u3 else [])) .specular (if hasSpecular s then u4 else [])) .shininess (if hasSpecular s then [] else [])) .reflection (if s.reflective = true then u6 else [])) .transparent (u8)) .refraction (if s.refractive = true then [] else [])) .shininess (if hasSpecular s ∧ s.tex .shininess ≠ [] then v1 else [])) .specLevel (if hasSpecular s ∧ s.specF.value ≠ 1 then u11 else [])) .bump (if s.tex .bump ≠ [] then v2 else [])) .emission (if s.isEmission = true then [] else [])) .displacement (if s.tex .displacement ≠ [] then v3 else [])) .filter (if s.tex .filter ≠ [] then v4 else [])) .refraction (if s.tex .refraction ≠ [] then v5 else []) } : StdFx), ({ refl := if s.reflective = true then true else if s.reflective = true then true else false, transl := if True then true else true, refr := if s.tex .refraction ≠ [] then true else if s.refractive = true then true else false } : StdSeen)), ?_, ?_⟩
  · unfold commonKids extraKids
    rw [onlyIf_true (scalarNode fmt (text "transparency") s.translF [])]
    simp only [List.foldlM_append, g1, g2, g3, g4, g5, g6, g7, g8, g9, g10, g11, g12, g13, g14, g15, g16, g17, Option.bind_eq_bind, Option.bind_some]
  · intro hp he
    have hd : hasDiffuse s ↔ s.lighting ≠ .constant := Iff.rfl
    have hs : hasSpecular s ↔ s.lighting ≠ .constant ∧ s.lighting ≠ .lambert := Iff.rfl
    refine { params := hp, extra := he, lighting := rfl, mode := rfl, isEmission := ?_, reflective := ?_, refractive := ?_, emission := ?_, emissionF := ?_, ambient := ?_, diffuse := ?_, specular := ?_, shininess := ?_, specF := ?_, reflect := ?_, reflectF := ?_, transl := d8, translF := ?_, refraction := ?_, saved := ?_, lost := ?_, marks := rfl }
    · unfold stdEnd
      dsimp only
      cases s.isEmission <;> rfl
    · unfold stdEnd
      dsimp only
      cases s.reflective <;> rfl
    · unfold stdEnd
      dsimp only
      by_cases hx : s.tex .refraction = []
      · rw [if_neg (by simpa using hx)]
        cases s.refractive <;> simp [hx]
      · rw [if_pos hx]
        simp [hx]
    · intro hc
      show ColorBack rnd _ _ (if s.isEmission = false then r1 else _)
      rw [if_pos hc]
      exact d1
    · intro hc
      show ParmBack _ _ (if s.isEmission = true then r12 else _)
      rw [if_pos hc]
      exact d12
    · intro hc
      show ColorBack rnd _ _ (if hasDiffuse s then r2 else _)
      rw [if_pos (hd.2 hc)]
      exact d2
    · intro hc
      show ColorBack rnd _ _ (if hasDiffuse s then r3 else _)
      rw [if_pos (hd.2 hc)]
      exact d3
    · intro hc
      show ColorBack rnd _ _ (if hasSpecular s then r4 else _)
      rw [if_pos (hs.2 hc)]
      exact d4
    · intro hc
      show NumBack rnd _ _ (if hasSpecular s ∧ s.tex .shininess ≠ [] then { (if hasSpecular s then r5 else _) with value := 1 } else if hasSpecular s then r5 else _)
      by_cases hx : s.tex .shininess = []
      · rw [if_neg (fun e => e.2 hx), if_pos (hs.2 hc), hx]
        exact d5
      · rw [if_pos ⟨hs.2 hc, hx⟩]
        unfold NumBack
        rw [if_neg hx]
    · intro hc
      show if s.specF.value = 1 then (if hasSpecular s ∧ s.specF.value ≠ 1 then r11 else ({ value := 1 } : SParm ℚ)) = { value := 1 } else NumBack rnd _ _ (if hasSpecular s ∧ s.specF.value ≠ 1 then r11 else _)
      by_cases hx : s.specF.value = 1
      · rw [if_pos hx, if_neg (fun e => e.2 hx)]
      · rw [if_neg hx, if_pos ⟨hs.2 hc, hx⟩]
        exact d11
    · intro hc
      unfold stdEnd
      dsimp only
      simp only [if_pos hc, if_true]
      exact d6
    · intro hc
      unfold stdEnd
      dsimp only
      simp only [if_pos hc, if_true]
      exact d7
    · show ParmBack _ _ (if True then r9 else { value := 1 })
      rw [if_pos trivial]
      exact d9
    · intro hc
      show NumBack rnd _ _ (if s.tex .refraction ≠ [] then { (if s.refractive = true then r10 else _) with value := 1 } else if s.refractive = true then r10 else _)
      by_cases hx : s.tex .refraction = []
      · rw [if_neg (fun e => e hx), if_pos hc, hx]
        exact d10
      · rw [if_pos hx]
        unfold NumBack
        rw [if_neg hx]
    · intro c hc
      unfold stdEnd
      dsimp only
      have keep : ∀ {ts us : List STex}, List.Forall₂ (TexBack ov) ts us → (if ts ≠ [] then us else []) = us := by
        intro ts us hts
        by_cases hx : ts = []
        · subst hx; cases hts; rfl
        · rw [if_pos hx]
      cases c <;> simp only [addTexs, reduceCtorEq, if_false, if_true, List.nil_append, List.append_nil, ite_self]
      · rw [if_pos (show hasDiffuse s from hc)]; exact b2
      · rw [keep f2]; exact f2
      · rw [if_pos (show hasDiffuse s from hc)]; exact b3
      · rw [keep f3]; exact f3
      · rw [if_pos (show s.isEmission = false from hc)]; exact b1
      · rw [keep f4]; exact f4
      · rw [if_pos (show s.reflective = true from hc)]; exact b6
      · rw [keep f5]; exact f5
      · by_cases hx : s.tex .shininess = []
        · rw [if_neg (fun e => e.2 hx), hx]; exact .nil
        · rw [if_pos ⟨hs.2 hc, hx⟩]; exact f1
      · rw [if_pos (hs.2 hc)]; exact b4
      · rw [if_pos ⟨hs.2 hc.1, hc.2⟩]; exact b11
      · exact b8
    · intro c hc
      unfold stdEnd
      dsimp only
      cases c <;> simp only [addTexs, reduceCtorEq, if_false, if_true, List.nil_append, List.append_nil, ite_self]
      · exact if_neg hc
      · exact absurd trivial hc
      · exact if_neg hc
      · exact absurd trivial hc
      · exact if_neg hc
      · exact absurd trivial hc
      · exact if_neg hc
      · exact absurd trivial hc
      · exact if_neg fun e => hc e.1
      · exact if_neg hc
      · exact if_neg hc
      · exact absurd trivial hc

end Verif.FArc
