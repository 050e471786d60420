import Verif.ArcFxWhole

/-!
# C166: codes, techniques and FX profiles survive saving and loading
-/

namespace Verif.FArc

open Verif.FEff (Text text)
open Verif.FConv (Ov Formats)
open Verif.FPass (Shader Pass Tech RState Code findCode)

/-- **C166, partial.** A technique is always written, whatever is around it; saving changes only names and sub-ids, and the sub-ids of its codes become different. If every code has one, what is written is loaded as a
technique with the name, codes, parameters and passes that the technique has after saving. Missing: a technique without passes (`technique_violated`), the loss of parts of parameters and of passes (C163, C165). -/
theorem technique_roundtrip_partial {fmt rnd} (ov : Ov) (hf : Formats fmt rnd) (urls : Urls) (around : List Node) (ha : ∀ a ∈ around, PlainSids a) (prof : List FxCode) (hp : ∀ c ∈ prof, Plain c.sid) (t : FxTech)
    (h : GoodFxTech urls prof t) :
    ∃ n u, writeFxTech fmt urls around prof t = some (n, u) ∧ TechSaved prof t u ∧
      ((∀ c ∈ u.codes ++ prof, c.sid ≠ []) → ∀ prof' : List FxCode, prof'.map FxCode.sid = prof.map FxCode.sid → ∃ v, loadFxTech ov urls prof' n = some v ∧ TechBack rnd urls prof' u v) := by
  obtain ⟨n, u, h1, -, -, h4, h5⟩ := tech_spec ov hf urls around ha prof hp t h
  exact ⟨n, u, h1, h4, h5⟩

/-- **C166, partial.** The same for an FX profile with its platform, codes, parameters, techniques and extra. Missing: parameters that change a value (`profile_setparam_violated`). -/
theorem profile_roundtrip_partial {fmt rnd} (ov : Ov) (hf : Formats fmt rnd) (urls : Urls) (around : List Node) (ha : ∀ a ∈ around, PlainSids a) (name : Text) (p : FxProfile) (h : GoodFx urls p) :
    ∃ n u, writeFx fmt urls around name p = some (n, u) ∧ FxSaved p u ∧ (AllSids u → ∃ v, loadFx ov urls name n = some v ∧ FxBack rnd urls u v) := by
  obtain ⟨n, u, h1, h2, -, -, h5⟩ := profile_spec ov hf urls around ha name p h
  exact ⟨n, u, h1, h2, h5⟩

/-- **C166.** A shader with a code of its technique finds this code again: the codes have different sub-ids after saving. -/
theorem technique_code_found {rnd} {urls : Urls} {prof prof' : List FxCode} {t u v : FxTech} (hs : TechSaved prof t u) (hb : TechBack rnd urls prof' u v) (j : Nat) (c : FxCode) (hc : u.codes[j]? = some c) (hne : c.sid ≠ []) :
    ∃ d, v.codes[j]? = some d ∧ CodeBack urls c d ∧ findCode (v.codes.map FxCode.short ++ prof'.map FxCode.short) c.sid = some d.short := by
  have key : ∀ (l m : List FxCode), DistinctSids l → List.Forall₂ (CodeBack urls) l m → ∀ j : Nat, l[j]? = some c → ∃ d, m[j]? = some d ∧ CodeBack urls c d ∧ findCode (m.map FxCode.short ++ prof'.map FxCode.short) c.sid = some d.short := by
    intro l m hd hlm
    induction hlm with
    | nil => intro j h; cases h
    | @cons a b l m hab _ ih =>
      have hd' := List.pairwise_cons.1 hd
      intro j h
      cases j with
      | zero =>
        obtain rfl := Option.some.inj h
        refine ⟨b, rfl, hab, ?_⟩
        unfold findCode
        rw [List.map_cons, List.cons_append]
        exact List.find?_cons_of_pos (decide_eq_true (show b.short.sid = a.sid from hab.2.1))
      | succ j =>
        obtain ⟨d, h1, h2, h3⟩ := ih hd'.2 j h
        refine ⟨d, h1, h2, ?_⟩
        have hm : c ∈ l := List.mem_of_getElem? h
        have hx : b.sid ≠ c.sid := by
          intro e
          rw [hab.2.1] at e
          exact hne (e ▸ hd'.1 c hm e)
        unfold findCode at h3 ⊢
        rw [List.map_cons, List.cons_append, List.find?_cons_of_neg (by rw [decide_eq_false (show ¬ b.short.sid = c.sid from hx)]; decide)]
        exact h3
  exact key u.codes v.codes hs.codes.2 hb.codes j hc

/-! ## A profile that meets the hypotheses -/

/-- Files have the same names in urls. -/
def plainUrls : Urls := ⟨id, id⟩

/-- A technique with two codes of the same sub-id, and a pass with a shader that uses the second. -/
def sampleFxTech : FxTech where
  codes := [{ id := 1, isInclude := false, sid := text "inc", code := text "float4 x;" }, { id := 2, sid := text "inc", file := text "a.cg" }]
  passes := [{ name := text "main", shaders := [{ id := 2, name := text "vs", code := some ⟨2, text "inc"⟩ }] }]

theorem sampleFxTech_good : GoodFxTech plainUrls [] sampleFxTech := by
  refine ⟨hplain _ (by decide), ?_, by simp [sampleFxTech], ?_⟩
  · intro c hc
    simp only [sampleFxTech, List.mem_cons, List.not_mem_nil, or_false] at hc
    rcases hc with rfl | rfl
    · exact ⟨⟨⟨by decide +kernel, by decide +kernel, by decide +kernel⟩, by decide +kernel⟩, hplain _ (by decide +kernel)⟩
    · exact ⟨⟨⟨by decide +kernel, by decide +kernel, by decide +kernel⟩, by decide +kernel⟩, hplain _ (by decide +kernel)⟩
  · intro p hp
    simp only [sampleFxTech, List.mem_singleton] at hp
    subst hp
    refine ⟨hplain _ (by decide +kernel), by simp, List.Pairwise.nil, fun s hs => ?_⟩
    rw [List.mem_singleton] at hs
    subst hs
    refine ⟨⟨by decide, hplain _ (by decide), hplain _ (by decide), hplain _ (by decide), by simp, by simp⟩, fun c hc => ?_⟩
    obtain rfl := Option.some.inj hc
    simp [sampleFxTech]

/-- A profile with it. -/
def sampleFx : FxProfile := { platform := text "PC", techs := [sampleFxTech] }

theorem sampleFx_good : GoodFx plainUrls sampleFx :=
  ⟨hplain _ (by decide +kernel), by simp [sampleFx], by simp [sampleFx], by intro t ht; rw [List.mem_singleton.1 (show t ∈ [sampleFxTech] from ht)]; exact sampleFxTech_good, Or.inr rfl⟩

/-- The second code gets another sub-id, the technique a name, and the shader finds its code. -/
example : ((writeFxTech fmt02 plainUrls [] [] sampleFxTech).bind fun r => (loadFxTech .wrap plainUrls [] r.1).map fun v => (r.2.name, v.name, r.2.codes.map FxCode.sid)) = some (text "common", text "common", [text "inc", text "inc2"]) ∧
    ((writeFxTech fmt02 plainUrls [] [] sampleFxTech).bind fun r => (loadFxTech .wrap plainUrls [] r.1).map FxTech.codes) =
      some [{ id := 0, isInclude := false, sid := text "inc", code := text "float4 x;" }, { id := 1, sid := text "inc2", file := text "a.cg" }] ∧
    ((writeFxTech fmt02 plainUrls [] [] sampleFxTech).bind fun r => (loadFxTech .wrap plainUrls [] r.1).map fun v => v.passes.map fun p => p.shaders.map Shader.code) = some [[some ⟨1, text "inc2"⟩]] := by
  refine ⟨?_, ?_, ?_⟩ <;> decide +kernel

/-! ## What is lost -/

/-- **C166, violated.** A technique without passes is loaded with one. -/
theorem technique_violated : ((writeFxTech fmt02 plainUrls [] [] {}).bind fun r => (loadFxTech .wrap plainUrls [] r.1).map fun v => (v.name, v.passes.length)) = some (text "common", 1) := by decide +kernel

/-- **C166, violated.** A parameter of a profile that changes a value is written and not loaded. -/
theorem profile_setparam_violated : GoodParm { role := .modifier, ref := text "x", sem := [], notes := [], body := .bool true } ∧
    ((writeFx fmt02 plainUrls [] (text "profile_CG") { params := [{ role := .modifier, ref := text "x", sem := [], notes := [], body := .bool true }] }).bind fun r => (loadFx .wrap plainUrls (text "profile_CG") r.1).map fun v => (r.1.kids.length, v.params)) = some (1, []) := by
  refine ⟨⟨Or.inr rfl, ⟨by decide +kernel, by decide +kernel, by decide +kernel⟩, by decide +kernel, hplain _ (by decide), fun _ => rfl, by simp, trivial⟩, by decide +kernel⟩

/-- **C166, violated.** A shader without code is loaded with the first code that has no sub-id. -/
theorem shader_without_code_violated : (loadFxTech .wrap plainUrls [] (.elem (text "technique") [] [] [textChild (text "code") (text "x"), .elem (text "pass") [] [] [writeShader { id := 0, name := text "vs" }]])).map
    (fun v => v.passes.map fun p => p.shaders.map Shader.code) = some [[some ⟨0, []⟩]] := by decide +kernel

/-- **C166.** A code is put behind the asset and the codes and includes that are the first children of its parent, and before all others; the others keep their order. -/
theorem code_place (c p : Node) (E R : List Node) (hk : p.kids = E ++ R) (hE : ∀ k ∈ E, k.name = text "asset" ∨ k.name = text "code" ∨ k.name = text "include")
    (hR : ∀ k ∈ R.head?, k.name ≠ text "asset" ∧ k.name ≠ text "code" ∧ k.name ≠ text "include") : (insertCode c p).kids = E ++ c :: R := by
  have h1 : ∀ k ∈ E, isEarly k = true := fun k h => by simpa [isEarly] using hE k h
  have h2 : R.takeWhile isEarly = [] ∧ R.dropWhile isEarly = R := by
    cases R with
    | nil => exact ⟨rfl, rfl⟩
    | cons k R =>
      obtain ⟨a, b, d⟩ := hR k rfl
      simp [isEarly, a, b, d]
  unfold insertCode
  rw [kids_elem, hk, List.takeWhile_append_of_pos h1, List.dropWhile_append_of_pos h1, h2.1, h2.2, List.append_nil]

example : (insertCode (.elem (text "code") [] [] []) (.elem (text "technique") [] [] [.elem (text "asset") [] [] [], .elem (text "pass") [] [] []])).kids.map Node.name = [text "asset", text "code", text "pass"] := by
  decide +kernel

end Verif.FArc
