import Verif.ArcPassLemmas

/-!
# C165: passes and shaders survive saving and loading
-/

namespace Verif.FArc

open Verif.FEff (Text text)
open Verif.FConv (Ov Formats)
open Verif.FPass (Shader Pass Tech RState Code findCode Sorted Reach)

/-- **C165, partial.** A pass is always written, whatever is around it, and what is written is loaded as a pass with the name that the pass has afterwards, the same render states in the same order and the same shaders in
the same order; each shader finds the code with the sub-id that was written. The name is the old one unless its scope already has it. Missing: shaders without name (`shader_violated`), bindings without
reference or symbol, LIGHT_SPOT_DIRECTION. -/
theorem pass_roundtrip_partial (ov : Ov) {fmt rnd} (hf : Formats fmt rnd) (around : List Node) (ha : ∀ a ∈ around, PlainSids a) (tech : Tech) (ht : tech.profile.isSome) (hs : ∀ c ∈ tech.all, c.sid ≠ [])
    (p : Pass) (hn : Plain p.name) (hst : ∀ s ∈ p.states, GoodRState s) (hso : Sorted p.states) (hsh : ∀ s ∈ p.shaders, GoodShader s) :
    ∃ n name q, writePass fmt around p = some (n, name) ∧ loadPass ov tech n {} = some q ∧ q.name = name ∧ List.Forall₂ (StateBack rnd) p.states q.states ∧ List.Forall₂ (ShaderBack tech) p.shaders q.shaders ∧
      (p.name = [] → name = []) ∧ (∀ scope, scopeOf (enclose (leaf (text "pass")) around) = some scope → ¬ HasSid p.name scope → name = p.name) := by
  have hr : ∃ k name, (if p.name = [] then some (leaf (text "pass"), []) else putSid around (leaf (text "pass")) p.name) = some (k, name) ∧ k.name = text "pass" ∧ k.kids = [] ∧
      (∀ d ks, prop (some (.elem k.name k.attrs d ks)) (text "sid") = some name) ∧ (p.name = [] → name = []) ∧ (∀ scope, scopeOf (enclose (leaf (text "pass")) around) = some scope → ¬ HasSid p.name scope → name = p.name) := by
    by_cases e : p.name = []
    · rw [if_pos e]
      exact ⟨_, _, rfl, rfl, rfl, fun _ _ => prop_absent rfl, fun _ => rfl, fun _ _ _ => e.symm⟩
    · rw [if_neg e]
      obtain ⟨k, t, e1, e2, e3, -, e5, e6, -, scope, e8, -, e10⟩ := putSid_read around (leaf (text "pass")) rfl rfl (fun s h => by
        rcases (hasSid_iff s _ _ _ _).1 h with h | ⟨_, h, _⟩
        · cases h
        · cases h) ha p.name e hn
      refine ⟨k, t, e1, e2, e3, fun d ks => ?_, fun h => absurd h e, fun sc h1 h2 => ?_⟩
      · cases k with
        | elem a as x js =>
          have e6 : (Node.elem a as d ks).raw (text "sid") = _ := e6
          by_cases h : t = []
          · rw [if_pos h] at e6
            rw [h]; exact prop_absent e6
          · rw [if_neg h] at e6
            exact prop_raw e6 e5
      · rw [e8] at h1
        exact e10 ((Option.some.inj h1) ▸ h2)
  obtain ⟨k, name, h1, h2, h3, h4, h5, h6⟩ := hr
  obtain ⟨ks, g1, g2⟩ := states_back ov hf tech p.states hst hso
  obtain ⟨q, f1, f2, f3, ts, f4, f5, -, -⟩ := g2 { name := name } (fun _ h => nomatch h) (fun _ h => nomatch h)
  obtain ⟨q', i1, i2, i3, us, i4, i5⟩ := shaders_back ov tech ht hs p.shaders hsh q
  refine ⟨_, name, q', by unfold writePass; rw [h1, Option.bind_some, g1]; rfl, ?_, by rw [i2, f2], by rw [i3, f4]; simpa using f5, by rw [i4, f3]; simpa using i5, h5, h6⟩
  unfold loadPass
  rw [if_neg (by rw [show (Node.elem k.name k.attrs k.direct (k.kids ++ ks ++ p.shaders.map writeShader)).name = k.name from rfl, h2]; simp), h4, Option.bind_some, kids_elem, h3, List.nil_append, List.foldlM_append, f1]
  exact i1

/-- Every pass that a user can make has its states in the order that `pass_roundtrip_partial` asks for. -/
theorem pass_states_sorted (p : Pass) (l : List RState) (h : Reach p l) : Sorted p.states := (FPass.reach_inv h).sorted

/-- **C165.** With different sub-ids for the codes within reach, a shader has its own code again. -/
theorem shader_code_kept (tech : Tech) (hd : (tech.all.map Code.sid).Nodup) (s t : Shader) (h : ShaderBack tech s t) (hc : ∀ c, s.code = some c → c ∈ tech.all) : { t with id := s.id } = s := by
  rw [h]
  cases e : s.code with
  | none => rw [Option.bind_none, ← e]
  | some c =>
    have : findCode tech.all c.sid = some c := by
      unfold findCode
      have hm := hc c e
      generalize tech.all = l at hm hd
      induction l with
      | nil => simp at hm
      | cons d l ih =>
        rw [List.map_cons, List.nodup_cons] at hd
        rcases List.mem_cons.1 hm with rfl | hm
        · rw [List.find?_cons_of_pos (by simp)]
        · rw [List.find?_cons_of_neg (by
            simp only [decide_eq_true_eq]
            intro h
            exact hd.1 (by rw [h]; exact List.mem_map_of_mem hm))]
          exact ih hm hd.2
    rw [Option.bind_some, this, ← e]

/-- A pass with two states and two shaders. -/
def samplePass : Pass where
  name := text "main"
  states := [⟨0, 6, dataOf (docScal 6) [.nat 0x405]⟩, ⟨1, 15, dataOf (docScal 15) [.nat 0x203, .nat 7, .nat 255]⟩]
  shaders := [{ id := 2, name := text "vs", target := text "arbvp1", bindings := [(text "WorldViewProj", text "mvp")], code := some ⟨5, text "inc"⟩ }, { id := 3, isFragment := true, name := text "fs & more" }]
  next := 4

example : (∀ s ∈ samplePass.states, GoodRState s) ∧ Sorted samplePass.states ∧ (∀ s ∈ samplePass.shaders, GoodShader s) := by
  refine ⟨?_, ?_, ?_⟩
  · intro s hs
    simp only [samplePass, List.mem_cons, List.not_mem_nil, or_false] at hs
    rcases hs with rfl | rfl
    · exact ⟨by decide, by decide, [.nat 0x405], .cons (by simp [GoodSV, enumValues]) .nil, rfl⟩
    · exact ⟨by decide, by decide, [.nat 0x203, .nat 7, .nat 255], .cons (by simp [GoodSV, enumValues]) (.cons (by simp [GoodSV]) (.cons (by simp [GoodSV]) .nil)), rfl⟩
  · simp [Sorted, samplePass]
  · intro s hs
    simp only [samplePass, List.mem_cons, List.not_mem_nil, or_false] at hs
    rcases hs with rfl | rfl
    · refine ⟨by decide, hplain _ (by decide), hplain _ (by decide), hplain _ (by decide), ?_, ?_⟩
      · intro b hb
        rw [List.mem_singleton.1 hb]
        exact ⟨hplain _ (by decide), hplain _ (by decide), by decide, by decide⟩
      · intro c hc
        obtain rfl := Option.some.inj hc
        exact ⟨hplain _ (by decide), by decide⟩
    · exact ⟨by decide, hplain _ (by decide), hplain _ (by decide), hplain _ (by decide), (fun _ h => nomatch h), (fun _ h => nomatch h)⟩

/-- The technique that the sample belongs to, with the code of the technique and that of the profile. -/
def sampleTech : Tech := ⟨[⟨8, text "inc"⟩], some [⟨9, text "inc"⟩]⟩

/-- **C165, violated.** A fragment shader without name is loaded as a vertex shader without code, compiler target, options and bindings; bindings without reference or symbol are lost; and a shader with the code of the profile
is loaded with the code of its technique that has the same sub-id. -/
theorem shader_violated :
    (∀ (i : Nat) (f : Bool) (t o : Text) (bs : List (Text × Text)) (c : Option Code) (tech : Tech), loadShader tech (writeShader ⟨i, f, [], t, o, bs, c⟩) { id := i } = some { id := i }) ∧
    (∀ (s : Shader) (r : Text), writeShader { s with bindings := s.bindings ++ [(r, []), ([], r)] } = writeShader s) ∧
    loadShader sampleTech (writeShader { id := 2, name := text "vs", code := some ⟨9, text "inc"⟩ }) { id := 2 } = some { id := 2, name := text "vs", code := some ⟨8, text "inc"⟩ } := by
  refine ⟨?_, ?_, by decide +kernel⟩
  · intro i f t o bs c tech
    have hn : (writeShader ⟨i, f, [], t, o, bs, c⟩).child (text "name") = none := by
      refine child_other fun k hk e => ?_
      simp only [List.mem_append] at hk
      have hu : ∀ nm t, k ∈ textUnlessEmpty nm t → k.name = text nm := by
        intro nm t h
        unfold textUnlessEmpty at h
        split at h
        · cases h
        · rw [List.mem_singleton.1 h]; rfl
      rcases hk with ((hk | hk) | hk) | hk
      · exact text_ne (by decide) ((hu _ _ hk).symm.trans e)
      · exact text_ne (by decide) ((hu _ _ hk).symm.trans e)
      · cases hk
      · obtain ⟨b, -, hb⟩ := List.mem_filterMap.1 hk
        unfold passBind at hb
        split at hb
        · obtain rfl := Option.some.inj hb
          exact absurd e (text_ne (by decide))
        · cases hb
    unfold loadShader
    rw [if_neg (by show ¬ text "shader" ≠ text "shader"; simp), hn]
    rfl
  · intro s r
    unfold writeShader shaderName
    simp [List.filterMap_append, passBind]

end Verif.FArc
