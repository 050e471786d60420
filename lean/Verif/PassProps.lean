import Verif.PassLemmas

/-! # Render states start with their documented values, and passes keep their states in order -/

namespace Verif.FPass

open Verif.FEff (Text text)

/-- C119. The data of every render state have the documented size. -/
theorem data_size (t : Nat) (ht : t < 108) : ∃ d, construct t = some d ∧ d.length = (layout t).length := by
  obtain ⟨d, h, hl⟩ := construct_isSome t
  exact ⟨d, h, by rw [hl, sizes_ok t ht]⟩

/-- C119. A new render state has its documented value, in part. Missing: the direction of spot lights, of which the last four bytes are not written. -/
theorem default_value_partial (t : Nat) (ht : t < 108) (h : t ≠ 29) : ∃ d, construct t = some d ∧ AsDocumented t d := by
  obtain ⟨d, e, h1, h2⟩ := setDefault_eq t ht h (List.replicate (dataSize t) .raw) (by simp)
  refine ⟨d, e, by rw [← h1]; simp, h2, ?_⟩
  intro i c hc
  rw [← h1, List.getElem?_map] at hc
  rcases hd : d[i]? with _ | x
  · rw [hd] at hc; simp at hc
  · rw [hd] at hc; simpa using hc

/-- C119. Setting a render state back to its default gives the documented value whatever the data were, in part: again without the direction of spot lights. -/
theorem reset_value_partial (t : Nat) (ht : t < 108) (h : t ≠ 29) (m : List Cell) (hm : m.length = (layout t).length) : ∃ d, setDefault t m = some d ∧ AsDocumented t d := by
  obtain ⟨d, e, h1, h2⟩ := setDefault_eq t ht h m (by rw [hm, sizes_ok t ht])
  refine ⟨d, e, by rw [← h1]; simp, h2, ?_⟩
  intro i c hc
  rw [← h1, List.getElem?_map] at hc
  rcases hd : d[i]? with _ | x
  · rw [hd] at hc; simp at hc
  · rw [hd] at hc; simpa using hc

/-- The hypotheses are met: the data of an alpha function after a user wrote over them. -/
example : ([.byte 1, .byte 2, .byte 3, .byte 4, .byte 5, .byte 6, .byte 7, .byte 8] : List Cell).length = (layout 0).length ∧
    setDefault 0 [.byte 1, .byte 2, .byte 3, .byte 4, .byte 5, .byte 6, .byte 7, .byte 8] = some [.byte 7, .byte 2, .byte 0, .byte 0, .fl 0 0, .fl 0 1, .fl 0 2, .fl 0 3] := by decide +kernel

/-- C119 fails for the direction of spot lights: documented as a vector of four floats, it is made of seventeen bytes of which the last four are never written. -/
theorem spot_direction_violated : ∃ d, construct 29 = some d ∧ ¬ AsDocumented 29 d ∧ d.drop 13 = [.raw, .raw, .raw, .raw] := by
  refine ⟨_, spot_eq _ (by decide +kernel), ?_, by decide +kernel⟩
  intro h
  exact h.2.1 .raw (by decide +kernel) rfl

/-- C119 fails for the direction of spot lights: set back to its default, it keeps four bytes of what the user wrote. -/
theorem reset_spot_violated (m : List Cell) (hm : m.length = 17) : ∃ d, setDefault 29 m = some d ∧ d.drop 13 = m.drop 13 := by
  refine ⟨_, spot_eq m hm, ?_⟩
  rw [List.drop_append]
  simp [flBytes]

/-- C119 fails for numbers that are no render states: the state is made, with one byte that is never written. -/
theorem unknown_state_violated (t : Nat) (ht : 108 ≤ t) : construct t = some [.raw] := construct_unknown t ht

/-- C119. The clone of a render state into a new state of the same type has its data, whatever the user wrote. -/
theorem state_clone (s : RState) (hs : s.data.length = dataSize s.type) (id : Nat) :
    ∃ d, construct s.type = some d ∧ s.cloneInto ⟨id, s.type, d⟩ = some ⟨id, s.type, s.data⟩ := by
  obtain ⟨d, h, hl⟩ := construct_isSome s.type
  refine ⟨d, h, ?_⟩
  rw [RState.cloneInto, if_pos (by rw [hs]; exact hl.symm)]

/-- A render state with data written by a user. -/
example : (⟨0, 46, [.byte 3, .byte 1]⟩ : RState).data.length = dataSize 46 := by decide +kernel

/-- C119. Cloning into a state whose data have another size does nothing and is reported. -/
theorem state_clone_refused (s d : RState) (h : s.data.length ≠ d.data.length) : s.cloneInto d = none := by
  rw [RState.cloneInto, if_neg h]

/-- C120. Whatever was done with the pass before, after a vertex shader is added it is the only vertex shader, the one found, and the fragment shaders and render states are those there were. -/
theorem add_vertex_shader (p : Pass) (l : List RState) (h : Reach p l) :
    ∃ N, ∀ n ≥ N, ∃ q, addVertex n p = some q ∧ (q.shaders.filter fun s => !s.isFragment) = [{ id := p.next }] ∧
      getVertex q = some { id := p.next } ∧ (q.shaders.filter fun s => s.isFragment) = (p.shaders.filter fun s => s.isFragment) ∧ getFragment q = getFragment p ∧ q.states = p.states := by
  have hv : ∀ l : List Shader, (l.filter fun s => s.isFragment).filter (fun s => !s.isFragment) = [] := by
    intro l
    rw [List.filter_filter, List.filter_eq_nil_iff]
    intro a _; simp
  refine ⟨p.shaders.length + 1, fun n hn => ⟨_, addVertex_spec p l (reach_inv h) n hn, ?_, ?_, ?_, ?_, rfl⟩⟩
  · change (_ ++ _ : List Shader).filter _ = _
    rw [List.filter_append, hv]; rfl
  · change (_ ++ _ : List Shader).find? _ = _
    rw [← List.head?_filter, List.filter_append, hv]; rfl
  · change (_ ++ _ : List Shader).filter _ = _
    rw [List.filter_append, List.filter_filter]; simp
  · change (_ ++ _ : List Shader).find? _ = _
    rw [← List.head?_filter, List.filter_append, List.filter_filter, getFragment, ← List.head?_filter]; simp

/-- C120. The same for fragment shaders. -/
theorem add_fragment_shader (p : Pass) (l : List RState) (h : Reach p l) :
    ∃ N, ∀ n ≥ N, ∃ q, addFragment n p = some q ∧ (q.shaders.filter fun s => s.isFragment) = [{ id := p.next, isFragment := true }] ∧
      getFragment q = some { id := p.next, isFragment := true } ∧ (q.shaders.filter fun s => !s.isFragment) = (p.shaders.filter fun s => !s.isFragment) ∧ getVertex q = getVertex p ∧ q.states = p.states := by
  have hv : ∀ l : List Shader, (l.filter fun s => !s.isFragment).filter (fun s => s.isFragment) = [] := by
    intro l
    rw [List.filter_filter, List.filter_eq_nil_iff]
    intro a _; simp
  refine ⟨p.shaders.length + 1, fun n hn => ⟨_, addFragment_spec p l (reach_inv h) n hn, ?_, ?_, ?_, ?_, rfl⟩⟩
  · change (_ ++ _ : List Shader).filter _ = _
    rw [List.filter_append, hv]; rfl
  · change (_ ++ _ : List Shader).find? _ = _
    rw [← List.head?_filter, List.filter_append, hv]; rfl
  · change (_ ++ _ : List Shader).filter _ = _
    rw [List.filter_append, List.filter_filter]; simp
  · change (_ ++ _ : List Shader).find? _ = _
    rw [← List.head?_filter, List.filter_append, List.filter_filter, getVertex, ← List.head?_filter]; simp

/-- C120. After every history the render states are those added and not released, in the order of their types, and those of the same type in the order in which they were added. -/
theorem states_in_order (p : Pass) (l : List RState) (h : Reach p l) :
    p.states.Perm l ∧ Sorted p.states ∧ ∀ t, p.states.filter (fun s => decide (s.type = t)) = l.filter fun s => decide (s.type = t) :=
  ⟨(reach_inv h).perm, (reach_inv h).sorted, (reach_inv h).stable⟩

/-- C120. Looking for a render state finds the first added of that type, and nothing exactly when there is none. -/
theorem find_state (p : Pass) (l : List RState) (h : Reach p l) (t : Nat) : findRenderState p t = l.find? fun s => decide (s.type = t) := by
  rw [findRenderState, ← List.head?_filter, (reach_inv h).stable, List.head?_filter]

/-- C120. A render state can always be added, and is found if there was none of its type. -/
theorem add_state (p : Pass) (l : List RState) (h : Reach p l) (t : Nat) :
    ∃ q d, addRenderState p t = some q ∧ construct t = some d ∧ Reach q (l ++ [⟨p.next, t, d⟩]) ∧ findRenderState q t = some ((findRenderState p t).getD ⟨p.next, t, d⟩) := by
  obtain ⟨d, hd, _⟩ := construct_isSome t
  have e := addRenderState_eq p t d hd
  have hr : Reach _ (log p l (.addState t)) := Reach.step (o := .addState t) h trivial (Step.addState t _ e)
  have hlog : log p l (.addState t) = l ++ [⟨p.next, t, d⟩] := by rw [log, hd]; rfl
  rw [hlog] at hr
  refine ⟨_, d, e, hd, hr, ?_⟩
  rw [find_state _ _ hr, find_state _ _ h, List.find?_append]
  rcases l.find? (fun s => decide (s.type = t)) with _ | x
  · simp
  · simp

/-- C120. A binding that was added is found by its reference and its symbol unless an earlier binding has the same, and no other binding is lost. -/
theorem add_binding (s : Shader) (ref sym : Text) :
    (∀ r, findReference (addBinding s ref sym) r = (findReference s r).or (if ref = r then some (ref, sym) else none)) ∧
    ∀ r, findSymbol (addBinding s ref sym) r = (findSymbol s r).or (if sym = r then some (ref, sym) else none) := by
  constructor
  · intro r
    rw [findReference, addBinding, List.find?_append, findReference]
    by_cases h : ref = r <;> simp [h]
  · intro r
    rw [findSymbol, addBinding, List.find?_append, findSymbol]
    by_cases h : sym = r <;> simp [h]

/-- C120. The clone of a pass, in part: the clone into a new pass has the name, shaders and render states of the pass, in the same order; each shader uses the first code within reach of the clone that has the
sub id of the code of the original. Missing: codes with the same sub id, and techniques without a profile. -/
theorem clone_pass_partial (p : Pass) (l : List RState) (h : Reach p l) (tech : Tech) (hc : ∀ s ∈ p.shaders, CanLook tech s) (k : Nat) :
    ∃ q, p.cloneInto (some tech) { next := k } = some q ∧ q.name = p.name ∧ q.shaders.map Shader.seen = p.shaders.map Shader.seen ∧
      q.shaders.map Shader.code = p.shaders.map (codeFor tech) ∧ q.states.map RState.seen = p.states.map RState.seen := by
  have hi := reach_inv h
  obtain ⟨c, e, h1, h2, _⟩ := cloneShaders_eq tech p.shaders { name := p.name, next := k } hc
  obtain ⟨d, e', h3⟩ := cloneStates_eq p.states { name := p.name, shaders := c, states := [], next := k + p.shaders.length } hi.sorted (fun s hs => hi.size s (hi.perm.mem_iff.1 hs)) (fun x hx => nomatch hx) (fun x hx => nomatch hx)
  refine ⟨{ name := p.name, shaders := c, states := d, next := k + p.shaders.length + p.states.length }, ?_, rfl, h1, h2, h3⟩
  rw [Pass.cloneInto]
  change (List.foldlM (cloneShader (some tech)) ({ name := p.name, next := k } : Pass) p.shaders).bind _ = _
  rw [e, Option.bind_some]
  exact e'

/-- C120. The code of each shader is the one it has when the sub ids within reach of the pass are distinct: cloned next to the original, the shaders use the same codes. -/
theorem clone_code (tech : Tech) (hd : (tech.all.map Code.sid).Nodup) (s : Shader) (hs : ∀ c, s.code = some c → c ∈ tech.all) : codeFor tech s = s.code := by
  rcases hc : s.code with _ | c
  · rw [codeFor, hc]; rfl
  · rw [codeFor, hc, Option.bind_some, findCode]
    rcases hf : tech.all.find? (fun d => decide (d.sid = c.sid)) with _ | d
    · have := List.find?_eq_none.1 hf c (hs c hc)
      simp at this
    · have hm := List.mem_of_find?_eq_some hf
      have he : d.sid = c.sid := by simpa using List.find?_some hf
      have hdc := List.inj_on_of_nodup_map hd hm (hs c hc) he
      subst hdc
      exact hf

/-- Two codes of a technique and one of its profile, with distinct sub ids. -/
def exTech : Tech := ⟨[⟨0, text "vs"⟩, ⟨1, text "fs"⟩], some [⟨2, text "lib"⟩]⟩

/-- The hypotheses of `clone_code` and `clone_pass_partial` are met. -/
example : (exTech.all.map Code.sid).Nodup ∧ codeFor exTech { id := 5, code := some ⟨2, text "lib"⟩ } = some ⟨2, text "lib"⟩ := by decide +kernel

/-- C120 fails for the clone of a pass when two codes have the same sub id, as have all that were not given one: the shader of the clone uses the first. -/
theorem clone_code_violated : ∃ (tech : Tech) (p q : Pass) (l : List RState), Reach p l ∧ (∀ s ∈ p.shaders, CanLook tech s) ∧ (∀ s ∈ p.shaders, ∀ c, s.code = some c → c ∈ tech.all) ∧
    p.cloneInto (some tech) { next := 2 } = some q ∧ p.shaders.map Shader.code = [some ⟨8, []⟩] ∧ q.shaders.map Shader.code = [some ⟨7, []⟩] := by
  refine ⟨⟨[⟨7, []⟩, ⟨8, []⟩], some []⟩, _, _, _, .step (o := .editShader 0 { id := 0, code := some ⟨8, []⟩ }) (.step (o := .addShader) .new trivial .addShader) trivial (.editShader 0 _), ?_, ?_, rfl, rfl, rfl⟩
  · intro s _ c _; exact Or.inl rfl
  · intro s hs c hc
    rw [show s = { id := 0, code := some ⟨8, []⟩ } from List.mem_singleton.1 hs] at hc
    rw [← Option.some.inj hc]
    decide

/-- C120 fails for the clone of a technique that is given no technique to clone into: it has no profile, and a shader with a code of the profile is then cloned by way of a null pointer. -/
theorem clone_no_profile_violated (p : Pass) (s : Shader) (c : Code) (r : List Shader) (tech : Tech) (q : Pass) (hp : p.shaders = s :: r) (hs : s.code = some c) (hc : findCode tech.codes c.sid = none) (hn : tech.profile = none) :
    p.cloneInto (some tech) q = none := by
  have : cloneShader (some tech) { q with name := p.name } s = none := by
    rw [cloneShader, Shader.cloneInto, hs, cloneCode, Option.bind_some, hc, hn]; rfl
  rw [Pass.cloneInto, hp, List.foldlM_cons, this]; rfl

/-- A pass with two shaders and states added out of order, one of them twice. -/
example : ∃ p l, Reach p l ∧ p.states.map RState.type = [1, 46, 46, 80] ∧ l.map RState.type = [80, 46, 1, 46] ∧ p.shaders.map Shader.isFragment = [false, true] ∧ (findRenderState p 46).map RState.id = some 3 := by
  refine ⟨_, _, .step (o := .addState 46) (.step (o := .addState 1) (.step (o := .addState 46) (.step (o := .addState 80) (.step (o := .addFragment) (.step (o := .addVertex) .new trivial (.addVertex 1 _ rfl)) trivial (.addFragment 2 _ rfl)) trivial (.addState 80 _ rfl)) trivial (.addState 46 _ rfl)) trivial (.addState 1 _ rfl)) trivial (.addState 46 _ rfl), ?_, ?_, ?_, ?_⟩
  all_goals decide +kernel

end Verif.FPass
