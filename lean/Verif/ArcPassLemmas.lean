import Verif.ArcPassSpec
import Verif.ArcStateProps
import Verif.ArcSidProps

/-! # Lemmas about the saving and loading of passes -/

namespace Verif.FArc

open Verif.FEff (Text text)
open Verif.FConv (Ov Formats)
open Verif.FPass (Shader Pass Tech RState Code findCode ins Sorted)

theorem mapM_some {α β : Type} (f : α → Option β) (g : α → β) (l : List α) (h : ∀ a ∈ l, f a = some (g a)) : l.mapM f = some (l.map g) := by
  induction l with
  | nil => rfl
  | cons a l ih => rw [List.mapM_cons, h a (by simp), ih fun b hb => h b (by simp [hb])]; rfl

theorem optContent_text {n t : Text} (h : Plain t) : optContent (some (textChild n t)) = some t := content_textChild h

theorem binds_back (l : List (Text × Text)) (h : ∀ b ∈ l, Plain b.1 ∧ Plain b.2 ∧ b.1 ≠ [] ∧ b.2 ≠ []) :
    (∀ k ∈ l.filterMap passBind, k.name = text "bind") ∧ (l.filterMap passBind).mapM loadPassBind = some l := by
  induction l with
  | nil => exact ⟨(fun _ h => nomatch h), rfl⟩
  | cons b l ih =>
    obtain ⟨h1, h2, h3, h4⟩ := h b (by simp)
    obtain ⟨i1, i2⟩ := ih fun c hc => h c (by simp [hc])
    have e : passBind b = some (.elem (text "bind") [(text "symbol", b.2)] [] [.elem (text "param") [(text "ref", b.1)] [] []]) := by unfold passBind; rw [if_pos ⟨h3, h4⟩]
    rw [List.filterMap_cons, e]
    refine ⟨fun k hk => ?_, ?_⟩
    · rcases List.mem_cons.1 hk with rfl | hk
      · rfl
      · exact i1 k hk
    · rw [List.mapM_cons, i2, show loadPassBind (.elem (text "bind") [(text "symbol", b.2)] [] [.elem (text "param") [(text "ref", b.1)] [] []]) = some b by
        unfold loadPassBind
        rw [prop_raw (t := b.2) (by rw [raw_cons, if_pos rfl]) h2, Option.bind_some, show (Node.elem (text "bind") [(text "symbol", b.2)] [] [.elem (text "param") [(text "ref", b.1)] [] []]).child (text "param") = some (.elem (text "param") [(text "ref", b.1)] [] []) by
          rw [child_cons]; exact if_pos rfl, prop_raw (t := b.1) (by rw [raw_cons, if_pos rfl]) h1]
        rfl]
      rfl

theorem shaderCode_all (tech : Tech) (hp : tech.profile.isSome) (sid : Text) : shaderCode tech sid = some (findCode tech.all sid) := by
  obtain ⟨l, hl⟩ := Option.isSome_iff_exists.1 hp
  unfold shaderCode
  rw [FPass.Tech.all, FPass.findCode_append, hl]
  cases findCode tech.codes sid <;> rfl

theorem findCode_nil (l : List Code) (h : ∀ c ∈ l, c.sid ≠ []) : findCode l [] = none := by
  unfold findCode
  rw [List.find?_eq_none]
  intro c hc
  simpa using h c hc

/-- The children of a shader before the bindings. -/
def shaderHead (s : Shader) : List Node := textUnlessEmpty "compiler_target" s.target ++ textUnlessEmpty "compiler_options" s.options ++ shaderName s

theorem text_ne {a b : String} (h : a ≠ b) : text a ≠ text b := fun e => h (text_inj.1 e)

theorem shader_parts (s : Shader) (h : GoodShader s) :
    optContent ((writeShader s).child (text "name")) = some s.name ∧ prop ((writeShader s).child (text "name")) (text "source") = some ((s.code.map Code.sid).getD []) ∧
    optContent ((writeShader s).child (text "compiler_target")) = some s.target ∧ optContent ((writeShader s).child (text "compiler_options")) = some s.options ∧
    (writeShader s).children (text "bind") = s.bindings.filterMap passBind := by
  have hb := (binds_back s.bindings h.binds).1
  have hn : ∃ k, shaderName s = [k] ∧ k.name = text "name" ∧ optContent (some k) = some s.name ∧ prop (some k) (text "source") = some ((s.code.map Code.sid).getD []) := by
    unfold shaderName
    rw [if_neg h.named]
    refine ⟨_, rfl, ?_⟩
    cases hc : s.code with
    | none => exact ⟨rfl, optContent_text h.name, prop_absent rfl⟩
    | some c =>
      refine ⟨rfl, ?_, prop_raw (by simp only [textChild, Node.put, List.nil_append, raw_cons, if_true]; rfl) (h.code c hc).1⟩
      show content _ = _
      unfold content textChild Node.put
      rw [fullText]
      simp only [fullTexts, List.append_nil]
      exact decode_encode h.name
  obtain ⟨k, hk, k1, k2, k3⟩ := hn
  have ho : ∀ a, a ≠ text "bind" → (Node.elem (text "shader") [(text "stage", stageText s.isFragment)] [] (s.bindings.filterMap passBind)).child a = none := fun a ha => child_other fun x hx e => ha (by rw [← e, hb x hx])
  have hu : ∀ (nm : String) (t : Text) (a : Text) as, (Node.elem (text "shader") as [] (textUnlessEmpty nm t)).child a = if t = [] then none else if text nm = a then some (textChild (text nm) t) else none := by
    intro nm t a as
    unfold textUnlessEmpty
    split
    · rfl
    · rw [child_cons, name_textChild, child_nil]
  have hu2 : ∀ (nm : String) (t : Text) (a : Text) as, text nm ≠ a → (Node.elem (text "shader") as [] (textUnlessEmpty nm t)).children a = [] := by
    intro nm t a as hne
    unfold textUnlessEmpty
    split
    · rfl
    · rw [children_cons, name_textChild, if_neg hne, children_nil]
  unfold writeShader
  simp only [child_append, children_append, hu, hk, child_cons, children_cons, k1, child_nil, children_nil]
  refine ⟨?_, ?_, ?_, ?_, ?_⟩
  · simp only [text_inj, String.reduceEq, if_false, if_true, ite_self, Option.none_or, Option.some_or]
    exact k2
  · simp only [text_inj, String.reduceEq, if_false, if_true, ite_self, Option.none_or, Option.some_or]
    exact k3
  · simp only [text_inj, String.reduceEq, if_false, if_true, ite_self, Option.or_none, ho _ (text_ne (show "compiler_target" ≠ "bind" by decide))]
    by_cases e : s.target = []
    · rw [e]; rfl
    · rw [if_neg e]; exact optContent_text h.target
  · simp only [text_inj, String.reduceEq, if_false, if_true, ite_self, Option.or_none, Option.none_or, ho _ (text_ne (show "compiler_options" ≠ "bind" by decide))]
    by_cases e : s.options = []
    · rw [e]; rfl
    · rw [if_neg e]; exact optContent_text h.options
  · rw [hu2 _ _ _ _ (text_ne (by decide)), hu2 _ _ _ _ (text_ne (by decide)), if_neg (text_ne (by decide)), children_all hb]
    rfl

theorem shader_back (tech : Tech) (hp : tech.profile.isSome) (hs : ∀ c ∈ tech.all, c.sid ≠ []) (s : Shader) (h : GoodShader s) (i : Nat) :
    loadShader tech (writeShader s) { id := i } = some { s with id := i, code := s.code.bind fun c => findCode tech.all c.sid } := by
  obtain ⟨h1, h2, h3, h4, h5⟩ := shader_parts s h
  have hst : prop (some (writeShader s)) (text "stage") = some (stageText s.isFragment) :=
    prop_raw (by unfold writeShader; rw [raw_cons, if_pos rfl]) (by cases s.isFragment <;> exact hplain _ (by decide +kernel))
  have hsf : stageOf (stageText s.isFragment) = some s.isFragment := by cases s.isFragment <;> decide +kernel
  unfold loadShader
  rw [if_neg (by show ¬ text "shader" ≠ text "shader"; simp), h1, Option.bind_some, h2, Option.bind_some, if_neg h.named, hst, Option.bind_some, hsf]
  simp only
  unfold loadShaderRest
  rw [shaderCode_all tech hp, Option.bind_some, h3, Option.bind_some, h4, Option.bind_some, h5, (binds_back s.bindings h.binds).2, Option.map_some]
  simp only [List.nil_append]
  congr 2
  cases hc : s.code with
  | none => simpa using findCode_nil _ hs
  | some c => rfl

/-! ## Sub-ids -/

theorem raw_add (c n : Node) (a : Text) : (Node.add c n).raw a = n.raw a := by cases n; rfl

theorem hasSid_add (s : Text) (c n : Node) : HasSid s (Node.add c n) ↔ HasSid s n ∨ HasSid s c := by
  cases n with
  | elem a b t ks =>
    rw [Node.add, hasSid_iff, hasSid_iff]
    constructor
    · rintro (h | ⟨k, hk, h⟩)
      · exact Or.inl (Or.inl h)
      · rcases List.mem_append.1 hk with hk | hk
        · exact Or.inl (Or.inr ⟨k, hk, h⟩)
        · rw [List.mem_singleton.1 hk] at h; exact Or.inr h
    · rintro ((h | ⟨k, hk, h⟩) | h)
      · exact Or.inl h
      · exact Or.inr ⟨k, by simp [hk], h⟩
      · exact Or.inr ⟨c, by simp, h⟩

theorem enclose_plain (n : Node) (around : List Node) (hn : PlainSids n) (hp : ∀ a ∈ around, PlainSids a) : ∀ x ∈ enclose n around, PlainSids x := by
  induction around generalizing n with
  | nil => intro x hx; rw [List.mem_singleton.1 hx]; exact hn
  | cons a as ih =>
    intro x hx
    rcases List.mem_cons.1 hx with rfl | hx
    · exact hn
    · exact ih (Node.add n a) (fun s hs => ((hasSid_add s n a).1 hs).elim (hp a (by simp) s) (hn s)) (fun b hb => hp b (by simp [hb])) x hx

theorem enclose_cons (n : Node) (around : List Node) : ∃ r, enclose n around = n :: r := by cases around <;> exact ⟨_, rfl⟩

theorem scope_mem (n : Node) (r : List Node) : ∃ s ∈ n :: r, scopeOf (n :: r) = some s := by
  unfold scopeOf
  cases h : (n :: r).find? isScope with
  | some s => exact ⟨s, List.mem_of_find?_eq_some h, rfl⟩
  | none => exact ⟨_, List.getLast_mem (List.cons_ne_nil n r), by rw [Option.none_or, List.getLast?_eq_some_getLast (List.cons_ne_nil n r)]⟩

/-- `AddNodeSid` on a new element always comes to an end; the element has the sub-id that is returned, and none when the empty text is. -/
theorem putSid_spec (around : List Node) (n : Node) (h1 : n.raw (text "id") = none) (h2 : n.raw (text "sid") = none) (hn : PlainSids n) (hp : ∀ a ∈ around, PlainSids a) (wanted : Text) (hw : wanted ≠ []) :
    ∃ k t, putSid around n wanted = some (k, t) ∧ ((k = n.put (text "sid") t ∧ (t = wanted ∨ ∃ c, 2 ≤ c ∧ c ≤ 99 ∧ t = wanted ++ natText c)) ∨ (k = n ∧ t = [])) ∧
      ∃ scope, scopeOf (enclose n around) = some scope ∧ (t ≠ [] → ¬ HasSid t scope) ∧ (¬ HasSid wanted scope → t = wanted) := by
  obtain ⟨r, hr⟩ := enclose_cons n around
  obtain ⟨s, hs, he⟩ := scope_mem n r
  rw [← hr] at hs he
  have hsp : PlainSids s := enclose_plain n around hn hp s hs
  have hns : isScope n = false := by unfold isScope Node.has; rw [h1, h2]; rfl
  obtain ⟨b, f1, f2⟩ := findSid_iff wanted hw s hsp
  have hadd : addNodeSid (enclose n around) wanted = if b then trySids s wanted (List.range' 2 98) else some (some wanted, wanted) := by
    have : addNodeSid (n :: r) wanted = if b then trySids s wanted (List.range' 2 98) else some (some wanted, wanted) := by
      unfold addNodeSid
      simp only [hns, Bool.false_eq_true, if_false]
      rw [← hr, he, Option.bind_some, f1, Option.bind_some]
    rw [hr]; exact this
  unfold putSid
  rw [hadd]
  cases b with
  | false =>
    refine ⟨_, _, rfl, Or.inl ⟨rfl, Or.inl rfl⟩, s, he, fun _ hh => ?_, fun _ => rfl⟩
    exact absurd (f2.2 hh) (by simp)
  | true =>
    rw [if_pos rfl]
    rcases trySids_spec s hsp wanted hw (List.range' 2 98) with ⟨pre, c, post, e, -, g4, g5⟩ | ⟨-, g4⟩
    · rw [g5]
      have hc : c ∈ List.range' 2 98 := by rw [e]; simp
      rw [List.mem_range'_1] at hc
      exact ⟨_, _, rfl, Or.inl ⟨rfl, Or.inr ⟨c, by omega, by omega, rfl⟩⟩, s, he, fun _ => g4, fun hh => absurd (f2.1 rfl) hh⟩
    · rw [g4]
      exact ⟨_, _, rfl, Or.inr ⟨rfl, rfl⟩, s, he, fun hh => absurd rfl hh, fun hh => absurd (f2.1 rfl) hh⟩

theorem put_elem (n : Node) (a v : Text) : n.put a v = .elem n.name (n.attrs ++ [(a, v)]) n.direct n.kids := by cases n; rfl

theorem raw_put (n : Node) (a v b : Text) : (n.put a v).raw b = (n.raw b).or (if a = b then some v else none) := by
  cases n with
  | elem x as t ks => rw [Node.put, raw_append, raw_cons, raw_nil]

/-- What is read back as the sub-id, and what else the element has. -/
theorem putSid_read (around : List Node) (n : Node) (h1 : n.raw (text "id") = none) (h2 : n.raw (text "sid") = none) (hn : PlainSids n) (hp : ∀ a ∈ around, PlainSids a) (wanted : Text) (hw : wanted ≠ [])
    (hpl : Plain wanted) :
    ∃ k t, putSid around n wanted = some (k, t) ∧ k.name = n.name ∧ k.kids = n.kids ∧ k.direct = n.direct ∧ Plain t ∧ k.raw (text "sid") = (if t = [] then none else some t) ∧
      (∀ a, a ≠ text "sid" → k.raw a = n.raw a) ∧ ∃ scope, scopeOf (enclose n around) = some scope ∧ (t ≠ [] → ¬ HasSid t scope) ∧ (¬ HasSid wanted scope → t = wanted) := by
  obtain ⟨k, t, e1, e2, e3⟩ := putSid_spec around n h1 h2 hn hp wanted hw
  refine ⟨k, t, e1, ?_⟩
  rcases e2 with ⟨rfl, ht⟩ | ⟨rfl, rfl⟩
  · have htn : t ≠ [] := by
      rcases ht with rfl | ⟨c, -, -, rfl⟩
      · exact hw
      · intro e; exact hw (List.append_eq_nil_iff.1 e).1
    have htp : Plain t := by
      rcases ht with rfl | ⟨c, -, -, rfl⟩
      · exact hpl
      · exact plain_append hpl (natText_plain c)
    refine ⟨by rw [put_elem]; rfl, by rw [put_elem]; rfl, by rw [put_elem]; rfl, htp, by rw [raw_put, h2, if_pos rfl, if_neg htn]; rfl, fun a ha => ?_, e3⟩
    rw [raw_put, if_neg (Ne.symm ha), Option.or_none]
  · exact ⟨rfl, rfl, rfl, (fun _ h => nomatch h), by rw [h2, if_pos rfl], fun _ _ => rfl, e3⟩

/-! ## Passes -/

theorem ins_last (s : RState) (l : List RState) (h : ∀ a ∈ l, a.type ≤ s.type) : ins s l = l ++ [s] := by
  induction l with
  | nil => rfl
  | cons a r ih =>
    rw [ins, if_neg (by have := h a (by simp); omega), ih fun b hb => h b (by simp [hb])]
    rfl

theorem state_kid (ov : Ov) {fmt rnd} (hf : Formats fmt rnd) (tech : Tech) (s : RState) (h : GoodRState s) (p : Pass) (hl : ∀ a ∈ p.states, a.id < p.next) (ho : ∀ a ∈ p.states, a.type ≤ s.type) :
    ∃ k t, saveState fmt s.type s.data = some k ∧ loadPassKid ov tech p k = some { p with states := p.states ++ [t], next := p.next + 1 } ∧ t.id = p.next ∧ StateBack rnd s t := by
  obtain ⟨h1, h2, vs, h3, h4⟩ := h
  obtain ⟨n, d, e1, e2, e3, e4⟩ := render_state_roundtrip_partial ov hf s.type h1 h2 vs h3
  refine ⟨n, ⟨p.next, s.type, dataOf (docScal s.type) (vs.map (roundSV rnd))⟩, by rw [h4]; exact e1, ?_, rfl, rfl, vs, h3, h4, rfl⟩
  unfold loadPassKid
  rw [e2]
  simp only
  rw [e3, Option.bind_some, e4, Option.bind_some, FPass.addRenderState_eq p s.type d e3, Option.map_some, ins_last ⟨p.next, s.type, d⟩ p.states ho]
  unfold FPass.setData
  simp only [List.map_append, List.map_cons, List.map_nil, if_true]
  congr 3
  nth_rw 2 [← List.map_id p.states]
  refine List.map_congr_left fun a ha => ?_
  rw [if_neg (by have := hl a ha; omega)]
  rfl

theorem states_back (ov : Ov) {fmt rnd} (hf : Formats fmt rnd) (tech : Tech) (l : List RState) (h : ∀ s ∈ l, GoodRState s) (hs : Sorted l) :
    ∃ ks, (l.mapM fun s => saveState fmt s.type s.data) = some ks ∧ ∀ p : Pass, (∀ a ∈ p.states, a.id < p.next) → (∀ a ∈ p.states, ∀ s ∈ l, a.type ≤ s.type) →
      ∃ q, ks.foldlM (loadPassKid ov tech) p = some q ∧ q.name = p.name ∧ q.shaders = p.shaders ∧ ∃ ts, q.states = p.states ++ ts ∧ List.Forall₂ (StateBack rnd) l ts ∧ p.next ≤ q.next ∧ (∀ a ∈ q.states, a.id < q.next) := by
  induction l with
  | nil => exact ⟨[], rfl, fun p hp _ => ⟨p, rfl, rfl, rfl, [], by simp, .nil, Nat.le_refl _, hp⟩⟩
  | cons s l ih =>
    have hs' := List.pairwise_cons.1 hs
    obtain ⟨ks, e1, e2⟩ := ih (fun x hx => h x (by simp [hx])) hs'.2
    obtain ⟨k0, -, hk0, -⟩ := state_kid ov hf tech s (h s (by simp)) {} (fun _ h => nomatch h) (fun _ h => nomatch h)
    refine ⟨k0 :: ks, by rw [List.mapM_cons, hk0, e1]; rfl, fun p hp ho => ?_⟩
    obtain ⟨k, t, f1, f2, f3, f4⟩ := state_kid ov hf tech s (h s (by simp)) p hp fun a ha => ho a ha s (by simp)
    obtain rfl : k0 = k := Option.some.inj (hk0.symm.trans f1)
    obtain ⟨q, g1, g2, g3, ts, g4, g5, g6, g7⟩ := e2 { p with states := p.states ++ [t], next := p.next + 1 } (by
      intro a ha
      rcases List.mem_append.1 ha with ha | ha
      · exact Nat.lt_succ_of_lt (hp a ha)
      · rw [List.mem_singleton.1 ha, f3]; exact Nat.lt_succ_self _) (by
      intro a ha x hx
      rcases List.mem_append.1 ha with ha | ha
      · exact ho a ha x (by simp [hx])
      · rw [List.mem_singleton.1 ha, f4.1]; exact hs'.1 x hx)
    refine ⟨q, by rw [List.foldlM_cons, f2, Option.bind_eq_bind, Option.bind_some, g1], g2, g3, t :: ts, by rw [g4]; simp, .cons f4 g5, by have : p.next + 1 ≤ q.next := g6; omega, g7⟩

theorem shaders_back (ov : Ov) (tech : Tech) (hp : tech.profile.isSome) (hs : ∀ c ∈ tech.all, c.sid ≠ []) (l : List Shader) (h : ∀ s ∈ l, GoodShader s) : ∀ p : Pass,
    ∃ q, (l.map writeShader).foldlM (loadPassKid ov tech) p = some q ∧ q.name = p.name ∧ q.states = p.states ∧ ∃ ts, q.shaders = p.shaders ++ ts ∧ List.Forall₂ (ShaderBack tech) l ts := by
  induction l with
  | nil => exact fun p => ⟨p, rfl, rfl, rfl, [], by simp, .nil⟩
  | cons s l ih =>
    intro p
    obtain ⟨q, e1, e2, e3, ts, e4, e5⟩ := ih (fun x hx => h x (by simp [hx])) { p with shaders := p.shaders ++ [{ s with id := p.next, code := s.code.bind fun c => findCode tech.all c.sid }], next := p.next + 1 }
    refine ⟨q, ?_, e2, e3, _ :: ts, by rw [e4, List.append_assoc]; rfl, .cons ?_ e5⟩
    · rw [List.map_cons, List.foldlM_cons, show loadPassKid ov tech p (writeShader s) = some { p with shaders := p.shaders ++ [{ s with id := p.next, code := s.code.bind fun c => findCode tech.all c.sid }], next := p.next + 1 } by
        unfold loadPassKid
        rw [show stateOf (writeShader s).name = none from (by decide +kernel : stateOf (text "shader") = none)]
        simp only
        rw [if_pos (show (writeShader s).name = text "shader" from rfl), shader_back tech hp hs s (h s (by simp)), Option.map_some], Option.bind_eq_bind, Option.bind_some, e1]
    · rfl

end Verif.FArc
