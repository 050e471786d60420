import Verif.ArcParamLemmas

/-!
# C163: effect parameters are saved and loaded
-/

namespace Verif.FArc

open Verif.FEff (Text text Role)
open Verif.FConv (Ov Formats shown)
open Verif.FFx (Note Ty)
open Verif.Enum (TextureWrapMode TextureFilterFunction)

/-- **C163, partial.** A parameter that declares or changes a value is written, and what is written is loaded, below every element, as a parameter of the same class, with its usage, reference, semantic, annotations
and value. Missing: parameters of other usages (`animator_partial`, `parameter_violated`) and what `sampAfter` and `surfAfter` leave out. -/
theorem parameter_roundtrip_partial (ov : Ov) {fmt rnd} (hf : Formats fmt rnd) (p : Parm) (h : GoodParm p) : ∃ n, writeParm fmt p = some n ∧ ∀ parent, loadParm ov parent n = some (parmAfter rnd p) := by
  have key : ∀ (v : Node) (ty : Ty), typeNamed v.name = some ty → v.name ≠ text "annotate" ∧ v.name ≠ text "semantic" → loadParmBody ov p.role ty (parmNode p [] [v]) = some (bodyAfter rnd p.body) →
      ∀ parent, loadParm ov parent (parmNode p [] [v]) = some (parmAfter rnd p) := by
    intro v ty h1 h2 h3 parent
    unfold loadParm
    rw [type_back p v ty h1 parent, Option.bind_some, head_back p h _ v h2, Option.bind_some, h3, Option.map_some]
    rfl
  have hna : p.role ≠ .animator := by rcases h.role with e | e <;> rw [e] <;> decide
  have hb := h.body
  have dv : ∀ a t, (valueChild a t).direct = t := fun _ _ => rfl
  have dt : ∀ a t, (textChild a t).direct = encode t := fun _ _ => rfl
  have nv : ∀ a t, (valueChild a t).name = a := fun _ _ => rfl
  unfold writeParm
  cases hbody : p.body with
  | bool b =>
    refine ⟨_, rfl, key _ .boolean (by rw [nv]; decide +kernel) (by rw [nv]; decide +kernel) ?_⟩
    unfold loadParmBody
    simp only
    rw [child_back _ _ _ (by decide +kernel), nv, if_pos rfl, hbody]
    exact congrArg (Option.map PBody.bool) (show readBool (direct (some (valueChild (text "bool") (intText (if b then 1 else 0))))) = some b by cases b <;> decide +kernel)
  | int i =>
    rw [hbody] at hb
    refine ⟨_, rfl, key _ .integer (by rw [nv]; decide +kernel) (by rw [nv]; decide +kernel) ?_⟩
    unfold loadParmBody
    simp only
    rw [child_back _ _ _ (by decide +kernel), nv, if_pos rfl, hbody, show direct (some (valueChild (text "int") (intText i))) = intText i from rfl, readInt_intText ov i hb]
    rfl
  | string t =>
    rw [hbody] at hb
    refine ⟨_, rfl, key _ .string (by rw [name_textChild]; decide +kernel) (by rw [name_textChild]; decide +kernel) ?_⟩
    unfold loadParmBody
    simp only
    rw [child_back _ _ _ (by decide +kernel), name_textChild, if_pos rfl, hbody]
    simp only
    rw [content_textChild hb]
    rfl
  | float half q =>
    refine ⟨parmNode p [] [valueChild (floatName half "") (numText fmt q)], by rcases h.role with e | e <;> rw [e], key _ .float (by rw [nv]; exact (floatName_type half).1) (by rw [nv]; exact floatName_ne half _ (by simp)) ?_⟩
    unfold loadParmBody
    simp only
    rw [if_neg hna, floatChild_back p _ half "" (by simp) (nv _ _), dv]
    simp only
    rw [readNum_numText ov hf, hbody]
    rfl
  | float2 half a b =>
    refine ⟨_, rfl, key _ .float2 (by rw [name_textChild]; exact (floatName_type half).2.1) (by rw [name_textChild]; exact floatName_ne half _ (by simp)) ?_⟩
    unfold loadParmBody
    simp only
    rw [floatChild_back p _ half "2" (by simp) (name_textChild _ _), dt, encode_nums hf]
    simp only
    obtain ⟨t, h1, -, h3⟩ := FConv.vector_roundtrip ov hf [a, b] (by simp)
    unfold numsText
    rw [h1, Option.getD_some, show (2 : Nat) = [a, b].length from rfl, (h3 []).1 (by simp), hbody]
    rfl
  | float3 half v =>
    refine ⟨_, rfl, key _ .float3 (by rw [name_textChild]; exact (floatName_type half).2.2.1) (by rw [name_textChild]; exact floatName_ne half _ (by simp)) ?_⟩
    unfold loadParmBody
    simp only
    rw [if_neg hna, floatChild_back p _ half "3" (by simp) (name_textChild _ _), dt, show vecText fmt v = numsText fmt [v.1, v.2.1, v.2.2] from rfl, encode_nums hf]
    simp only
    rw [show numsText fmt [v.1, v.2.1, v.2.2] = vecText fmt v from rfl, readV3_vecText ov hf, hbody]
    rfl
  | vector half a b c d =>
    refine ⟨parmNode p [] [textChild (floatName half "4") (numsText fmt [a, b, c, d])], by rcases h.role with e | e <;> rw [e],
      key _ .vector (by rw [name_textChild]; exact (floatName_type half).2.2.2.1) (by rw [name_textChild]; exact floatName_ne half _ (by simp)) ?_⟩
    unfold loadParmBody
    simp only
    rw [if_neg hna, floatChild_back p _ half "4" (by simp) (name_textChild _ _), dt, encode_nums hf]
    simp only
    rw [show (4 : Nat) = [a, b, c, d].length from rfl, readFloats_numsText ov hf [a, b, c, d] (by simp), hbody]
    rfl
  | matrix half m =>
    refine ⟨_, rfl, key _ .matrix (by rw [name_textChild]; exact (floatName_type half).2.2.2.2) (by rw [name_textChild]; exact floatName_ne half _ (by simp)) ?_⟩
    unfold loadParmBody
    simp only
    rw [floatChild_back p _ half "4x4" (by simp) (name_textChild _ _), dt, encode_nums hf]
    simp only
    obtain ⟨t, h1, -, h3⟩ := FConv.matrix_roundtrip ov hf m identity
    unfold numsText
    rw [h1, Option.getD_some, h3 [], hbody]
    rfl
  | sampler s =>
    rw [hbody] at hb
    refine ⟨_, rfl, key _ .sampler (by show typeNamed s.kind.name = _; exact sampName_type s.kind) (by show s.kind.name ≠ _ ∧ s.kind.name ≠ _; exact sampName_ne s.kind) ?_⟩
    unfold loadParmBody
    simp only
    have hk : ∀ l : List Node, (∀ k ∈ l, k.name = text "annotate" ∨ k.name = text "semantic") → (l ++ [sampNode s]).findSome? (fun k => (skindOf k.name).map fun s => (s, k)) = some (s.kind, sampNode s) := by
      intro l hl
      induction l with
      | nil => rw [List.nil_append, List.findSome?_cons, show (sampNode s).name = s.kind.name from rfl, skind_back]; rfl
      | cons a l ih =>
        rw [List.cons_append, List.findSome?_cons, show skindOf a.name = none by
          rcases hl a (by simp) with e | e <;> rw [e] <;> decide +kernel]
        exact ih fun k hk => hl k (by simp [hk])
    unfold loadSamp
    rw [parm_elem, kids_elem, hk _ (head_named p)]
    simp only
    rw [samp_back s hb, hbody]
    rfl
  | surface s =>
    rw [hbody] at hb
    obtain ⟨n, e1, e2⟩ := surface_roundtrip_partial ov hf s hb
    have hn : n.name = text "surface" := by
      unfold surfNode at e1
      obtain ⟨ns, -, e⟩ := Option.bind_eq_some_iff.1 e1
      obtain ⟨v, -, e⟩ := Option.map_eq_some_iff.1 e
      rw [← e]; rfl
    refine ⟨parmNode p [] [n], by simp only; rw [e1, Option.map_some], key _ .surface (by rw [hn]; decide +kernel) (by rw [hn]; decide +kernel) ?_⟩
    unfold loadParmBody
    simp only
    rw [child_back _ _ _ (by decide +kernel), if_pos hn]
    simp only
    rw [e2, hbody]
    rfl

/-- A parameter with all parts. -/
def sampleParm : Parm :=
  ⟨.generator, text "shine", text "SPECULAR", [⟨text "UI", 8, text "slider & more"⟩, ⟨text "max", 3, text "1.5"⟩, ⟨text "on", 2, text "true"⟩],
    .sampler { kind := .three, surface := text "tex-surface", wrapP := .mirror, minF := .nearest }⟩

example : GoodParm sampleParm where
  role := Or.inl rfl
  ref := ⟨by decide +kernel, by decide +kernel, by decide +kernel⟩
  named := by decide
  sem := hplain _ (by decide)
  noSem := by decide
  notes := by
    intro a ha
    rcases List.mem_cons.1 ha with rfl | ha
    · exact ⟨hplain _ (by decide), Or.inl ⟨rfl, hplain _ (by decide)⟩⟩
    rcases List.mem_cons.1 ha with rfl | ha
    · exact ⟨hplain _ (by decide), Or.inr ⟨by decide, by unfold Unescaped FXml.IsChar; decide +kernel⟩⟩
    rw [List.mem_singleton.1 ha]
    exact ⟨hplain _ (by decide), Or.inr ⟨by decide, by unfold Unescaped FXml.IsChar; decide +kernel⟩⟩
  body := by show FXml.ValidId false (text "tex-surface"); exact ⟨by decide +kernel, by decide +kernel, by decide +kernel⟩

example : (writeParm fmt02 sampleParm).bind (loadParm .wrap (text "profile_COMMON")) = some sampleParm := by decide +kernel

/-- **C163, partial.** A float parameter that binds an animation comes back with its usage, reference, semantic and annotations. Missing: its value, and the other classes; see `parameter_violated`. -/
theorem animator_partial (ov : Ov) (fmt : ℚ → Text) (p : Parm) (half : Bool) (q : ℚ) (hb : p.body = .float half q) (hr : p.role = .animator) (h1 : FXml.ValidId false p.ref) (h2 : Plain p.sem) (h3 : ∀ a ∈ p.notes, GoodNote a) :
    ∃ n, writeParm fmt p = some n ∧ ∀ parent, loadParm ov parent n = some { p with body := .float false 0 } := by
  have hw : writeParm fmt p = some (parmNode p [(text "semantic", p.sem), (text "type", text "float")] []) := by
    unfold writeParm
    rw [hb]
    simp only
    rw [hr]
  refine ⟨_, hw, fun parent => ?_⟩
  have he : parmNode p [(text "semantic", p.sem), (text "type", text "float")] [] =
      .elem (text "param") ((if p.ref = [] then [] else [(text "sid", p.ref)]) ++ [(text "semantic", p.sem), (text "type", text "float")]) [] (p.notes.map noteNode) := by
    unfold parmNode headOf
    rw [hr]
    simp
  have hall : ∀ k ∈ p.notes.map noteNode, k.name = text "annotate" := fun k hk => by obtain ⟨a, _, rfl⟩ := List.mem_map.1 hk; rfl
  have hraw : ∀ a t ks, (Node.elem (text "param") (if p.ref = [] then [] else [(text "sid", p.ref)]) t ks).raw a = if p.ref = [] then none else if text "sid" = a then some p.ref else none := by
    intro a t ks
    split
    · rfl
    · rw [raw_cons, raw_nil]
  have hty : parmType parent (parmNode p [(text "semantic", p.sem), (text "type", text "float")] []) = some .float := by
    unfold parmType
    split
    · split
      · rw [he, prop_raw (t := text "float") (by
          rw [raw_append, hraw]
          simp only [raw_cons, text_inj, String.reduceEq, if_false, if_true]
          split <;> rfl) (hplain _ (by decide))]
        decide +kernel
      · rfl
    · rw [he, kids_elem]
      have : ∀ l : List Node, (∀ k ∈ l, k.name = text "annotate") → l.findSome? (fun k => typeNamed k.name) = none := by
        intro l hl
        rw [List.findSome?_eq_none_iff]
        intro k hk
        rw [hl k hk]; decide +kernel
      rw [this _ hall]
      rfl
  have hsid : prop (some (parmNode p [(text "semantic", p.sem), (text "type", text "float")] [])) (text "sid") = some p.ref := by
    rw [he]
    by_cases h0 : p.ref = []
    · rw [prop_absent (by
        rw [raw_append, hraw, if_pos h0]
        simp only [raw_cons, raw_nil, text_inj, String.reduceEq, if_false]; rfl), h0]
    · exact prop_raw (by rw [raw_append, hraw, if_neg h0, if_pos rfl]; rfl) (valid_plain h1)
  have hsem : prop (some (parmNode p [(text "semantic", p.sem), (text "type", text "float")] [])) (text "semantic") = some p.sem := by
    rw [he]
    refine prop_raw ?_ h2
    rw [raw_append, hraw]
    simp only [raw_cons, text_inj, String.reduceEq, if_false, if_true]
    split <;> rfl
  unfold loadParm
  rw [hty, Option.bind_some]
  unfold loadParmHead
  rw [show (parmNode p [(text "semantic", p.sem), (text "type", text "float")] []).children (text "annotate") = p.notes.map noteNode by rw [he]; exact children_all hall, notes_back _ h3, Option.bind_some,
    show loadRole .generator (parmNode p [(text "semantic", p.sem), (text "type", text "float")] []).name = .animator by rw [he]; exact (show loadRole .generator (text "param") = .animator by decide +kernel)]
  simp only
  rw [hsid, Option.bind_some, clean_good h1, Option.bind_some, hsem, Option.map_some, Option.bind_some]
  unfold loadParmBody
  simp only [if_true, Option.map_some, newBody]
  rw [← hr]

example : (writeParm fmt02 ⟨.animator, text "glow", text "GLOW", [], .float true 3⟩).bind (loadParm .wrap (text "bind_material")) = some ⟨.animator, text "glow", text "GLOW", [], .float false 0⟩ := by decide +kernel

/-- **C163.** A loaded sampler finds its surface: the first parameter with the reference that it was saved with, when that is a surface. -/
theorem sampler_linked (pre suf : List Parm) (p : Parm) (s : Samp) (t : Surf) (hp : p.body = .surface t) (hs : s.surface = p.ref) (hn : ∀ x ∈ pre, x.ref ≠ p.ref) : linkSamp (pre ++ p :: suf) (sampAfter s) = some p := by
  unfold linkSamp
  have : (sampAfter s).surface = p.ref := hs
  rw [this, List.find?_append, List.find?_eq_none.2 fun x hx => by simpa using hn x hx, Option.none_or, List.find?_cons_of_pos (by simp), Option.bind_some, hp]

example : linkSamp [sampleParm, ⟨.generator, text "tex-surface", [], [], .surface sampleSurf⟩] { surface := text "tex-surface" } = some ⟨.generator, text "tex-surface", [], [], .surface sampleSurf⟩ := by decide +kernel

/-- **C163, violated.** A parameter that refers to another one is loaded as one that binds an animation, without its reference. A constant loses its value. A vector that binds an animation loses its semantic, and
is loaded as a float outside of materials. A change loses its semantic. Annotations of vectors lose type and value, those of booleans are not decoded. The linear filter and the second wrap mode of a one-dimensional
sampler are lost. A declaration without reference loses its semantic. -/
theorem parameter_violated :
    (writeParm fmt02 ⟨.referencer, text "a", [], [], .float false 3⟩).bind (loadParm .wrap (text "x")) = some ⟨.animator, [], [], [], .float false 0⟩ ∧
    (writeParm fmt02 ⟨.constant, text "a", [], [], .float true 3⟩).bind (loadParm .wrap (text "x")) = some ⟨.animator, text "a", [], [], .float false 0⟩ ∧
    (writeParm fmt02 ⟨.animator, text "a", text "S", [], .vector false 1 2 3 4⟩).bind (loadParm .wrap (text "bind_material")) = some ⟨.animator, text "a", [], [], .vector false 0 0 0 0⟩ ∧
    (writeParm fmt02 ⟨.animator, text "a", text "S", [], .vector false 1 2 3 4⟩).bind (loadParm .wrap (text "x")) = some ⟨.animator, text "a", [], [], .float false 0⟩ ∧
    (writeParm fmt02 ⟨.modifier, text "a", text "S", [], .bool true⟩).bind (loadParm .wrap (text "x")) = some ⟨.modifier, text "a", [], [], .bool true⟩ ∧
    (writeParm fmt02 ⟨.generator, text "a", [], [⟨text "n", 6, text "1 2 3 4"⟩, ⟨text "m", 2, text "a<b"⟩], .bool true⟩).bind (loadParm .wrap (text "x")) =
      some ⟨.generator, text "a", [], [⟨text "n", 8, []⟩, ⟨text "m", 2, text "a%3Cb"⟩], .bool true⟩ ∧
    (writeParm fmt02 ⟨.generator, text "a", [], [], .sampler { kind := .one, wrapT := .clamp, minF := .linear }⟩).bind (loadParm .wrap (text "x")) = some ⟨.generator, text "a", [], [], .sampler { kind := .one, minF := .unknown }⟩ ∧
    (writeParm fmt02 ⟨.generator, [], text "S", [], .bool true⟩).bind (loadParm .wrap (text "x")) = some ⟨.generator, [], [], [], .bool true⟩ := by
  refine ⟨?_, ?_, ?_, ?_, ?_, ?_, ?_, ?_⟩ <;> decide +kernel

end Verif.FArc
