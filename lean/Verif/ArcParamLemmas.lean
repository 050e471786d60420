import Verif.ArcParamSpec
import Verif.ArcSurfProps

/-!
# Lemmas about the saving and loading of effect parameters
-/

namespace Verif.FArc

open Verif.FEff (Text text Role)
open Verif.FConv (Ov Formats shown)
open Verif.FFx (Note Ty)
open Verif.Enum (TextureWrapMode TextureFilterFunction)

theorem note_back (a : Note) (h : GoodNote a) : loadNote (noteNode a) = some a := by
  obtain ⟨name, ty, value⟩ := a
  have hp : ∀ ks, prop (some (.elem (text "annotate") [(text "name", name)] [] ks)) (text "name") = some name := fun ks => prop_raw (by rw [raw_cons, if_pos rfl]) h.name
  have hd : ∀ a t, (textChild a t).direct = encode t := fun _ _ => rfl
  unfold loadNote noteNode
  rw [hp, Option.bind_some]
  rcases h.value with ⟨rfl, hv⟩ | ⟨rfl | rfl | rfl, hv⟩ <;> simp only [] at hv
  · simp only [Nat.reduceEqDiff, if_false, if_true, kids_elem, name_textChild, content_textChild hv, Option.map_some]
  · simp only [Nat.reduceEqDiff, OfNat.one_ne_ofNat, if_false, if_true, kids_elem, name_textChild, text_inj, String.reduceEq, hd, encode_unescaped hv]
  · simp only [if_true, kids_elem, name_textChild, text_inj, String.reduceEq, if_false, hd, encode_unescaped hv]
  · simp only [Nat.reduceEqDiff, OfNat.ofNat_ne_one, if_false, if_true, kids_elem, name_textChild, text_inj, String.reduceEq, hd, encode_unescaped hv]

theorem notes_back (l : List Note) (h : ∀ a ∈ l, GoodNote a) : (l.map noteNode).mapM loadNote = some l := by
  induction l with
  | nil => rfl
  | cons a l ih =>
    rw [List.map_cons, List.mapM_cons, note_back a (h a (by simp)), ih fun x hx => h x (by simp [hx])]
    rfl

/-- The children before those of the value. -/
def parmHead (p : Parm) : List Node := p.notes.map noteNode ++ if p.role = .generator ∧ p.sem ≠ [] then [textChild (text "semantic") p.sem] else []

theorem head_named (p : Parm) : ∀ k ∈ parmHead p, k.name = text "annotate" ∨ k.name = text "semantic" := by
  intro k hk
  unfold parmHead at hk
  rcases List.mem_append.1 hk with hk | hk
  · obtain ⟨a, _, rfl⟩ := List.mem_map.1 hk
    exact Or.inl rfl
  · split at hk
    · rw [List.mem_singleton.1 hk]; exact Or.inr rfl
    · simp at hk

theorem parm_elem (p : Parm) (ks : List Node) : parmNode p [] ks = .elem (headOf p).1 (headOf p).2 [] (parmHead p ++ ks) := by
  unfold parmNode parmHead
  rw [List.append_nil]

theorem head_back (p : Parm) (h : GoodParm p) (old : Role) (v : Node) (hv : v.name ≠ text "annotate" ∧ v.name ≠ text "semantic") : loadParmHead old (parmNode p [] [v]) = some (p.role, p.ref, p.sem, p.notes) := by
  have hnotes : (parmNode p [] [v]).children (text "annotate") = p.notes.map noteNode := by
    rw [parm_elem, children_append]
    unfold parmHead
    rw [children_append, children_all (ks := p.notes.map noteNode) fun k hk => by
      obtain ⟨a, _, rfl⟩ := List.mem_map.1 hk; rfl, children_other (ks := if p.role = .generator ∧ p.sem ≠ [] then [textChild (text "semantic") p.sem] else []) fun k hk => by
      split at hk
      · rw [List.mem_singleton.1 hk, name_textChild, ne_eq, text_inj]; decide
      · simp at hk, children_cons, children_nil, if_neg hv.1]
    simp
  have hsem : loadSem (parmNode p [] [v]) = some p.sem := by
    have hc : (parmNode p [] [v]).child (text "semantic") = if p.role = .generator ∧ p.sem ≠ [] then some (textChild (text "semantic") p.sem) else none := by
      rw [parm_elem, child_append]
      unfold parmHead
      rw [child_append, child_other (ks := p.notes.map noteNode) fun k hk => by
        obtain ⟨a, _, rfl⟩ := List.mem_map.1 hk
        rw [show (noteNode a).name = text "annotate" from rfl, ne_eq, text_inj]; decide, Option.none_or, child_cons, if_neg hv.2, child_nil, Option.or_none]
      split
      · rw [child_cons, name_textChild, if_pos rfl]
      · rfl
    unfold loadSem
    rw [hc]
    split
    · next k hk =>
      split at hk
      · rw [← Option.some.inj hk, content_textChild h.sem]
      · simp at hk
    · next hk =>
      split at hk
      · simp at hk
      · next hs =>
        rcases h.role with hr | hr
        · rw [show p.sem = [] by by_contra hne; exact hs ⟨hr, hne⟩]
        · rw [h.noSem hr]
  unfold loadParmHead
  rw [hnotes, notes_back _ h.notes, Option.bind_some]
  rcases h.role with hr | hr
  · have hn : (parmNode p [] [v]).name = text "newparam" := by rw [parm_elem]; unfold headOf; rw [hr]; rfl
    have hp : prop (some (parmNode p [] [v])) (text "sid") = some p.ref := prop_raw (by rw [parm_elem]; unfold headOf; rw [hr]; simp only [raw_cons, if_true]) (valid_plain h.ref)
    rw [hn, show loadRole old (text "newparam") = .generator from if_pos rfl]
    simp only
    rw [hp, Option.bind_some, clean_good h.ref, Option.bind_some, if_neg h.named, hsem, Option.map_some, hr]
  · have hn : (parmNode p [] [v]).name = text "setparam" := by rw [parm_elem]; unfold headOf; rw [hr]; rfl
    have hp : prop (some (parmNode p [] [v])) (text "ref") = some p.ref := prop_raw (by rw [parm_elem]; unfold headOf; rw [hr]; simp only [raw_cons, if_true]) (valid_plain h.ref)
    rw [hn, show loadRole old (text "setparam") = .modifier by unfold loadRole; simp only [text_inj, String.reduceEq, if_false, if_true]]
    simp only
    rw [hp, Option.bind_some, clean_good h.ref, Option.bind_some, if_neg h.named, hsem, Option.map_some, hr]

theorem type_back (p : Parm) (v : Node) (ty : Ty) (hv : typeNamed v.name = some ty) (parent : Text) : parmType parent (parmNode p [] [v]) = some ty := by
  have hh : ∀ l : List Node, (∀ k ∈ l, k.name = text "annotate" ∨ k.name = text "semantic") → (l ++ [v]).findSome? (fun k => typeNamed k.name) = some ty := by
    intro l hl
    induction l with
    | nil => rw [List.nil_append, List.findSome?_cons, hv]
    | cons a l ih =>
      rw [List.cons_append, List.findSome?_cons, show typeNamed a.name = none by
        rcases hl a (by simp) with e | e <;> rw [e] <;> decide +kernel]
      exact ih fun k hk => hl k (by simp [hk])
  unfold parmType
  rw [parm_elem, kids_elem, direct_elem, if_neg (by simp), hh _ (head_named p)]
  rfl

theorem child_back (p : Parm) (v : Node) (a : Text) (ha : a ≠ text "annotate" ∧ a ≠ text "semantic") : (parmNode p [] [v]).child a = if v.name = a then some v else none := by
  rw [parm_elem, child_append, child_other (ks := parmHead p) fun k hk (e : k.name = a) => by
    rcases head_named p k hk with x | x
    · exact ha.1 (e ▸ x)
    · exact ha.2 (e ▸ x), Option.none_or, child_cons, child_nil]

theorem wrapOf_back (w : TextureWrapMode) : wrapOf (encode (text w.toString)) = w := by cases w <;> decide +kernel

theorem filterOf_back (f : TextureFilterFunction) : filterOf (encode (text f.toString)) = filterAfter f := by cases f <;> decide +kernel

theorem valid_dot {t : Text} (h : FXml.ValidId false t) : FXml.ValidId true t := by
  cases t with
  | nil => trivial
  | cons c t =>
    refine ⟨h.1, fun x hx => ?_, h.2.2⟩
    have := h.2.1 x hx
    unfold FXml.nameChar at this ⊢
    rw [Bool.or_eq_true] at this ⊢
    rcases this with e | e
    · exact Or.inl e
    · simp at e

theorem samp_back (s : Samp) (h : FXml.ValidId false s.surface) : loadSampNode s.kind (sampNode s) = some (sampAfter s) := by
  have hu : encode s.surface = s.surface := encode_unescaped (id_unescaped (valid_dot h))
  have hd : ∀ a t, (textChild a t).direct = encode t := fun _ _ => rfl
  obtain ⟨kind, surface, ws, wt, wp, f1, f2, f3⟩ := s
  unfold loadSampNode orKeep sampNode sampAfter
  simp only at hu h
  cases kind <;>
  · simp only [List.cons_append, List.nil_append, child_cons, child_nil, name_textChild, text_inj, String.reduceEq, if_false, if_true, direct, Option.map_some, Option.getD_some, hd, hu, clean_good h, wrapOf_back, filterOf_back,
      reduceCtorEq, or_self, or_true, true_or]

theorem skind_back (k : SKind) : skindOf k.name = some k := by cases k <;> decide +kernel

theorem sampName_type (k : SKind) : typeNamed k.name = some .sampler := by cases k <;> decide +kernel

theorem sampName_ne (k : SKind) : k.name ≠ text "annotate" ∧ k.name ≠ text "semantic" := by cases k <;> exact ⟨by decide +kernel, by decide +kernel⟩

/-- The element that is found for floats or halves. -/
theorem floatChild_back (p : Parm) (v : Node) (half : Bool) (s : String) (hs : s ∈ ["", "2", "3", "4", "4x4"]) (hv : v.name = floatName half s) : floatChild (parmNode p [] [v]) s = (half, v.direct) := by
  have hne : ∀ b : Bool, floatName b s ≠ text "annotate" ∧ floatName b s ≠ text "semantic" ∧ floatName true s ≠ floatName false s := by
    fin_cases hs <;> decide +kernel
  unfold floatChild
  rw [child_back p v _ ⟨(hne false).1, (hne false).2.1⟩]
  cases half with
  | false => rw [if_pos hv]
  | true => rw [if_neg (by rw [hv]; exact (hne false).2.2), child_back p v _ ⟨(hne true).1, (hne true).2.1⟩, if_pos hv]; rfl

theorem floatName_type (half : Bool) : typeNamed (floatName half "") = some .float ∧ typeNamed (floatName half "2") = some .float2 ∧ typeNamed (floatName half "3") = some .float3 ∧
    typeNamed (floatName half "4") = some .vector ∧ typeNamed (floatName half "4x4") = some .matrix := by cases half <;> decide +kernel

theorem floatName_ne (half : Bool) (s : String) (hs : s ∈ ["", "2", "3", "4", "4x4"]) : floatName half s ≠ text "annotate" ∧ floatName half s ≠ text "semantic" := by
  fin_cases hs <;> cases half <;> decide +kernel

end Verif.FArc
