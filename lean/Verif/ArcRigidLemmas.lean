import Verif.ArcRigidSpec
import Verif.ArcSolidLemmas
import Verif.ArcLightLemmas

/-! # Lemmas for the saving and loading of rigid constraints -/

namespace Verif.FArc

open Verif.FEff (Text text)
open Verif.FConv (Ov Formats shown)

theorem findAttach_text {bodies nodes : List Text} {a : Attach} (h : GoodAttach bodies nodes a) : findAttach bodies nodes (attachText bodies a) = a := by
  have hnone : ∀ t, t ∉ bodies → bodies.findIdx? (· = t) = none := by
    intro t ht
    rw [List.findIdx?_eq_none_iff]
    intro x hx
    simp only [decide_eq_false_iff_not]
    rintro rfl
    exact ht hx
  cases a with
  | body i =>
    obtain ⟨t, h1, -, h3⟩ := h
    have h4 : bodies.findIdx? (· = t) = some i := by
      obtain ⟨hi, he⟩ := List.getElem?_eq_some_iff.1 h1
      rw [List.findIdx?_eq_some_iff_getElem]
      refine ⟨hi, by simp [he], fun j hj => ?_⟩
      have := h3 j hj
      rw [List.getElem?_eq_getElem (by omega)] at this
      simpa using this
    have h5 : attachText bodies (.body i) = t := by simp [attachText, List.getD_eq_getElem?_getD, h1]
    unfold findAttach
    rw [h5, h4]
  | node id =>
    obtain ⟨-, h2, h3⟩ := h
    unfold findAttach attachText
    simp only [hnone id h3, h2, if_true]
  | nothing =>
    obtain ⟨h2, h3⟩ := h
    unfold findAttach attachText
    simp only [hnone [] h3, h2, if_false]

theorem attach_plain {bodies nodes : List Text} {a : Attach} (h : GoodAttach bodies nodes a) : Plain (attachText bodies a) := by
  cases a with
  | body i =>
    obtain ⟨t, h1, h2, -⟩ := h
    simpa [attachText, List.getD_eq_getElem?_getD, h1] using h2
  | node id => exact h.1
  | nothing => intro c hc; cases hc

theorem places_fold (ov : Ov) (len : V3 → ℚ) {fmt rnd} (hf : Formats fmt rnd) (o : Trans) (name : Text) (ho : newTrans name = some o) (ts : List Trans)
    (hn : ∀ t ∈ ts, transName t = name ∧ GoodTrans rnd t) (l : List Trans) (st : Bool) :
    (ts.map (transNode fmt)).foldlM (fun (s : List Trans × Bool) k => (newTrans name).bind fun o => (loadTransform ov len o k).map fun r => (s.1 ++ [r.1], r.2)) (l, st) =
      some (l ++ ts.map (shownTrans rnd len), if ts = [] then st else true) := by
  induction ts generalizing l st with
  | nil => simp
  | cons t ts ih =>
    obtain ⟨h1, h2⟩ := hn t (by simp)
    have hl := loadTransform_write ov len hf t h2 o (by rw [h1]; exact ho) (transNode fmt t) (by rw [transNode_eq hf, direct_elem])
    rw [List.map_cons, List.foldlM_cons]
    simp only [ho, Option.bind_some, hl, Option.map_some, Option.bind_eq_bind]
    have := ih (fun x hx => hn x (List.mem_cons_of_mem _ hx)) (l ++ [shownTrans rnd len t]) true
    simp only [ho, Option.bind_some] at this
    rw [this]
    simp

theorem filter_names {fmt rnd} (hf : Formats fmt rnd) (name : Text) (p : Trans → Bool) (hp : ∀ t, p t = true ↔ transName t = name) (ts : List Trans) :
    (ts.map (transNode fmt)).filter (fun k => decide (k.name = name)) = (ts.filter p).map (transNode fmt) := by
  induction ts with
  | nil => rfl
  | cons t ts ih =>
    have hname : (transNode fmt t).name = transName t := by rw [transNode_eq hf, elem_name]
    by_cases h : p t = true
    · rw [List.map_cons, List.filter_cons_of_pos (by simpa [hname] using (hp t).1 h), List.filter_cons_of_pos h, ih, List.map_cons]
    · rw [List.map_cons, List.filter_cons_of_neg (by simpa [hname] using fun e => h ((hp t).2 e)), List.filter_cons_of_neg h, ih]

theorem loadPlaces_elem (ov : Ov) (len : V3 → ℚ) {fmt rnd} (hf : Formats fmt rnd) (bodies : List Text) (en name : Text) (a : Attach) (ts : List Trans) (o : Trans) (ho : newTrans name = some o) (p : Trans → Bool)
    (hp : ∀ t, p t = true ↔ transName t = name) (hg : ∀ t, p t = true → GoodTrans rnd t) (l : List Trans) :
    loadPlaces ov len name (some (attachElem fmt bodies en a ts)) (l, true) = some (l ++ (ts.filter p).map (shownTrans rnd len), true) := by
  unfold loadPlaces
  have : (attachElem fmt bodies en a ts).children name = (ts.filter p).map (transNode fmt) := filter_names hf name p hp ts
  rw [Option.map_some, Option.getD_some, this, places_fold ov len hf o name ho]
  · simp
  · intro t ht
    have := (List.mem_filter.1 ht).2
    exact ⟨(hp t).1 this, hg t this⟩

theorem loadEnd_elem (ov : Ov) (len : V3 → ℚ) {fmt rnd} (hf : Formats fmt rnd) {bodies nodes : List Text} {a : Attach} (h : GoodAttach bodies nodes a) (en : Text) (ts : List Trans) :
    loadEnd ov len bodies nodes (some (attachElem fmt bodies en a ts)) true = some (a, (sortedPlaces ts).map (shownTrans rnd len), true) := by
  have h1 : prop (some (attachElem fmt bodies en a ts)) (text "rigid_body") = some (attachText bodies a) := prop_raw (by simp [attachElem, raw_cons]) (attach_plain h)
  have h2 := loadPlaces_elem ov len hf bodies en (text "rotate") a ts (.rotation (1, 0, 0) 0) (by simp [newTrans]) isRotation (fun t => by cases t <;> simp [isRotation, transName, text_inj])
    (fun t ht => by cases t <;> simp [isRotation] at ht; trivial) []
  have h3 := loadPlaces_elem ov len hf bodies en (text "translate") a ts (.translation (0, 0, 0)) (by simp [newTrans, text_inj]) isTranslation (fun t => by cases t <;> simp [isTranslation, transName, text_inj])
    (fun t ht => by cases t <;> simp [isTranslation] at ht; trivial) ((ts.filter isRotation).map (shownTrans rnd len))
  unfold loadEnd
  rw [h1, Option.bind_some, h2, Option.bind_some, List.nil_append, h3, Option.map_some, findAttach_text h, sortedPlaces, List.map_append]

theorem flagIn_num {fmt : ℚ → Text} (h1 : fmt 1 = text "1") {q : ℚ} (hq : IsFlag q) {n : Node} {name : Text} (h : n.child name = some (valueChild name (numText fmt q))) (old : ℚ) : flagIn n name old = some q := by
  have h0 : numText fmt 0 = text "0" := by
    have : FConv.floatText fmt (.fin 0) = some [48] := if_pos (by norm_num)
    unfold numText
    rw [this]
    decide +kernel
  have h1' : numText fmt 1 = text "1" := by
    have : FConv.floatText fmt (.fin 1) = FConv.floatToString (fmt 1) := if_neg (by norm_num)
    unfold numText
    rw [this, h1]
    decide +kernel
  unfold flagIn
  rw [h]
  simp only [direct_value]
  rcases hq with rfl | rfl
  · rw [h0]; decide +kernel
  · rw [h1']; decide +kernel

theorem vecIn_elem (ov : Ov) {fmt rnd} (hf : Formats fmt rnd) (name : Text) (lo hi old : V3) :
    vecIn ov (some (limitElem fmt name lo hi)) (text "min") old = some (shownVec rnd lo) ∧ vecIn ov (some (limitElem fmt name lo hi)) (text "max") old = some (shownVec rnd hi) := by
  have e1 : (limitElem fmt name lo hi).child (text "min") = some (valueChild (text "min") (vecText fmt lo)) := by simp [limitElem, Node.child, kids_elem, name_value]
  have e2 : (limitElem fmt name lo hi).child (text "max") = some (valueChild (text "max") (vecText fmt hi)) := by simp [limitElem, Node.child, kids_elem, name_value, text_inj]
  unfold vecIn
  rw [Option.bind_some, Option.bind_some, e1, e2]
  exact ⟨readV3_vecText ov hf lo, readV3_vecText ov hf hi⟩

end Verif.FArc
