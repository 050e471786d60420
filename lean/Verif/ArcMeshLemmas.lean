import Verif.ArcMeshSpec
import Verif.ArcPolyProps
import Verif.ArcSourceProps

/-! # Lemmas about the sources of a mesh -/

namespace Verif.FArc

open Verif.FEff (Text text)
open Verif.FConv (Ov Formats shown)
open Verif.FPoly (Prim)
open Verif.Enum (GeometryInput)

theorem findTech_pre {pre : List Node} (hpre : ∀ k ∈ pre, k.name ≠ text "technique") (ts : List FExtra.Tech) (hp : ∀ t ∈ ts, Plain t.profile) (p : Text) (h : p ∉ ts.map (·.profile)) :
    findTech (pre ++ ts.map techElem) p = none := by
  unfold findTech
  rw [List.findIdx?_eq_none_iff]
  intro k hk
  rcases List.mem_append.1 hk with hk | hk
  · simp [hpre k hk]
  · obtain ⟨t, ht, rfl⟩ := List.mem_map.1 hk
    rw [prop_tech t (hp t ht)]
    have : t.profile ≠ p := fun e => h (e ▸ List.mem_map_of_mem ht)
    simp [this]

theorem writeTechs_pre {pre : List Node} (hpre : ∀ k ∈ pre, k.name ≠ text "technique") (ts : List FExtra.Tech) : ∀ acc : List FExtra.Tech, ((acc ++ ts).map (·.profile)).Nodup →
    (∀ t ∈ acc ++ ts, Plain t.profile) → ts.foldl writeTech (pre ++ acc.map techElem) = pre ++ (acc ++ ts).map techElem := by
  induction ts with
  | nil => intro acc _ _; simp
  | cons t ts ih =>
    intro acc hd hp
    have hnot : t.profile ∉ acc.map (·.profile) := by
      rw [List.map_append, List.nodup_append] at hd
      intro hm
      exact hd.2.2 _ hm _ (by simp) rfl
    rw [List.foldl_cons]
    have : writeTech (pre ++ acc.map techElem) t = pre ++ (acc ++ [t]).map techElem := by
      unfold writeTech
      rw [findTech_pre hpre acc (fun x hx => hp x (by simp [hx])) _ hnot]
      simp [techElem]
    rw [this, ih (acc ++ [t]) (by simpa using hd) (by simpa using hp)]
    simp

/-- The children of the element of a source before the techniques. -/
theorem sourceFloats_kids (fmt : ℚ → Text) (id : Text) (vs : List ℚ) (stride : Nat) (ps : Option (List Text)) :
    ∀ k ∈ (sourceFloats fmt id vs stride ps).kids, k.name ≠ text "technique" := by
  intro k hk
  have : k.name = text "float_array" ∨ k.name = text "technique_common" := by
    have : k ∈ [arrayNode _ (text "float_array") _ _, Node.elem (text "technique_common") [] [] _] := hk
    rcases List.mem_cons.1 this with rfl | h
    · exact Or.inl rfl
    · rw [List.mem_singleton.1 h]; exact Or.inr rfl
  rcases this with h | h <;> (rw [h, Ne, text_inj]; decide)

theorem child_more {n : Node} {as : List (Text × Text)} {d : Text} {ts : List FExtra.Tech} {ty : Text} (h : ty ≠ text "technique") :
    (Node.elem n.name as d (n.kids ++ ts.map techElem)).child ty = n.child ty := by
  have : (Node.elem n.name as d (n.kids ++ ts.map techElem)).child ty = (n.kids ++ ts.map techElem).find? fun c => decide (c.name = ty) := rfl
  rw [this, List.find?_append]
  have hn : (ts.map techElem).find? (fun c => decide (c.name = ty)) = none := by
    rw [List.find?_eq_none]
    intro c hc
    obtain ⟨t, -, rfl⟩ := List.mem_map.1 hc
    have : (techElem t).name = text "technique" := rfl
    simp only [decide_eq_true_eq]
    rw [this]
    exact fun e => h e.symm
  rw [hn, Option.or_none]
  rfl

theorem readFloats_more (ov : Ov) {n : Node} {as : List (Text × Text)} {d : Text} {ts : List FExtra.Tech} (old : List ℚ) :
    readFloats ov (.elem n.name as d (n.kids ++ ts.map techElem)) old = readFloats ov n old := by
  unfold readFloats accessorOf
  rw [child_more (by rw [Ne, text_inj]; decide), child_more (by rw [Ne, text_inj]; decide)]

/-- A source that is written is read back, but for its type. -/
theorem loadSource_write (ov : Ov) {fmt rnd} (hf : Formats fmt rnd) {s : GSource} (h : GoodSource s) :
    ∃ n, writeSource fmt s = some n ∧ n.name = text "source" ∧ loadSource ov n = some { s with type := .unknown, data := s.data.map (shown rnd) } := by
  obtain ⟨ps, hps⟩ : ∃ ps, accessorNames s.type = some ps := by
    have := h.type
    cases ht : s.type <;> simp [ht, accessorNames] at this ⊢
  obtain ⟨ts, he, hn, hs⟩ := h.extra
  have htech : writeAllTechs (sourceFloats fmt s.id s.data s.stride ps).kids s.extra = (sourceFloats fmt s.id s.data s.stride ps).kids ++ ts.map techElem := by
    unfold writeAllTechs
    rw [he]
    have := writeTechs_pre (sourceFloats_kids fmt s.id s.data s.stride ps) ts [] (by simpa using hn) (fun t ht => (hs t (by simpa using ht)).1)
    simpa using this
  have hkids := sourceFloats_kids fmt s.id s.data s.stride ps
  refine ⟨_, by unfold writeSource; rw [hps]; rfl, rfl, ?_⟩
  simp only
  rw [htech]
  unfold loadSource
  have hread := float_source_roundtrip ov hf s.id s.data s.stride ps h.stride.2 h.data []
  rw [if_neg (by have := h.stride.1; omega)] at hread
  rw [readFloats_more, hread]
  have hname : prop (some (Node.elem (sourceFloats fmt s.id s.data s.stride ps).name ((sourceFloats fmt s.id s.data s.stride ps).attrs ++ if s.name = [] then [] else [(text "name", s.name)])
      (sourceFloats fmt s.id s.data s.stride ps).direct ((sourceFloats fmt s.id s.data s.stride ps).kids ++ ts.map techElem))) (text "name") = some s.name := by
    have hat : (sourceFloats fmt s.id s.data s.stride ps).attrs = [(text "id", s.id)] := rfl
    unfold prop
    rw [hat, Option.bind_some, List.cons_append, raw_cons, if_neg (by rw [text_inj]; decide), List.nil_append]
    by_cases h0 : s.name = []
    · rw [if_pos h0, h0]; rfl
    · rw [if_neg h0, raw_cons, if_pos rfl]
      exact decode_plain h.name
  have hid : prop (some (Node.elem (sourceFloats fmt s.id s.data s.stride ps).name ((sourceFloats fmt s.id s.data s.stride ps).attrs ++ if s.name = [] then [] else [(text "name", s.name)])
      (sourceFloats fmt s.id s.data s.stride ps).direct ((sourceFloats fmt s.id s.data s.stride ps).kids ++ ts.map techElem))) (text "id") = some s.id := by
    have hat : (sourceFloats fmt s.id s.data s.stride ps).attrs = [(text "id", s.id)] := rfl
    unfold prop
    rw [hat, Option.bind_some, List.cons_append, raw_cons, if_pos rfl]
    exact decode_plain h.id.1
  rw [hname, hid]
  have hex : loadExtra FExtra.newExtra (Node.elem (sourceFloats fmt s.id s.data s.stride ps).name ((sourceFloats fmt s.id s.data s.stride ps).attrs ++ if s.name = [] then [] else [(text "name", s.name)])
      (sourceFloats fmt s.id s.data s.stride ps).direct ((sourceFloats fmt s.id s.data s.stride ps).kids ++ ts.map techElem)) = some [⟨[], ts⟩] := by
    unfold loadExtra typeFor
    have hnm : (sourceFloats fmt s.id s.data s.stride ps).name = text "source" := rfl
    rw [if_neg (by rw [name_elem, hnm, text_inj]; decide)]
    have hft : FExtra.findType FExtra.newExtra [] = some 0 := by decide
    rw [hft]
    have hch : (Node.elem (sourceFloats fmt s.id s.data s.stride ps).name ((sourceFloats fmt s.id s.data s.stride ps).attrs ++ if s.name = [] then [] else [(text "name", s.name)])
      (sourceFloats fmt s.id s.data s.stride ps).direct ((sourceFloats fmt s.id s.data s.stride ps).kids ++ ts.map techElem)).children (text "technique") = ts.map techElem := by
      unfold Node.children
      have : ∀ a b c d, (Node.elem a b c d).kids = d := fun _ _ _ _ => rfl
      rw [this, List.filter_append]
      have h1 : ((sourceFloats fmt s.id s.data s.stride ps).kids.filter fun c => decide (c.name = text "technique")) = [] := by
        rw [List.filter_eq_nil_iff]
        intro k hk
        simpa using hkids k hk
      have h2 : ((ts.map techElem).filter fun c => decide (c.name = text "technique")) = ts.map techElem := by
        rw [List.filter_eq_self]
        intro k hk
        obtain ⟨t, -, rfl⟩ := List.mem_map.1 hk
        exact decide_eq_true rfl
      rw [h1, h2, List.nil_append]
    have hload := loadTechs_eq ts [] (by simpa using hn) hs
    simp only [Option.map_some, Option.bind_some]
    have h0 : FExtra.newExtra[0]? = some ⟨[], []⟩ := rfl
    rw [h0, Option.bind_some]
    simp only [loadType]
    rw [hch, hload]
    rfl
  rw [Option.bind_some, Option.bind_some, Option.bind_some, hex, Option.bind_some]
  have hft : FExtra.findType [⟨[], ts⟩] [] = some 0 := by simp [FExtra.findType]
  rw [hft, Option.bind_some]
  simp only [List.getElem?_cons_zero, Option.map_some, Option.some.injEq]
  obtain ⟨a, b, c, d, e, f⟩ := s
  simp only [GSource.mk.injEq, true_and] at he ⊢
  rw [he]
  split
  · next h => rw [List.length_eq_zero_iff.1 h]; rfl
  · rfl

end Verif.FArc
