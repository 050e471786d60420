import Verif.ArcExtraSpec
import Verif.ArcLemmas
import Verif.ExtraProps

/-! # Lemmas for the properties in ArcExtraProps -/

namespace Verif.FArc

open Verif.FEff (Text text)

theorem addAttributes_eq (n c : Text) (cs : List FExtra.Node) : ∀ (as : List (Text × Text)) (acc : List FExtra.Attr),
    as.foldl (fun x a => FExtra.addAttribute a.1 a.2 x) (FExtra.Node.mk n c acc cs) = .mk n c (as.foldl (fun l a => FExtra.putAttribute l a.1 a.2) acc) cs := by
  intro as
  induction as with
  | nil => intro acc; rfl
  | cons a as ih => intro acc; exact ih _

theorem writeENodes_length : ∀ cs : List FExtra.Node, (writeENodes cs).length = cs.length
  | [] => rfl
  | c :: cs => by rw [writeENodes, List.length_cons, List.length_cons, writeENodes_length cs]

mutual
theorem loadENode_write : ∀ n : FExtra.Node, (∀ m, FExtra.Within n m → SaveHere m) → loadENode (writeENode n) = some n
  | .mk n c as cs, h => by
    obtain ⟨⟨h1, h2, h3, h4, h5⟩, hc⟩ := (FExtra.within_iff SaveHere _).1 h
    simp only [FExtra.Node.name, FExtra.Node.content, FExtra.Node.attrs, FExtra.Node.children] at h1 h2 h4 h5 hc
    have hattr : (as.map fun a => (a.name, a.value)).foldl (fun l a => FExtra.putAttribute l a.1 a.2) [] = as := by
      rw [List.foldl_map]
      simpa using FExtra.putAttribute_fold as [] (fun a ha => Or.inr (h4 a ha)) (by simpa using h5)
    rw [writeENode, loadENode, loadENodes_write cs hc, Option.bind_some]
    by_cases hn : cs = []
    · subst hn
      rw [if_pos List.length_nil, content]
      simp only [writeENodes, fullText_leaf]
      rw [decode_encode h2, Option.map_some, Option.map_some]
      by_cases hc0 : c = []
      · rw [if_pos hc0, addAttributes_eq, hattr, FExtra.cleanName_valid n h1, hc0]
      · rw [if_neg hc0, FExtra.setContent, addAttributes_eq, hattr, FExtra.cleanName_valid n h1]
    · have hc0 : c = [] := by
        by_contra hc0
        exact h3 ⟨hc0, hn⟩
      rw [if_neg (by simpa using hn), Option.map_some, Option.map_some, if_pos rfl, addAttributes_eq, hattr, FExtra.cleanName_valid n h1, hc0]
theorem loadENodes_write : ∀ cs : List FExtra.Node, (∀ c ∈ cs, ∀ m, FExtra.Within c m → SaveHere m) → loadENodes (writeENodes cs) = some cs
  | [], _ => rfl
  | c :: cs, h => by
    rw [writeENodes, loadENodes, loadENode_write c (h c (by simp)), Option.bind_some, loadENodes_write cs fun x hx => h x (by simp [hx]), Option.map_some]
end

/-- The element of a technique. -/
def techElem (t : FExtra.Tech) : Node := .elem (text "technique") [(text "profile", t.profile)] [] (writeENodes t.node.children)

theorem prop_tech (t : FExtra.Tech) (h : Plain t.profile) : prop (some (techElem t)) (text "profile") = some t.profile := by
  simp [prop, techElem, raw_cons, decode_plain h]

theorem findTech_none (ts : List FExtra.Tech) (hp : ∀ t ∈ ts, Plain t.profile) (p : Text) (h : p ∉ ts.map (·.profile)) : findTech (ts.map techElem) p = none := by
  unfold findTech
  rw [List.findIdx?_eq_none_iff]
  intro k hk
  obtain ⟨t, ht, rfl⟩ := List.mem_map.1 hk
  rw [prop_tech t (hp t ht)]
  have : t.profile ≠ p := fun e => h (e ▸ List.mem_map_of_mem ht)
  simp [this]

theorem writeTechs_eq (ts : List FExtra.Tech) : ∀ acc : List FExtra.Tech, ((acc ++ ts).map (·.profile)).Nodup → (∀ t ∈ acc ++ ts, Plain t.profile) →
    ts.foldl writeTech (acc.map techElem) = (acc ++ ts).map techElem := by
  induction ts with
  | nil => intro acc _ _; simp
  | cons t ts ih =>
    intro acc hd hp
    have hnot : t.profile ∉ acc.map (·.profile) := by
      rw [List.map_append, List.nodup_append] at hd
      intro hm
      exact hd.2.2 _ hm _ (by simp) rfl
    rw [List.foldl_cons]
    have : writeTech (acc.map techElem) t = (acc ++ [t]).map techElem := by
      unfold writeTech
      rw [findTech_none acc (fun x hx => hp x (by simp [hx])) _ hnot]
      simp [techElem]
    rw [this, ih (acc ++ [t]) (by simpa using hd) (by simpa using hp)]
    simp

theorem addTechnique_new (ts : List FExtra.Tech) (p : Text) (h : p ∉ ts.map (·.profile)) : FExtra.addTechnique ts p = (ts ++ [⟨p, FExtra.blank⟩], ts.length) := by
  unfold FExtra.addTechnique
  have : FExtra.findTechnique ts p = none := by
    unfold FExtra.findTechnique
    rw [List.findIdx?_eq_none_iff]
    intro x hx
    have : x.profile ≠ p := fun e => h (e ▸ List.mem_map_of_mem hx)
    simpa using this
  rw [this]

theorem modify_last {α : Type} (l : List α) (x : α) (f : α → α) : (l ++ [x]).modify l.length f = l ++ [f x] := by
  induction l with
  | nil => rfl
  | cons a l ih => simpa using ih

theorem loadTechs_eq (ts : List FExtra.Tech) : ∀ acc : List FExtra.Tech, ((acc ++ ts).map (·.profile)).Nodup → (∀ t ∈ ts, SaveTech t) →
    (ts.map techElem).foldlM loadTech acc = some (acc ++ ts) := by
  induction ts with
  | nil => intro acc _ _; simp
  | cons t ts ih =>
    intro acc hd hs
    have hnot : t.profile ∉ acc.map (·.profile) := by
      rw [List.map_append, List.nodup_append] at hd
      intro hm
      exact hd.2.2 _ hm _ (by simp) rfl
    obtain ⟨s1, s2, s3⟩ := hs t (by simp)
    have : loadTech acc (techElem t) = some (acc ++ [t]) := by
      unfold loadTech
      rw [prop_tech t s1, Option.bind_some]
      have hk : loadENodes (techElem t).kids = some t.node.children := loadENodes_write _ s3
      rw [hk, Option.map_some]
      simp only
      rw [addTechnique_new acc _ hnot]
      simp only
      rw [modify_last]
      congr 2
      obtain ⟨p, n⟩ := t
      simp only at s2 ⊢
      rw [s2]
      rfl
    rw [List.map_cons, List.foldlM_cons, this]
    show List.foldlM loadTech (acc ++ [t]) (ts.map techElem) = _
    rw [ih (acc ++ [t]) (by simpa using hd) fun x hx => hs x (by simp [hx])]
    simp

theorem children_techs (n : Text) (as : List (Text × Text)) (t : Text) (ts : List FExtra.Tech) : (Node.elem n as t (ts.map techElem)).children (text "technique") = ts.map techElem := by
  simp [Node.children, techElem]

/-- The element of a type. -/
def typeElem (t : FExtra.EType) : Node := .elem (text "extra") (if t.name = [] then [] else [(text "type", t.name)]) [] (t.techs.map techElem)

theorem writeType_eq (t : FExtra.EType) (hd : (t.techs.map (·.profile)).Nodup) (hs : ∀ x ∈ t.techs, SaveTech x) :
    writeType t = if t.name = [] ∧ t.techs = [] then none else some (typeElem t) := by
  unfold writeType typeElem
  have := writeTechs_eq t.techs [] (by simpa using hd) (by simpa using fun x hx => (hs x hx).1)
  rw [List.map_nil, List.nil_append] at this
  rw [this]
  simp

theorem prop_type (t : FExtra.EType) (h : Plain t.name) : prop (some (typeElem t)) (text "type") = some t.name := by
  by_cases hn : t.name = []
  · simp [prop, typeElem, hn]
  · simp [prop, typeElem, hn, raw_cons, decode_plain h]

theorem typeElem_name (t : FExtra.EType) : (typeElem t).name = text "extra" := rfl

theorem loadExtra_default (ts : List FExtra.Tech) (p2 : (ts.map (·.profile)).Nodup) (p3 : ∀ x ∈ ts, SaveTech x) : loadExtra FExtra.newExtra (typeElem ⟨[], ts⟩) = some [⟨[], ts⟩] := by
  unfold loadExtra typeFor
  rw [if_pos (typeElem_name _), prop_type _ plain_nil, Option.map_some, Option.bind_some]
  have hl : loadType [] (typeElem ⟨[], ts⟩) = some ts := by
    unfold loadType typeElem
    rw [children_techs, loadTechs_eq ts [] (by simpa using p2) p3]
    simp
  have : FExtra.addType FExtra.newExtra [] = ([⟨[], []⟩], 0) := rfl
  simp [this, hl]

theorem loadExtra_new (e : FExtra.Extra) (t : FExtra.EType) (hp : Plain t.name) (hn : t.name ∉ e.map (·.name)) (hd : (t.techs.map (·.profile)).Nodup) (hs : ∀ x ∈ t.techs, SaveTech x) :
    loadExtra e (typeElem t) = some (e ++ [t]) := by
  unfold loadExtra typeFor
  rw [if_pos (typeElem_name t), prop_type t hp, Option.map_some, Option.bind_some]
  have : FExtra.addType e t.name = (e ++ [⟨t.name, []⟩], e.length) := by
    unfold FExtra.addType
    have : FExtra.findType e t.name = none := by
      unfold FExtra.findType
      rw [List.findIdx?_eq_none_iff]
      intro x hx
      have : x.name ≠ t.name := fun h => hn (h ▸ List.mem_map_of_mem hx)
      simpa using this
    rw [this]
  have hl : loadType [] (typeElem t) = some t.techs := by
    unfold loadType typeElem
    rw [children_techs, loadTechs_eq t.techs [] (by simpa using hd) hs]
    simp
  simp only [this]
  rw [List.getElem?_append_right (Nat.le_refl _)]
  simp [hl]

theorem loadExtras_new (es : List FExtra.EType) : ∀ e : FExtra.Extra, ((e ++ es).map (·.name)).Nodup → [] ∈ e.map (·.name) →
    (∀ t ∈ es, Plain t.name ∧ (t.techs.map (·.profile)).Nodup ∧ ∀ x ∈ t.techs, SaveTech x) → loadExtras e (es.filterMap writeType) = some (e ++ es) := by
  induction es with
  | nil => intro e _ _ _; simp [loadExtras]
  | cons t es ih =>
    intro e hd h0 hs
    obtain ⟨p1, p2, p3⟩ := hs t (by simp)
    have hnot : t.name ∉ e.map (·.name) := by
      rw [List.map_append, List.nodup_append] at hd
      intro hm
      exact hd.2.2 _ hm _ (by simp) rfl
    have hne : ¬ (t.name = [] ∧ t.techs = []) := fun h => hnot (h.1 ▸ h0)
    have hw : writeType t = some (typeElem t) := by rw [writeType_eq t p2 p3, if_neg hne]
    rw [List.filterMap_cons, hw]
    show loadExtras e (typeElem t :: es.filterMap writeType) = _
    unfold loadExtras
    rw [List.foldlM_cons, loadExtra_new e t p1 hnot p2 p3]
    show loadExtras (e ++ [t]) (es.filterMap writeType) = _
    rw [ih (e ++ [t]) (by simpa using hd) (by simp; left; simpa using h0) fun x hx => hs x (by simp [hx])]
    simp

end Verif.FArc
