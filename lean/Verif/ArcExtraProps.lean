import Verif.ArcExtraAux
import Verif.ArcExtraSpec
import Verif.ArcLemmas
import Verif.ExtraProps

/-!
# Extra trees are saved and loaded (C143)
-/

namespace Verif.FArc

open Verif.FEff (Text text)

/-- **C143, partial.** An extra with content is read back from what is written for it. Missing: extras without child nodes, nodes with content and child nodes, and `%` in contents, types and
profiles; see `extra_violated`. -/
theorem extra_roundtrip_partial (e : FExtra.Extra) (h : Saveable e) (hc : FExtra.hasContent e = true) : loadExtras FExtra.newExtra (writeExtra e) = some e := by
  obtain ⟨⟨t, ht, hn⟩, hd, hs⟩ := h
  cases e with
  | nil => simp at ht
  | cons t' es =>
    have : t' = t := by simpa using ht
    subst this
    obtain ⟨n, ts⟩ := t'
    simp only at hn
    subst hn
    obtain ⟨_, p2, p3⟩ := hs _ (List.mem_cons_self ..)
    unfold writeExtra
    rw [if_pos hc, List.filterMap_cons, writeType_eq _ p2 p3]
    have hrest : ∀ t ∈ es, Plain t.name ∧ (t.techs.map (·.profile)).Nodup ∧ ∀ x ∈ t.techs, SaveTech x := fun x hx => hs x (List.mem_cons_of_mem _ hx)
    by_cases hts : ts = []
    · subst hts
      rw [if_pos ⟨rfl, rfl⟩]
      exact loadExtras_new es [⟨[], []⟩] hd (by simp) hrest
    · rw [if_neg (by simp [hts])]
      have h1 := loadExtra_default ts p2 p3
      show loadExtras FExtra.newExtra (typeElem ⟨[], ts⟩ :: es.filterMap writeType) = _
      unfold loadExtras
      rw [List.foldlM_cons, h1]
      exact loadExtras_new es [⟨[], ts⟩] hd (by simp) hrest

/-- An extra with two types, two profiles, attributes and nested nodes. -/
def sampleExtra : FExtra.Extra :=
  [⟨[], [⟨text "MAYA", .mk [] [] [] [.mk (text "note") (text "a b") [⟨text "k", text "50%"⟩] []]⟩, ⟨text "MAX3D", .mk [] [] [] [.mk (text "g") [] [] [.mk (text "x") (text "1") [] []]]⟩]⟩,
   ⟨text "game", []⟩]

example : FExtra.hasContent sampleExtra = true ∧ loadExtras FExtra.newExtra (writeExtra sampleExtra) = some sampleExtra := by
  have hvn : ∀ c : Int, 97 ≤ c → c ≤ 122 → FExtra.Letter c := fun c h1 h2 => (FExtra.letter_iff c).2 (Or.inl ⟨h1, h2⟩)
  refine ⟨by decide +kernel, extra_roundtrip_partial _ ⟨⟨_, rfl, rfl⟩, by decide +kernel, ?_⟩ (by decide +kernel)⟩
  have hleaf : ∀ (n c : Text) (as : List FExtra.Attr), SaveHere (.mk n c as []) → ∀ m, FExtra.Within (.mk n c as []) m → SaveHere m := fun n c as h =>
    (FExtra.within_iff SaveHere _).2 ⟨h, fun c hc => by simp [FExtra.Node.children] at hc⟩
  have hname : ∀ t : Text, t ≠ [] → (∀ c ∈ t, 97 ≤ c ∧ c ≤ 122) → FExtra.ValidName t := by
    intro t ht h
    obtain ⟨c, u, rfl⟩ := List.exists_cons_of_ne_nil ht
    exact ⟨⟨c, rfl, Or.inl (hvn c (h c (by simp)).1 (h c (by simp)).2)⟩, fun d hd => Or.inl (hvn d (h d hd).1 (h d hd).2)⟩
  have hpl : ∀ t : Text, (∀ c ∈ t, (1 ≤ c ∧ c ≤ 127) ∧ c ≠ 37) → Plain t := fun t h c hc =>
    ⟨⟨Int.le_trans (by decide) (h c hc).1.1, (h c hc).1.2, fun e => absurd (e ▸ (h c hc).1.1 : (1 : Int) ≤ 0) (by decide)⟩, (h c hc).2⟩
  intro t ht
  simp only [sampleExtra, List.mem_cons, List.not_mem_nil, or_false] at ht
  rcases ht with rfl | rfl
  · refine ⟨plain_nil, by decide +kernel, ?_⟩
    intro x hx
    simp only [List.mem_cons, List.not_mem_nil, or_false] at hx
    rcases hx with rfl | rfl
    · refine ⟨hpl _ (by decide), rfl, ?_⟩
      intro c hc
      simp only [FExtra.Node.children, List.mem_cons, List.not_mem_nil, or_false] at hc
      subst hc
      refine hleaf _ _ _ ⟨hname _ (by decide) (by decide), hpl _ (by decide), fun h => h.2 rfl, ?_, by decide⟩
      intro a ha
      simp only [FExtra.Node.attrs, List.mem_cons, List.not_mem_nil, or_false] at ha
      subst ha
      exact hname _ (by decide) (by decide)
    · refine ⟨hpl _ (by decide), rfl, ?_⟩
      intro c hc
      simp only [FExtra.Node.children, List.mem_cons, List.not_mem_nil, or_false] at hc
      subst hc
      refine (FExtra.within_iff SaveHere _).2 ⟨⟨hname _ (by decide) (by decide), plain_nil, fun h => h.1 rfl, by simp [FExtra.Node.attrs], by simp [FExtra.Node.attrs]⟩, ?_⟩
      intro c hc
      simp only [FExtra.Node.children, List.mem_cons, List.not_mem_nil, or_false] at hc
      subst hc
      exact hleaf _ _ _ ⟨hname _ (by decide) (by decide), hpl _ (by decide), fun h => h.2 rfl, by simp [FExtra.Node.attrs], by simp [FExtra.Node.attrs]⟩
  · exact ⟨hpl _ (by decide), by simp, by simp⟩

/-- **C143.** Without child nodes in any technique nothing is written. -/
theorem extra_empty (e : FExtra.Extra) (h : FExtra.hasContent e = false) : writeExtra e = [] := by
  unfold writeExtra
  rw [h]
  rfl

/-- **C143, violated.** Lost on the way: a type without child nodes anywhere; the content of a node with child nodes; a profile with `%`, which may also be merged with another. -/
theorem extra_violated :
    loadExtras FExtra.newExtra (writeExtra [⟨[], []⟩, ⟨text "game", [⟨text "GAME", FExtra.blank⟩]⟩]) = some [⟨[], []⟩] ∧
    loadExtras FExtra.newExtra (writeExtra [⟨[], [⟨text "P", .mk [] [] [] [.mk (text "n") (text "c") [] [.mk (text "k") [] [] []]]⟩]⟩]) =
      some [⟨[], [⟨text "P", .mk [] [] [] [.mk (text "n") [] [] [.mk (text "k") [] [] []]]⟩]⟩] ∧
    loadExtras FExtra.newExtra (writeExtra [⟨[], [⟨text "%41", .mk [] [] [] [.mk (text "m") [] [] []]⟩, ⟨text "A", .mk [] [] [] [.mk (text "n") [] [] []]⟩]⟩]) =
      some [⟨[], [⟨text "A", .mk [] [] [] [.mk (text "m") [] [] [], .mk (text "n") [] [] []]⟩]⟩] := by
  refine ⟨by rfl, ?_, ?_⟩
  · rfl
  · set_option maxRecDepth 20000 in rfl

/-- **C143.** When a technique element is loaded for a profile that is there, its nodes are added behind those of the technique; the other techniques stay as they are. -/
theorem technique_merged (pre suf : List FExtra.Tech) (t : FExtra.Tech) (k : Node) (cs : List FExtra.Node) (hp : prop (some k) (text "profile") = some t.profile) (hk : loadENodes k.kids = some cs)
    (hn : t.profile ∉ pre.map (·.profile)) :
    loadTech (pre ++ t :: suf) k = some (pre ++ { t with node := .mk t.node.name t.node.content t.node.attrs (t.node.children ++ cs) } :: suf) := by
  have hi : (pre ++ t :: suf).findIdx? (fun y => decide (y.profile = t.profile)) = some pre.length := by
    clear hk
    induction pre with
    | nil => simp [List.findIdx?_cons]
    | cons a pre ih =>
      rw [List.cons_append, List.findIdx?_cons, if_neg (by simpa using fun e => hn (by simp [e])), ih fun hm => hn (by simp at hm ⊢; exact Or.inr hm)]
      rfl
  have hm : ∀ (l : List FExtra.Tech) (f : FExtra.Tech → FExtra.Tech), (l ++ t :: suf).modify l.length f = l ++ f t :: suf := by
    intro l f
    induction l with
    | nil => rfl
    | cons a l ih => simpa using ih
  have ha : FExtra.addTechnique (pre ++ t :: suf) t.profile = (pre ++ t :: suf, pre.length) := by
    unfold FExtra.addTechnique FExtra.findTechnique
    rw [hi]
  unfold loadTech
  rw [hp, Option.bind_some, hk, Option.map_some]
  simp only [ha, hm]

example : loadTech [⟨text "A", .mk [] [] [] [.mk (text "m") [] [] []]⟩, ⟨text "B", FExtra.blank⟩] (.elem (text "technique") [(text "profile", text "A")] [] [leaf (text "n")]) =
    some [⟨text "A", .mk [] [] [] [.mk (text "m") [] [] [], .mk (text "n") [] [] []]⟩, ⟨text "B", FExtra.blank⟩] := by set_option maxRecDepth 20000 in rfl

end Verif.FArc
