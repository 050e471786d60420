import Verif.ArcEntitySpec
import Verif.ArcExtraProps
import Verif.ArcAssetProps

/-! # Lemmas on saved and loaded entities -/

namespace Verif.FArc

open Verif.FEff (Text text)
open Verif.FConv (Ov DateTime Formats shown)

/-- A technique with one more parameter. -/
def addP (n v : Text) (t : FExtra.Tech) : FExtra.Tech := { t with node := FExtra.addParameter n v t.node }

theorem addP_profile (n v : Text) (t : FExtra.Tech) : (addP n v t).profile = t.profile := rfl

theorem findTechnique_at (A B : List FExtra.Tech) (x : FExtra.Tech) (p : Text) (hx : x.profile = p) (hA : p ∉ A.map (·.profile)) :
    FExtra.findTechnique (A ++ x :: B) p = some A.length := by
  unfold FExtra.findTechnique
  rw [List.findIdx?_append]
  have : A.findIdx? (fun x => decide (x.profile = p)) = none := by
    rw [List.findIdx?_eq_none_iff]
    intro y hy
    have : y.profile ≠ p := fun h => hA (h ▸ List.mem_map_of_mem hy)
    simpa using this
  rw [this]
  simp [List.findIdx?_cons, hx]

theorem findTechnique_none (ts : List FExtra.Tech) (p : Text) (h : p ∉ ts.map (·.profile)) : FExtra.findTechnique ts p = none := by
  unfold FExtra.findTechnique
  rw [List.findIdx?_eq_none_iff]
  intro y hy
  have : y.profile ≠ p := fun e => h (e ▸ List.mem_map_of_mem hy)
  simpa using this

theorem modify_mid {α : Type} (A B : List α) (x : α) (f : α → α) : (A ++ x :: B).modify A.length f = A ++ f x :: B := by
  induction A with
  | nil => rfl
  | cons a A ih => simpa using ih

theorem eraseIdx_mid {α : Type} (A B : List α) (x : α) : (A ++ x :: B).eraseIdx A.length = A ++ B := by
  induction A with
  | nil => rfl
  | cons a A ih => simpa using ih

theorem getElem_mid {α : Type} (A B : List α) (x : α) : (A ++ x :: B)[A.length]? = some x := by simp

theorem split_mem (ts : List FExtra.Tech) (p : Text) (h : p ∈ ts.map (·.profile)) : ∃ A x B, ts = A ++ x :: B ∧ x.profile = p ∧ p ∉ A.map (·.profile) := by
  induction ts with
  | nil => simp at h
  | cons t ts ih =>
    by_cases ht : t.profile = p
    · exact ⟨[], t, ts, rfl, ht, by simp⟩
    · obtain ⟨A, x, B, rfl, h1, h2⟩ := ih (by simpa [Ne.symm ht] using h)
      exact ⟨t :: A, x, B, rfl, h1, by simpa [Ne.symm ht] using h2⟩

/-- The techniques with that of the library, around it. -/
theorem withTech_split (ts : List FExtra.Tech) : ∃ A x B, withTech ts = A ++ x :: B ∧ x.profile = text "FCOLLADA" ∧ text "FCOLLADA" ∉ A.map (·.profile) ∧
    FExtra.addTechnique ts (text "FCOLLADA") = (A ++ x :: B, A.length) ∧ (ts = A ++ x :: B ∨ (ts = A ∧ x = ⟨text "FCOLLADA", FExtra.blank⟩ ∧ B = [])) := by
  unfold withTech
  by_cases h : text "FCOLLADA" ∈ ts.map (·.profile)
  · obtain ⟨A, x, B, rfl, h1, h2⟩ := split_mem ts _ h
    refine ⟨A, x, B, by rw [if_pos h], h1, h2, ?_, .inl rfl⟩
    unfold FExtra.addTechnique
    rw [findTechnique_at A B x _ h1 h2]
  · refine ⟨ts, ⟨text "FCOLLADA", FExtra.blank⟩, [], by rw [if_neg h], rfl, h, ?_, .inr ⟨rfl, rfl, rfl⟩⟩
    unfold FExtra.addTechnique
    rw [findTechnique_none ts _ h]

theorem pushParam_mid (A B : List FExtra.Tech) (x : FExtra.Tech) (n v : Text) (hx : x.profile = text "FCOLLADA") (hA : text "FCOLLADA" ∉ A.map (·.profile)) :
    pushParam n v (A ++ x :: B) = A ++ addP n v x :: B := by
  unfold pushParam FExtra.addTechnique
  rw [findTechnique_at A B x _ hx hA]
  exact modify_mid A B x _

theorem pushParam_split {ts A B : List FExtra.Tech} {x : FExtra.Tech} (n v : Text) (h : FExtra.addTechnique ts (text "FCOLLADA") = (A ++ x :: B, A.length)) :
    pushParam n v ts = A ++ addP n v x :: B := by
  unfold pushParam
  rw [h]
  exact modify_mid A B x _

theorem popParam_mid (A B : List FExtra.Tech) (x : FExtra.Tech) (n v : Text) (hx : x.profile = text "FCOLLADA") (hA : text "FCOLLADA" ∉ A.map (·.profile)) :
    popParam (A ++ addP n v x :: B) = if x.node.children = [] then A ++ B else A ++ x :: B := by
  unfold popParam
  rw [findTechnique_at A B (addP n v x) _ hx hA]
  simp only [modify_mid, getElem_mid, eraseIdx_mid]
  obtain ⟨p, ⟨a, b, c, d⟩⟩ := x
  by_cases hd : d = []
  all_goals simp [addP, FExtra.addParameter, FExtra.Node.name, FExtra.Node.content, FExtra.Node.attrs, FExtra.Node.children, hd]

theorem onDefault_head (f : List FExtra.Tech → List FExtra.Tech) (ts : List FExtra.Tech) (es : List FExtra.EType) : onDefault f (⟨[], ts⟩ :: es) = some (⟨[], f ts⟩ :: es) := by
  simp [onDefault, FExtra.findType, List.findIdx?_cons]

theorem defaultTechs_head (ts : List FExtra.Tech) (es : List FExtra.EType) : defaultTechs (⟨[], ts⟩ :: es) = some ts := by
  simp [defaultTechs, FExtra.findType, List.findIdx?_cons]

/-! ## Notes -/

/-- No notes in the technique. -/
def Clean (t : FExtra.Tech) : Prop := ∀ c ∈ t.node.children, isNote c = false

theorem takeFrom_clean (p nt : Text) (ts : List FExtra.Tech) (h : ∀ t ∈ ts, t.profile = p → Clean t) : takeFrom p (ts, nt) = (ts, nt) := by
  by_cases hp : p ∈ ts.map (·.profile)
  · obtain ⟨A, x, B, rfl, h1, h2⟩ := split_mem ts p hp
    have hc := h x (by simp) h1
    unfold takeFrom
    simp only [findTechnique_at A B x p h1 h2, modify_mid, getElem_mid, Option.bind_some]
    have e1 : x.node.children.filter isNote = [] := by
      rw [List.filter_eq_nil_iff]
      intro c hm; simp [hc c hm]
    have e2 : (x.node.children.filter fun c => !isNote c) = x.node.children := by
      rw [List.filter_eq_self]
      intro c hm; simp [hc c hm]
    rw [e1, e2]
    obtain ⟨p, ⟨a, b, c, d⟩⟩ := x
    simp [FExtra.Node.name, FExtra.Node.content, FExtra.Node.attrs, FExtra.Node.children]
  · unfold takeFrom
    simp only [findTechnique_none ts p hp]

theorem takeNotes_clean (nt : Text) (ts : List FExtra.Tech) (h : ∀ t ∈ ts, (t.profile = text "MAYA" ∨ t.profile = text "MAX3D" ∨ t.profile = text "FCOLLADA") → Clean t) :
    takeNotes (ts, nt) = (ts, nt) := by
  unfold takeNotes
  rw [takeFrom_clean _ _ _ fun t ht e => h t ht (.inl e), takeFrom_clean _ _ _ fun t ht e => h t ht (.inr (.inl e)), takeFrom_clean _ _ _ fun t ht e => h t ht (.inr (.inr e))]

theorem takeNotes_note (A B : List FExtra.Tech) (x : FExtra.Tech) (note nt : Text) (hx : x.profile = text "FCOLLADA") (hA : text "FCOLLADA" ∉ A.map (·.profile))
    (h : ∀ t ∈ A ++ x :: B, (t.profile = text "MAYA" ∨ t.profile = text "MAX3D" ∨ t.profile = text "FCOLLADA") → Clean t) :
    takeNotes (A ++ addP (text "user_properties") note x :: B, nt) = (A ++ x :: B, note) := by
  have hx' : (addP (text "user_properties") note x).profile = text "FCOLLADA" := hx
  have h' : ∀ p, p ≠ text "FCOLLADA" → (p = text "MAYA" ∨ p = text "MAX3D") → ∀ t ∈ A ++ addP (text "user_properties") note x :: B, t.profile = p → Clean t := by
    intro p hp hp2 t ht e
    rw [List.mem_append, List.mem_cons] at ht
    rcases ht with ht | rfl | ht
    · exact h t (by simp [ht]) (by rw [e]; tauto)
    · exact absurd (e.symm.trans hx') hp
    · exact h t (by simp [ht]) (by rw [e]; tauto)
  unfold takeNotes
  rw [takeFrom_clean _ _ _ (h' _ (by simp [text_inj]) (.inl rfl)), takeFrom_clean _ _ _ (h' _ (by simp [text_inj]) (.inr rfl))]
  unfold takeFrom
  simp only [findTechnique_at A B _ _ hx' hA, modify_mid, getElem_mid, Option.bind_some]
  have hc := h x (by simp) (.inr (.inr hx))
  obtain ⟨p, ⟨a, b, c, d⟩⟩ := x
  simp only [Clean, FExtra.Node.children] at hc
  have hn : isNote (FExtra.setContent note (FExtra.setName (text "user_properties") FExtra.blank)) = true := by
    have : FExtra.cleanName (text "user_properties") = text "user_properties" := by decide +kernel
    simp [isNote, FExtra.setContent, FExtra.setName, FExtra.blank, FExtra.Node.children, FExtra.Node.name, this]
  have e1 : d.filter isNote = [] := by
    rw [List.filter_eq_nil_iff]
    intro c hm; simp [hc c hm]
  have e2 : (d.filter fun c => !isNote c) = d := by
    rw [List.filter_eq_self]
    intro c hm; simp [hc c hm]
  simp [addP, FExtra.addParameter, FExtra.Node.name, FExtra.Node.content, FExtra.Node.attrs, FExtra.Node.children, List.filter_append, hn, e1, e2]
  rfl

/-! ## Loading -/

theorem findType_head (ts : List FExtra.Tech) (es : List FExtra.EType) : FExtra.findType (⟨[], ts⟩ :: es) [] = some 0 := by
  simp [FExtra.findType, List.findIdx?_cons]

theorem loadEntExtras_new (ts : List FExtra.Tech) (nt : Text) (hc : ∀ t ∈ ts, (t.profile = text "MAYA" ∨ t.profile = text "MAX3D" ∨ t.profile = text "FCOLLADA") → Clean t) (es : List FExtra.EType) :
    ∀ ds : List FExtra.EType, (((⟨[], ts⟩ :: ds) ++ es).map (·.name)).Nodup →
      (∀ t ∈ es, Plain t.name ∧ (t.techs.map (·.profile)).Nodup ∧ ∀ x ∈ t.techs, SaveTech x) →
      (es.filterMap writeType).foldlM loadEntExtra (⟨[], ts⟩ :: ds, nt) = some (⟨[], ts⟩ :: (ds ++ es), nt) := by
  induction es with
  | nil => intro ds _ _; simp
  | cons t es ih =>
    intro ds hd hs
    obtain ⟨p1, p2, p3⟩ := hs t (by simp)
    have hnot : t.name ∉ (⟨[], ts⟩ :: ds : FExtra.Extra).map (·.name) := by
      rw [List.map_append, List.nodup_append] at hd
      intro hm
      exact hd.2.2 _ hm _ (by simp) rfl
    have hne : ¬ (t.name = [] ∧ t.techs = []) := fun h => hnot (by simp [h.1])
    have hw : writeType t = some (typeElem t) := by rw [writeType_eq t p2 p3, if_neg hne]
    rw [List.filterMap_cons, hw]
    simp only [List.foldlM_cons]
    have : loadEntExtra (⟨[], ts⟩ :: ds, nt) (typeElem t) = some (⟨[], ts⟩ :: (ds ++ [t]), nt) := by
      unfold loadEntExtra
      rw [loadExtra_new _ t p1 hnot p2 p3, Option.bind_some, List.cons_append, defaultTechs_head, Option.bind_some]
      simp only [takeNotes_clean nt ts hc]
      rw [onDefault_head, Option.map_some]
    rw [this]
    have := ih (ds ++ [t]) (by simpa using hd) fun x hx => hs x (by simp [hx])
    simpa using this

/-- The elements of an extra tree, notes and all, are read back without the notes. -/
theorem loadEntExtras_all (ts us : List FExtra.Tech) (es : List FExtra.EType) (nt nt' : Text) (hs : Saveable (⟨[], ts⟩ :: es)) (hc : FExtra.hasContent (⟨[], ts⟩ :: es) = true)
    (hn : takeNotes (ts, nt) = (us, nt')) (h0 : ts = [] → nt' = nt)
    (hu : ∀ t ∈ us, (t.profile = text "MAYA" ∨ t.profile = text "MAX3D" ∨ t.profile = text "FCOLLADA") → Clean t) :
    (writeExtra (⟨[], ts⟩ :: es)).foldlM loadEntExtra (FExtra.newExtra, nt) = some (⟨[], us⟩ :: es, nt') := by
  obtain ⟨-, hd, hs⟩ := hs
  obtain ⟨-, p2, p3⟩ := hs _ (List.mem_cons_self ..)
  have hrest : ∀ t ∈ es, Plain t.name ∧ (t.techs.map (·.profile)).Nodup ∧ ∀ x ∈ t.techs, SaveTech x := fun x hx => hs x (List.mem_cons_of_mem _ hx)
  unfold writeExtra
  rw [if_pos hc, List.filterMap_cons, writeType_eq _ p2 p3]
  by_cases hts : ts = []
  · subst hts
    rw [if_pos ⟨rfl, rfl⟩]
    have : us = [] := by
      have : takeNotes ([], nt) = ([], nt) := takeNotes_clean nt [] (by simp)
      rw [this] at hn
      exact (Prod.mk.inj hn).1.symm
    subst this
    rw [h0 rfl]
    have := loadEntExtras_new [] nt (by simp) es [] (by simpa using hd) hrest
    simpa [FExtra.newExtra] using this
  · rw [if_neg (by simp [hts])]
    simp only [List.foldlM_cons]
    have : loadEntExtra (FExtra.newExtra, nt) (typeElem ⟨[], ts⟩) = some ([⟨[], us⟩], nt') := by
      unfold loadEntExtra
      rw [loadExtra_default ts p2 p3, Option.bind_some, defaultTechs_head, Option.bind_some]
      simp only [hn]
      rw [onDefault_head, Option.map_some]
    rw [this]
    exact loadEntExtras_new us nt' hu es [] (by simpa using hd) hrest

end Verif.FArc
