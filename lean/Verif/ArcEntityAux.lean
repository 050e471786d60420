import Verif.ArcEntityLemmas
import Verif.ArcTransLemmas

/-! # Lemmas for the properties in ArcEntityProps -/

namespace Verif.FArc

open Verif.FEff (Text text)
open Verif.FConv (Ov DateTime Formats shown)

theorem clean_of_params {ts : List FExtra.Tech} (h : NoParams ts) : ∀ t ∈ ts, (t.profile = text "MAYA" ∨ t.profile = text "MAX3D" ∨ t.profile = text "FCOLLADA") → Clean t := by
  intro t ht hp c hc
  obtain ⟨-, h2⟩ := h t ht c hc
  obtain ⟨h3, h4⟩ := h2 hp
  simp [isNote, h3, h4]

theorem addP_save {x : FExtra.Tech} (n v : Text) (hn : FExtra.ValidName n) (hv : Plain v) (h : SaveTech x) : SaveTech (addP n v x) := by
  obtain ⟨h1, h2, h3⟩ := h
  obtain ⟨p, ⟨a, b, c, d⟩⟩ := x
  simp only [FExtra.Node.children, FExtra.Node.mk.injEq, and_true] at h2 h3
  obtain ⟨rfl, rfl, rfl⟩ := h2
  refine ⟨h1, rfl, ?_⟩
  intro y hy
  simp only [addP, FExtra.addParameter, FExtra.Node.children, List.mem_append, List.mem_singleton] at hy
  rcases hy with hy | rfl
  · exact h3 y hy
  · refine (FExtra.within_iff SaveHere _).2 ⟨⟨?_, hv, fun h => h.2 rfl, ?_, ?_⟩, ?_⟩
    · have : (FExtra.setContent v (FExtra.setName n FExtra.blank)).name = FExtra.cleanName n := rfl
      rw [this, FExtra.cleanName_valid n hn]; exact hn
    · intro a ha; simp [FExtra.setContent, FExtra.setName, FExtra.blank, FExtra.Node.attrs] at ha
    · simp [FExtra.setContent, FExtra.setName, FExtra.blank, FExtra.Node.attrs]
    · intro c hc; simp [FExtra.setContent, FExtra.setName, FExtra.blank, FExtra.Node.children] at hc

theorem saveable_head {ts : List FExtra.Tech} {es : List FExtra.EType} (h : Saveable (⟨[], ts⟩ :: es)) (us : List FExtra.Tech) (hd : (us.map (·.profile)).Nodup) (hs : ∀ x ∈ us, SaveTech x) :
    Saveable (⟨[], us⟩ :: es) := by
  refine ⟨⟨_, rfl, rfl⟩, h.2.1, ?_⟩
  intro t ht
  rcases List.mem_cons.1 ht with rfl | ht
  · exact ⟨plain_nil, hd, hs⟩
  · exact h.2.2 t (by simp [ht])

theorem validName_target : FExtra.ValidName (text "target") ∧ FExtra.ValidName (text "user_properties") := by
  have h1 : FExtra.cleanName (text "target") = text "target" := by decide +kernel
  have h2 : FExtra.cleanName (text "user_properties") = text "user_properties" := by decide +kernel
  rw [← h1, ← h2]
  exact ⟨FExtra.valid_cleanName _ (by decide), FExtra.valid_cleanName _ (by decide)⟩

theorem takeTarget_none (ts : List FExtra.Tech) (h : ∀ t ∈ ts, ∀ c ∈ t.node.children, c.name ≠ text "target") : takeTarget ts = none := by
  have : FExtra.findRootNode ts (text "target") = none := by
    induction ts with
    | nil => rfl
    | cons t ts ih =>
      have : FExtra.findChildNode t.node (text "target") = none := by
        unfold FExtra.findChildNode
        rw [List.findIdx?_eq_none_iff]
        intro c hc
        simpa using h t (by simp) c hc
      rw [FExtra.findRootNode, this]
      simp [ih fun t ht => h t (by simp [ht])]
  rw [takeTarget, this]; rfl

theorem takeTarget_mid (A B : List FExtra.Tech) (x : FExtra.Tech) (v : Text) (h : ∀ t ∈ A ++ x :: B, ∀ c ∈ t.node.children, c.name ≠ text "target") :
    takeTarget (A ++ addP (text "target") v x :: B) = some (v, A ++ x :: B) := by
  have hn : FExtra.cleanName (text "target") = text "target" := by decide +kernel
  have hx : FExtra.findChildNode (addP (text "target") v x).node (text "target") = some x.node.children.length := by
    have hc := h x (by simp)
    obtain ⟨p, ⟨a, b, c, d⟩⟩ := x
    simp only [addP, FExtra.addParameter, FExtra.findChildNode, FExtra.Node.children] at hc ⊢
    rw [List.findIdx?_append]
    have : d.findIdx? (fun x => decide (x.name = text "target")) = none := by
      rw [List.findIdx?_eq_none_iff]
      intro c hm
      simpa using hc c hm
    rw [this]
    simp [List.findIdx?_cons, FExtra.setContent, FExtra.setName, FExtra.blank, FExtra.Node.name, hn]
  have hr : FExtra.findRootNode (A ++ addP (text "target") v x :: B) (text "target") = some (A.length, x.node.children.length) := by
    induction A with
    | nil => rw [List.nil_append, FExtra.findRootNode, hx]; rfl
    | cons t A ih =>
      have hA := ih fun t ht => h t (by simp only [List.cons_append, List.mem_cons]; exact .inr ht)
      have : FExtra.findChildNode t.node (text "target") = none := by
        unfold FExtra.findChildNode
        rw [List.findIdx?_eq_none_iff]
        intro c hc
        simpa using h t (by simp) c hc
      rw [List.cons_append, FExtra.findRootNode, this]
      simp [hA]
  rw [takeTarget, hr, Option.bind_some]
  simp only [getElem_mid, Option.bind_some, modify_mid]
  obtain ⟨p, ⟨a, b, c, d⟩⟩ := x
  simp [addP, FExtra.addParameter, FExtra.Node.name, FExtra.Node.content, FExtra.Node.attrs, FExtra.Node.children, eraseIdx_mid, FExtra.setContent, FExtra.setName, FExtra.blank]

theorem writeExtra_names (e : FExtra.Extra) : ∀ k ∈ writeExtra e, k.name = text "extra" := by
  intro k hk
  unfold writeExtra at hk
  split at hk
  · obtain ⟨t, -, ht⟩ := List.mem_filterMap.1 hk
    unfold writeType at ht
    split at ht
    · simp at ht
    · obtain rfl := Option.some.inj ht
      rfl
  · simp at hk

theorem hasContent_mid (A B : List FExtra.Tech) (x : FExtra.Tech) (n v : Text) (es : List FExtra.EType) : FExtra.hasContent (⟨[], A ++ addP n v x :: B⟩ :: es) = true := by
  obtain ⟨p, ⟨a, b, c, d⟩⟩ := x
  simp [FExtra.hasContent, addP, FExtra.addParameter, FExtra.Node.children]

theorem withTech_save {ts : List FExtra.Tech} (hd : (ts.map (·.profile)).Nodup) (hs : ∀ x ∈ ts, SaveTech x) :
    ((withTech ts).map (·.profile)).Nodup ∧ ∀ x ∈ withTech ts, SaveTech x := by
  unfold withTech
  split
  · exact ⟨hd, hs⟩
  · rename_i h
    refine ⟨?_, ?_⟩
    · rw [List.map_append, List.nodup_append]
      refine ⟨hd, by simp, ?_⟩
      intro a ha b hb
      simp only [List.map_cons, List.map_nil, List.mem_singleton] at hb
      subst hb
      rintro rfl
      exact h ha
    · intro x hx
      rcases List.mem_append.1 hx with hx | hx
      · exact hs x hx
      · rw [List.mem_singleton.1 hx]
        exact ⟨by unfold Plain FXml.IsChar; decide, rfl, by simp [FExtra.blank, FExtra.Node.children]⟩

theorem withTech_params {ts : List FExtra.Tech} (h : NoParams ts) : NoParams (withTech ts) := by
  unfold withTech
  split
  · exact h
  · intro t ht
    rcases List.mem_append.1 ht with ht | ht
    · exact h t ht
    · rw [List.mem_singleton.1 ht]
      simp [FExtra.blank, FExtra.Node.children]

theorem mid_save {A B : List FExtra.Tech} {x y : FExtra.Tech} (hp : y.profile = x.profile) (h : ((A ++ x :: B).map (·.profile)).Nodup ∧ ∀ t ∈ A ++ x :: B, SaveTech t) (hy : SaveTech y) :
    ((A ++ y :: B).map (·.profile)).Nodup ∧ ∀ t ∈ A ++ y :: B, SaveTech t := by
  refine ⟨by simpa [hp] using h.1, ?_⟩
  intro t ht
  rw [List.mem_append, List.mem_cons] at ht
  rcases ht with ht | rfl | ht
  · exact h.2 t (by simp [ht])
  · exact hy
  · exact h.2 t (by simp [ht])

theorem withoutTech_split {ts A B : List FExtra.Tech} {x : FExtra.Tech} (hd : (ts.map (·.profile)).Nodup) (hx : x.profile = text "FCOLLADA") (hA : text "FCOLLADA" ∉ A.map (·.profile))
    (h : ts = A ++ x :: B ∨ (ts = A ∧ x = ⟨text "FCOLLADA", FExtra.blank⟩ ∧ B = [])) :
    (if x.node.children = [] then A ++ B else A ++ x :: B) = withoutTech ts := by
  have hA' : ∀ t ∈ A, t.profile ≠ text "FCOLLADA" := fun t ht e => hA (e ▸ List.mem_map_of_mem ht)
  have fA : (A.filter fun t => decide (¬ (t.profile = text "FCOLLADA" ∧ t.node.children = []))) = A := by
    rw [List.filter_eq_self]
    intro t ht
    simp [hA' t ht]
  rcases h with rfl | ⟨rfl, rfl, rfl⟩
  · have hB : ∀ t ∈ B, t.profile ≠ text "FCOLLADA" := by
      intro t ht e
      rw [List.map_append, List.map_cons, List.nodup_append] at hd
      exact (List.nodup_cons.1 hd.2.1).1 (by rw [hx, ← e]; exact List.mem_map_of_mem ht)
    have fB : (B.filter fun t => decide (¬ (t.profile = text "FCOLLADA" ∧ t.node.children = []))) = B := by
      rw [List.filter_eq_self]
      intro t ht
      simp [hB t ht]
    unfold withoutTech
    rw [List.filter_append, fA, List.filter_cons, fB]
    by_cases hc : x.node.children = [] <;> simp [hc, hx]
  · unfold withoutTech
    rw [fA]
    simp [FExtra.blank, FExtra.Node.children]

/-- What is written for the extra tree, the note and the target, and how it is read back. -/
theorem extra_load (ts : List FExtra.Tech) (es : List FExtra.EType) (s : Ent) (hs : Saveable (⟨[], ts⟩ :: es)) (hp : NoParams ts) (hn : Plain s.note) (ht : Plain s.target) :
    ∃ ns, writeTargetExtra s.target s.note (⟨[], ts⟩ :: es) = some (ns, if s.note = [] ∧ s.target = [] then ⟨[], ts⟩ :: es else ⟨[], withoutTech ts⟩ :: es) ∧
      (∀ k ∈ ns, k.name = text "extra") ∧
      ∃ us, ns.foldlM loadEntExtra (FExtra.newExtra, []) = some (us, s.note) ∧
        ∃ vs es', us = ⟨[], vs⟩ :: es' ∧ (match takeTarget vs with
          | none => (us, [])
          | some (t, ws) => (⟨[], ws⟩ :: es', t)) = (extraAfter s ts es, if s.target = [] then [] else 35 :: s.target) := by
  have p2 : (ts.map (·.profile)).Nodup := (hs.2.2 _ (List.mem_cons_self ..)).2.1
  have p3 : ∀ x ∈ ts, SaveTech x := (hs.2.2 _ (List.mem_cons_self ..)).2.2
  obtain ⟨A, x, B, h1, h2, h3, h4, h5⟩ := withTech_split ts
  have hW := withTech_save p2 p3
  have hP := withTech_params hp
  rw [h1] at hW hP
  have hxs : SaveTech x := hW.2 x (by simp)
  have hpos := withoutTech_split p2 h2 h3 h5
  have ht' : Plain (35 :: s.target) := plain_cons (by unfold FXml.IsChar; decide) ht
  by_cases e2 : s.target = []
  · rw [e2]
    unfold writeTargetExtra
    rw [if_pos rfl]
    unfold writeEntityExtra
    by_cases e1 : s.note = []
    · rw [e1, if_pos rfl]
      refine ⟨writeExtra (⟨[], ts⟩ :: es), by simp, writeExtra_names _, ?_⟩
      have hc := takeNotes_clean [] ts (clean_of_params hp)
      by_cases hcont : FExtra.hasContent (⟨[], ts⟩ :: es) = true
      · refine ⟨_, loadEntExtras_all ts ts es [] [] hs hcont hc (fun _ => rfl) (clean_of_params hp), ts, es, rfl, ?_⟩
        rw [takeTarget_none ts fun t ht c hc => (hp t ht c hc).1]
        simp [extraAfter, e1, e2, hcont]
      · refine ⟨FExtra.newExtra, ?_, [], [], rfl, ?_⟩
        · rw [extra_empty _ (by simpa using hcont)]; rfl
        · rw [takeTarget_none [] (by simp)]
          simp [extraAfter, e1, e2, hcont]
    · rw [if_neg e1, onDefault_head, Option.bind_some, pushParam_split _ _ h4, onDefault_head, popParam_mid A B x _ _ h2 h3, Option.map_some, hpos]
      refine ⟨writeExtra (⟨[], A ++ addP (text "user_properties") s.note x :: B⟩ :: es), by simp [e1], writeExtra_names _, ?_⟩
      have hm := mid_save (x := x) (y := addP (text "user_properties") s.note x) rfl hW (addP_save _ _ validName_target.2 hn hxs)
      refine ⟨_, loadEntExtras_all _ (A ++ x :: B) es [] s.note (saveable_head hs _ hm.1 hm.2) (hasContent_mid ..) (takeNotes_note A B x s.note [] h2 h3 (clean_of_params hP)) (by simp)
        (clean_of_params hP), A ++ x :: B, es, rfl, ?_⟩
      rw [takeTarget_none _ fun t ht c hc => (hP t ht c hc).1]
      simp [extraAfter, e1, e2, h1]
  · unfold writeTargetExtra
    rw [if_neg e2, onDefault_head, Option.bind_some, pushParam_split _ _ h4]
    unfold writeEntityExtra
    have hm := mid_save (x := x) (y := addP (text "target") (35 :: s.target) x) rfl hW (addP_save _ _ validName_target.1 ht' hxs)
    have hx' : (addP (text "target") (35 :: s.target) x).profile = text "FCOLLADA" := h2
    have hcl : ∀ t ∈ A ++ addP (text "target") (35 :: s.target) x :: B, (t.profile = text "MAYA" ∨ t.profile = text "MAX3D" ∨ t.profile = text "FCOLLADA") → Clean t := by
      intro t ht hpr
      have hq := clean_of_params hP
      rw [List.mem_append, List.mem_cons] at ht
      rcases ht with ht | rfl | ht
      · exact hq t (by simp [ht]) hpr
      · have hq := hq x (by simp) (.inr (.inr h2))
        have hnn : FExtra.cleanName (text "target") = text "target" := by decide +kernel
        intro c hc
        obtain ⟨p, ⟨a, b, c', d⟩⟩ := x
        simp only [addP, FExtra.addParameter, FExtra.Node.children, List.mem_append, List.mem_singleton] at hc
        rcases hc with hc | rfl
        · exact hq c hc
        · simp [isNote, FExtra.setContent, FExtra.setName, FExtra.blank, FExtra.Node.name, hnn, text_inj]
      · exact hq t (by simp [ht]) hpr
    by_cases e1 : s.note = []
    · rw [e1, if_pos rfl, Option.bind_some, onDefault_head, popParam_mid A B x _ _ h2 h3, Option.map_some, hpos]
      refine ⟨writeExtra (⟨[], A ++ addP (text "target") (35 :: s.target) x :: B⟩ :: es), by simp [e2], writeExtra_names _, ?_⟩
      refine ⟨_, loadEntExtras_all _ _ es [] [] (saveable_head hs _ hm.1 hm.2) (hasContent_mid ..) (takeNotes_clean [] _ hcl) (by simp) hcl, _, es, rfl, ?_⟩
      rw [takeTarget_mid A B x _ fun t ht c hc => (hP t ht c hc).1]
      simp [extraAfter, e2, h1]
    · rw [if_neg e1, onDefault_head, Option.bind_some, pushParam_mid A B _ _ _ hx' h3, onDefault_head, popParam_mid A B _ _ _ hx' h3, Option.map_some, Option.bind_some]
      have hne : ¬ (addP (text "target") (35 :: s.target) x).node.children = [] := by
        obtain ⟨p, ⟨a, b, c', d⟩⟩ := x
        simp [addP, FExtra.addParameter, FExtra.Node.children]
      rw [if_neg hne, onDefault_head, popParam_mid A B x _ _ h2 h3, Option.map_some, hpos]
      refine ⟨writeExtra (⟨[], A ++ addP (text "user_properties") s.note (addP (text "target") (35 :: s.target) x) :: B⟩ :: es), by simp [e1], writeExtra_names _, ?_⟩
      have hm2 := mid_save (x := addP (text "target") (35 :: s.target) x) (y := addP (text "user_properties") s.note (addP (text "target") (35 :: s.target) x)) rfl hm (addP_save _ _ validName_target.2 hn (hm.2 _ (by simp)))
      refine ⟨_, loadEntExtras_all _ _ es [] s.note (saveable_head hs _ hm2.1 hm2.2) (hasContent_mid ..) (takeNotes_note A B _ s.note [] hx' h3 hcl) (by simp) hcl, _, es, rfl, ?_⟩
      rw [takeTarget_mid A B x _ fun t ht c hc => (hP t ht c hc).1]
      simp [extraAfter, e2, h1]

theorem givenName_good {id name : Text} (h1 : Plain id) (h2 : FXml.ValidId false name) : givenName id name = some (nameAfter id name) := by
  unfold givenName nameAfter
  rw [clean_good h2, Option.bind_some]
  split
  · exact FLib.cleanSubId_eq _ fun h => (h1 0 h).1.2.2 rfl
  · rfl

end Verif.FArc
