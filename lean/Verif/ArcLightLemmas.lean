import Verif.ArcLightSpec
import Verif.ArcCamLemmas
import Verif.ArcSceneLemmas

/-! # Lemmas for the properties of saved lights -/

namespace Verif.FArc

open Verif.FEff (Text text)
open Verif.FConv (Ov DateTime Formats shown)

/-! ## Added parameters -/

/-- A technique with more parameters. -/
def addPs (ps : List (Text × Text)) (x : FExtra.Tech) : FExtra.Tech := ps.foldl (fun t p => addP p.1 p.2 t) x

/-- The node of a parameter. -/
def paramOf (p : Text × Text) : FExtra.Node := .mk (FExtra.cleanName p.1) p.2 [] []

theorem addPs_profile : ∀ (ps : List (Text × Text)) (x : FExtra.Tech), (addPs ps x).profile = x.profile
  | [], _ => rfl
  | p :: ps, x => by rw [addPs, List.foldl_cons]; exact addPs_profile ps _

theorem addPs_eq : ∀ (ps : List (Text × Text)) (x : FExtra.Tech), addPs ps x = onKids (fun cs => cs ++ ps.map paramOf) x
  | [], ⟨p, ⟨a, b, c, d⟩⟩ => by simp [addPs, onKids, FExtra.Node.name, FExtra.Node.content, FExtra.Node.attrs, FExtra.Node.children]
  | q :: ps, ⟨p, ⟨a, b, c, d⟩⟩ => by
    have := addPs_eq ps (addP q.1 q.2 ⟨p, ⟨a, b, c, d⟩⟩)
    rw [addPs, List.foldl_cons]
    rw [addPs] at this
    rw [this]
    unfold onKids
    rw [addP_children]
    simp only [addP, FExtra.addParameter, FExtra.Node.name, FExtra.Node.content, FExtra.Node.attrs, FExtra.Node.children, List.map_cons, List.append_assoc]
    rfl

theorem addPs_children (ps : List (Text × Text)) (x : FExtra.Tech) : (addPs ps x).node.children = x.node.children ++ ps.map paramOf := by
  rw [addPs_eq]; rfl

theorem pushParams_mid : ∀ (ps : List (Text × Text)) (A B : List FExtra.Tech) (x : FExtra.Tech), x.profile = text "FCOLLADA" → text "FCOLLADA" ∉ A.map (·.profile) →
    pushParams ps (A ++ x :: B) = A ++ addPs ps x :: B
  | [], _, _, _, _, _ => rfl
  | p :: ps, A, B, x, hx, hA => by
    rw [pushParams, List.foldl_cons, pushParam_mid A B x _ _ hx hA]
    exact pushParams_mid ps A B _ hx hA

theorem pushParams_split {ts A B : List FExtra.Tech} {x : FExtra.Tech} (p : Text × Text) (ps : List (Text × Text)) (h : FExtra.addTechnique ts (text "FCOLLADA") = (A ++ x :: B, A.length))
    (hx : x.profile = text "FCOLLADA") (hA : text "FCOLLADA" ∉ A.map (·.profile)) : pushParams (p :: ps) ts = A ++ addPs (p :: ps) x :: B := by
  rw [pushParams, List.foldl_cons, pushParam_split _ _ h]
  exact pushParams_mid ps A B _ hx hA

theorem popParams_mid (ps : List (Text × Text)) (A B : List FExtra.Tech) (x : FExtra.Tech) (hx : x.profile = text "FCOLLADA") (hA : text "FCOLLADA" ∉ A.map (·.profile)) :
    popParams ps.length (A ++ addPs ps x :: B) = if x.node.children = [] then A ++ B else A ++ x :: B := by
  unfold popParams
  rw [findTechnique_at A B (addPs ps x) _ (by rw [addPs_profile, hx]) hA]
  have hm : ({ addPs ps x with node := .mk (addPs ps x).node.name (addPs ps x).node.content (addPs ps x).node.attrs ((addPs ps x).node.children.take ((addPs ps x).node.children.length - ps.length)) } :
      FExtra.Tech) = x := by
    rw [addPs_eq]
    obtain ⟨p, ⟨a, b, c, d⟩⟩ := x
    simp [onKids, FExtra.Node.name, FExtra.Node.content, FExtra.Node.attrs, FExtra.Node.children]
  simp only [modify_mid, getElem_mid, eraseIdx_mid, hm]
  cases x.node.children <;> simp

theorem lightNames_valid : ∀ n ∈ lightNames, FExtra.cleanName n = n ∧ FExtra.ValidName n := by
  have h : ∀ n ∈ lightNames, FExtra.cleanName n = n ∧ n ≠ [] := by decide +kernel
  intro n hn
  refine ⟨(h n hn).1, ?_⟩
  rw [← (h n hn).1]
  exact FExtra.valid_cleanName _ (h n hn).2

theorem addPs_save : ∀ (ps : List (Text × Text)) (x : FExtra.Tech), (∀ p ∈ ps, FExtra.ValidName p.1 ∧ Plain p.2) → SaveTech x → SaveTech (addPs ps x)
  | [], _, _, h => h
  | p :: ps, x, hp, h => by
    rw [addPs, List.foldl_cons]
    exact addPs_save ps _ (fun q hq => hp q (by simp [hq])) (addP_save _ _ (hp p (by simp)).1 (hp p (by simp)).2 h)

/-- The parameters of a light. -/
theorem lightParams_ok {fmt rnd} (hf : Formats fmt rnd) (l : Light) : ∀ p ∈ lightParams fmt l, p.1 ∈ lightNames ∧ Plain p.2 := by
  intro p hp
  unfold lightParams at hp
  simp only [List.mem_append, List.mem_ite_nil_right, List.mem_cons, List.not_mem_nil, or_false] at hp
  rcases hp with ((⟨-, rfl | rfl | rfl | rfl | rfl⟩ | rfl) | ⟨-, rfl⟩) | ⟨-, rfl⟩ <;> exact ⟨by simp [lightNames], numText_plain hf _⟩

/-! ## The element -/

theorem readV3_vecText (ov : Ov) {fmt rnd} (hf : Formats fmt rnd) (v : V3) : readV3 ov (vecText fmt v) = some (shown rnd v.1, shown rnd v.2.1, shown rnd v.2.2) := by
  obtain ⟨t, h1, -, h3⟩ := FConv.vector_roundtrip ov hf [v.1, v.2.1, v.2.2] (by simp)
  have h := (h3 []).1 (by simp)
  unfold readV3 vecText numsText
  rw [h1, Option.getD_some]
  simp only [List.length_cons, List.length_nil, Nat.zero_add, Nat.reduceAdd] at h
  rw [h]
  rfl

theorem kindOf_name (k : LKind) : kindOf k.name = some k := by
  cases k <;> simp [kindOf, LKind.name, text_inj]

/-- The values in the element are read back. -/
theorem lightValues_load (ov : Ov) {fmt rnd} (hf : Formats fmt rnd) (l d : Light) :
    loadLightValues ov d (.elem (text "technique_common") [] [] [.elem l.kind.name [] [] (lightValues fmt l)]) =
      some { d with
        kind := l.kind
        color := (shown rnd l.color.1, shown rnd l.color.2.1, shown rnd l.color.2.2)
        constAtt := if l.kind = .point ∨ l.kind = .spot then shown rnd l.constAtt else d.constAtt
        linAtt := if l.kind = .point ∨ l.kind = .spot then shown rnd l.linAtt else d.linAtt
        quadAtt := if l.kind = .point ∨ l.kind = .spot then shown rnd l.quadAtt else d.quadAtt
        fallExp := if l.kind = .spot then shown rnd l.fallExp else d.fallExp
        fallAngle := if l.kind = .spot then shown rnd l.fallAngle else d.fallAngle } := by
  have hp : paramsOf (.elem l.kind.name [] [] (lightValues fmt l)) = lightValues fmt l := by
    refine List.filter_eq_self.2 fun k hk => ?_
    simp only [Node.kids, lightValues, List.mem_append, List.mem_ite_nil_right, List.mem_cons, List.not_mem_nil, or_false] at hk
    rcases hk with (rfl | ⟨-, rfl | rfl | rfl⟩) | ⟨-, rfl | rfl⟩ <;> simp [valueChild, textChild, Node.name, text_inj]
  have hc : ∀ (d : Light), lightParam ov d (textChild (text "color") (vecText fmt l.color)) = some { d with color := (shown rnd l.color.1, shown rnd l.color.2.1, shown rnd l.color.2.2) } := by
    intro d
    have : encode (vecText fmt l.color) = vecText fmt l.color := encode_nums hf _
    simp [lightParam, textChild, Node.name, Node.direct, this, readV3_vecText ov hf]
  unfold loadLightValues
  simp only [Node.kids, List.find?_cons, Node.name, kindOf_name, Option.isSome_some, Option.getD_some, hp]
  unfold lightValues
  cases l.kind <;> simp [List.foldlM_cons, hc] <;> simp [lightParam, valueChild, Node.name, Node.direct, text_inj, readNum_numText ov hf]

/-! ## The extra tree -/

theorem onKids_id {f : List FExtra.Node → List FExtra.Node} {t : FExtra.Tech} (h : f t.node.children = t.node.children) : onKids f t = t := by
  obtain ⟨p, ⟨a, b, c, d⟩⟩ := t
  unfold onKids
  simp only [FExtra.Node.children] at h
  simp [FExtra.Node.name, FExtra.Node.content, FExtra.Node.attrs, FExtra.Node.children, h]

theorem notTaken {c : FExtra.Node} (h : c.name ∉ lightNames) : lightTaken c = false := by simp [lightTaken, h]

theorem loadLightExtra_eq (ov : Ov) {fmt rnd} (hf : Formats fmt rnd) (l d : Light) (A B : List FExtra.Tech) (x : FExtra.Tech) (es : List FExtra.EType)
    (hd : d.ent.extra = ⟨[], A ++ addPs (lightParams fmt l) x :: B⟩ :: es) (hn : NoLightParams (A ++ x :: B)) :
    loadLightExtra ov d = some { d with
      ent := { d.ent with extra := ⟨[], A ++ x :: B⟩ :: es }
      intensity := shown rnd l.intensity
      constAtt := if l.kind = .directional then shown rnd l.constAtt else d.constAtt
      linAtt := if l.kind = .directional then shown rnd l.linAtt else d.linAtt
      quadAtt := if l.kind = .directional then shown rnd l.quadAtt else d.quadAtt
      fallExp := if l.kind = .directional then shown rnd l.fallExp else d.fallExp
      fallAngle := if l.kind = .directional then shown rnd l.fallAngle else d.fallAngle
      outer := if l.kind = .directional ∨ l.kind = .spot then shown rnd l.outer else d.outer
      dropoff := if l.kind = .spot then shown rnd l.dropoff else d.dropoff } := by
  have hps : ∀ p ∈ lightParams fmt l, lightTaken (paramOf p) = true ∧ paramOf p = .mk p.1 p.2 [] [] := by
    intro p hp
    obtain ⟨h1, -⟩ := lightParams_ok hf l p hp
    have h2 := (lightNames_valid _ h1).1
    unfold paramOf
    rw [h2]
    simp [lightTaken, FExtra.Node.children, FExtra.Node.name, h1]
  have hflat : ∀ ts : List FExtra.Tech, (∀ t ∈ ts, ∀ c ∈ t.node.children, c.name ∉ lightNames ∧ c.name ≠ text "penumbra_angle") → (ts.flatMap fun t => t.node.children.filter lightTaken) = [] := by
    intro ts h
    rw [List.flatMap_eq_nil_iff]
    intro t ht
    rw [List.filter_eq_nil_iff]
    intro c hc
    simp [notTaken (h t ht c hc).1]
  have hA : ∀ t ∈ A, ∀ c ∈ t.node.children, c.name ∉ lightNames ∧ c.name ≠ text "penumbra_angle" := fun t ht => hn t (by simp [ht])
  have hB : ∀ t ∈ B, ∀ c ∈ t.node.children, c.name ∉ lightNames ∧ c.name ≠ text "penumbra_angle" := fun t ht => hn t (by simp [ht])
  have hx := hn x (by simp)
  have hmap : (lightParams fmt l).map paramOf = (lightParams fmt l).map fun p => .mk p.1 p.2 [] [] := List.map_congr_left fun p hp => (hps p hp).2
  have h1 : ((A ++ addPs (lightParams fmt l) x :: B).flatMap fun t => t.node.children.filter lightTaken) = (lightParams fmt l).map fun p => .mk p.1 p.2 [] [] := by
    rw [List.flatMap_append, List.flatMap_cons, hflat A hA, hflat B hB, addPs_children, List.filter_append]
    have e1 : x.node.children.filter lightTaken = [] := by
      rw [List.filter_eq_nil_iff]
      intro c hc
      simp [notTaken (hx c hc).1]
    have e2 : ((lightParams fmt l).map paramOf).filter lightTaken = (lightParams fmt l).map paramOf := by
      rw [List.filter_eq_self]
      intro c hc
      obtain ⟨p, hp, rfl⟩ := List.mem_map.1 hc
      exact (hps p hp).1
    rw [e1, e2, hmap]
    simp
  have hk : ∀ t : FExtra.Tech, (∀ c ∈ t.node.children, c.name ∉ lightNames ∧ c.name ≠ text "penumbra_angle") → onKids (fun cs => cs.filter fun x => !lightTaken x) t = t := by
    intro t ht
    refine onKids_id (List.filter_eq_self.2 fun c hc => ?_)
    simp [notTaken (ht c hc).1]
  have hks : ∀ ts : List FExtra.Tech, (∀ t ∈ ts, ∀ c ∈ t.node.children, c.name ∉ lightNames ∧ c.name ≠ text "penumbra_angle") → ts.map (onKids fun cs => cs.filter fun x => !lightTaken x) = ts := by
    intro ts h
    have := List.map_congr_left (f := onKids fun cs => cs.filter fun x => !lightTaken x) (g := id) fun t ht => hk t (h t ht)
    rw [this, List.map_id]
  have h2 : (A ++ addPs (lightParams fmt l) x :: B).map (onKids fun cs => cs.filter fun x => !lightTaken x) = A ++ x :: B := by
    rw [List.map_append, List.map_cons, hks A hA, hks B hB]
    congr 2
    have e2 : ((lightParams fmt l).map paramOf).filter (fun x => !lightTaken x) = [] := by
      rw [List.filter_eq_nil_iff]
      intro c hc
      obtain ⟨p, hp, rfl⟩ := List.mem_map.1 hc
      simp [(hps p hp).1]
    have := hk x hx
    rw [addPs_eq]
    unfold onKids at this ⊢
    simp only [FExtra.Node.name, FExtra.Node.content, FExtra.Node.attrs, FExtra.Node.children, List.filter_append, e2, List.append_nil]
    exact this
  have h3 : ∀ l, takePenumbra ov l (A ++ x :: B) = some (l, A ++ x :: B) := by
    intro l
    have : ((A ++ x :: B).flatMap fun t => t.node.children.filter isPenumbra) = [] := by
      rw [List.flatMap_eq_nil_iff]
      intro t ht
      rw [List.filter_eq_nil_iff]
      intro c hc
      simp [isPenumbra, (hn t ht c hc).2]
    unfold takePenumbra
    rw [this]
    rfl
  unfold loadLightExtra
  rw [hd, defaultTechs_head, Option.bind_some, h1, h2]
  simp only [h3, Option.bind_some]
  have he : ∀ (d : Light) (n : Text) q, lightExtra ov d (.mk n (numText fmt q) [] []) = some (
    if n = text "falloff_exponent" then { d with fallExp := shown rnd q }
    else if n = text "falloff_angle" then { d with fallAngle := shown rnd q }
    else if n = text "constant_attenuation" then { d with constAtt := shown rnd q }
    else if n = text "linear_attenuation" then { d with linAtt := shown rnd q }
    else if n = text "quadratic_attenuation" then { d with quadAtt := shown rnd q }
    else if n = text "intensity" then { d with intensity := shown rnd q }
    else if n = text "outer_cone" then { d with outer := shown rnd q }
    else { d with dropoff := shown rnd q }) := by
    intro d n q
    unfold lightExtra
    rw [show (FExtra.Node.mk n (numText fmt q) [] []).content = numText fmt q from rfl, readNum_numText ov hf]
    rfl
  have hfold : ((lightParams fmt l).map fun p => FExtra.Node.mk p.1 p.2 [] []).foldlM (lightExtra ov) d = some { d with
      intensity := shown rnd l.intensity
      constAtt := if l.kind = .directional then shown rnd l.constAtt else d.constAtt
      linAtt := if l.kind = .directional then shown rnd l.linAtt else d.linAtt
      quadAtt := if l.kind = .directional then shown rnd l.quadAtt else d.quadAtt
      fallExp := if l.kind = .directional then shown rnd l.fallExp else d.fallExp
      fallAngle := if l.kind = .directional then shown rnd l.fallAngle else d.fallAngle
      outer := if l.kind = .directional ∨ l.kind = .spot then shown rnd l.outer else d.outer
      dropoff := if l.kind = .spot then shown rnd l.dropoff else d.dropoff } := by
    unfold lightParams
    cases l.kind <;> simp [List.foldlM_cons, he, text_inj]
  rw [hfold, Option.bind_some, hd, onDefault_head, Option.map_some]

end Verif.FArc
