import Verif.ArcCamSpec
import Verif.ArcEntityProps

/-! # Lemmas for the properties of saved cameras -/

namespace Verif.FArc

open Verif.FEff (Text text)
open Verif.FConv (Ov DateTime Formats shown)

theorem writeTargetExtra_names {target note : Text} {e : FExtra.Extra} {r} (h : writeTargetExtra target note e = some r) : ∀ k ∈ r.1, k.name = text "extra" := by
  have hw : ∀ e r, writeEntityExtra note e = some r → ∀ k ∈ r.1, k.name = text "extra" := by
    intro e r h
    unfold writeEntityExtra at h
    split at h
    · obtain rfl := Option.some.inj h
      exact writeExtra_names _
    · obtain ⟨e1, -, h⟩ := Option.bind_eq_some_iff.1 h
      obtain ⟨e2, -, rfl⟩ := Option.map_eq_some_iff.1 h
      exact writeExtra_names _
  unfold writeTargetExtra at h
  split at h
  · exact hw _ _ h
  · obtain ⟨e1, -, h⟩ := Option.bind_eq_some_iff.1 h
    obtain ⟨e2, h2, h⟩ := Option.bind_eq_some_iff.1 h
    obtain ⟨e3, -, rfl⟩ := Option.map_eq_some_iff.1 h
    exact hw e1 e2 h2

/-- The element of an entity. -/
theorem writeEnt_shape {ov : Ov} {fmt now elem s mid r} (h : writeEnt ov fmt now elem s mid = some r) :
    r.1.name = elem ∧ ∀ ty, ty ≠ text "asset" → ty ≠ text "extra" → r.1.child ty = mid.find? fun c => decide (c.name = ty) := by
  unfold writeEnt at h
  obtain ⟨a, ha, h⟩ := Option.bind_eq_some_iff.1 h
  obtain ⟨x, hx, rfl⟩ := Option.map_eq_some_iff.1 h
  refine ⟨rfl, fun ty h1 h2 => ?_⟩
  have hA : ∀ k ∈ a.1, k.name = text "asset" := by
    unfold writeEntAsset at ha
    split at ha
    · obtain rfl := Option.some.inj ha; simp
    · obtain ⟨q, hq, rfl⟩ := Option.map_eq_some_iff.1 ha
      unfold writeAsset at hq
      obtain ⟨cs, -, rfl⟩ := Option.map_eq_some_iff.1 hq
      intro k hk
      rw [List.mem_singleton.1 hk]; rfl
  unfold Node.child
  simp only [Node.kids, List.find?_append]
  have e1 : a.1.find? (fun c => decide (c.name = ty)) = none := List.find?_eq_none.2 fun k hk => by simpa [hA k hk] using fun e => h1 e.symm
  have e2 : x.1.find? (fun c => decide (c.name = ty)) = none := List.find?_eq_none.2 fun k hk => by simpa [writeTargetExtra_names hx k hk] using fun e => h2 e.symm
  rw [e1, e2]
  simp

/-- An element without techniques adds nothing to the extra tree. -/
theorem loadExtra_none (ts : List FExtra.Tech) (es : List FExtra.EType) (n : Node) (hn : n.name ≠ text "extra") (ht : n.children (text "technique") = []) :
    loadExtra (⟨[], ts⟩ :: es) n = some (⟨[], ts⟩ :: es) := by
  unfold loadExtra typeFor
  rw [if_neg hn, findType_head, Option.map_some, Option.bind_some]
  simp [loadType, ht]

theorem nearZero_iff (x : ℚ) : FEnt.nearZero tolerance x = decide (|x| < tolerance) := by
  unfold FEnt.nearZero
  rw [Bool.eq_iff_iff]
  simp only [Bool.and_eq_true, decide_eq_true_eq, abs_lt, neg_lt]
  exact and_comm

/-- The values are read back. -/
theorem camValues_load (ov : Ov) {fmt rnd} (hf : Formats fmt rnd) (c d : Cam) (hd : d.view = FEnt.newView)
    (hz : c.view.hasX = true → c.view.hasY = true → shown rnd c.view.y = 0 → |shown rnd c.view.x| < tolerance) (n : Text) :
    (paramsOf (.elem n [] [] (camValues fmt c))).foldlM (camParam ov) d = some { d with view := viewAfter rnd c.view, near := shown rnd c.near, far := shown rnd c.far } := by
  have hp : paramsOf (.elem n [] [] (camValues fmt c)) = camValues fmt c := by
    refine List.filter_eq_self.2 fun k hk => ?_
    have : k.name ∈ [(camNames c.ortho).2.1, (camNames c.ortho).2.2, text "aspect_ratio", text "znear", text "zfar"] := by
      simp only [Node.kids, camValues, List.mem_append, List.mem_ite_nil_right, List.mem_cons, List.not_mem_nil, or_false] at hk
      rcases hk with ((⟨-, rfl⟩ | ⟨-, rfl⟩) | ⟨-, rfl⟩) | rfl | rfl <;> simp [valueChild, Node.name]
    cases ho : c.ortho <;> simp only [ho, camNames, if_true, if_false, Bool.false_eq_true, List.mem_cons, List.not_mem_nil, or_false] at this <;> rcases this with e | e | e | e | e <;> rw [e] <;> simp [text_inj]
  have hx : ∀ (d : Cam) q, camParam ov d (valueChild (camNames c.ortho).2.1 (numText fmt q)) = (d.view.set tolerance (.fovX (shown rnd q))).map fun w => { d with view := w } := by
    intro d q
    cases c.ortho <;> simp [camParam, camNames, valueChild, Node.name, Node.direct, text_inj, readNum_numText ov hf]
  have hy : ∀ (d : Cam) q, camParam ov d (valueChild (camNames c.ortho).2.2 (numText fmt q)) = (d.view.set tolerance (.fovY (shown rnd q))).map fun w => { d with view := w } := by
    intro d q
    cases c.ortho <;> simp [camParam, camNames, valueChild, Node.name, Node.direct, text_inj, readNum_numText ov hf]
  have ha : ∀ (d : Cam) q, camParam ov d (valueChild (text "aspect_ratio") (numText fmt q)) = some { d with view := { d.view with aspect := shown rnd q } } := by
    intro d q
    simp [camParam, valueChild, Node.name, Node.direct, text_inj, readNum_numText ov hf, FEnt.View.set]
  have hn : ∀ (d : Cam) q, camParam ov d (valueChild (text "znear") (numText fmt q)) = some { d with near := shown rnd q } := by
    intro d q
    simp [camParam, valueChild, Node.name, Node.direct, readNum_numText ov hf]
  have hfar : ∀ (d : Cam) q, camParam ov d (valueChild (text "zfar") (numText fmt q)) = some { d with far := shown rnd q } := by
    intro d q
    simp [camParam, valueChild, Node.name, Node.direct, text_inj, readNum_numText ov hf]
  rw [hp]
  unfold camValues viewAfter
  cases h1 : c.view.hasX <;> cases h2 : c.view.hasY
  · simp [List.foldlM_cons, hy, ha, hn, hfar, hd, FEnt.View.set, FEnt.ratio, FEnt.newView]
  · simp [List.foldlM_cons, hy, ha, hn, hfar, hd, FEnt.View.set, FEnt.ratio, FEnt.newView]
  · simp [List.foldlM_cons, hx, ha, hn, hfar, hd, FEnt.View.set, FEnt.ratio, FEnt.newView]
  · by_cases hs : |shown rnd c.view.x| < tolerance
    · simp [List.foldlM_cons, hx, hy, hn, hfar, hd, FEnt.View.set, FEnt.ratio, FEnt.newView, nearZero_iff, hs, not_le.2 hs]
    · have : ¬ shown rnd c.view.y = 0 := fun e => hs (hz h1 h2 e)
      simp [List.foldlM_cons, hx, hy, hn, hfar, hd, FEnt.View.set, FEnt.ratio, FEnt.newView, nearZero_iff, not_lt.1 hs, hs, this]

end Verif.FArc
