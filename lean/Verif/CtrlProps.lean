import Verif.CtrlAux
import Verif.CtrlSteps

/-!
# Properties of controllers (C107, C108)
-/

namespace Verif.FCtrl

/-! ## A concrete document: geometries 0 and 1, a skin 2 on 0, a morpher 3 on the skin with the target 1 -/

/-! ## C107 -/

/-- **C107**: a legal call on geometries, controllers, skins and morphers ends. -/
theorem calls_end_partial {w : World} (h : Reach w) {op : Op} (hl : Legal w op) : ∃ w', Steps w op w' := by
  obtain ⟨w', hs, _⟩ := h.inv.step hl
  exact ⟨w', hs⟩

example : ∃ w', Steps demo (.release 0) w' := calls_end_partial demo_reach rfl

/-- **C107**: `GetBaseGeometry` ends and returns the geometry at the end of the chain of controllers, if there is one. -/
theorem base_geometry_partial {w : World} (h : Reach w) (c : Nat) (hc : IsCtrl w c) :
    ∃ r, (∃ N, ∀ n ≥ N, baseGeometry w n c = some r) ∧ ∀ g, r = some g ↔ Bottom w c g := by
  obtain ⟨r, N, hN⟩ := h.inv.follow_ends (baseTarget w c) fun x hx => baseTarget_alive h.inv c x hx
  refine ⟨r, ⟨N, hN⟩, fun g => ?_⟩
  obtain ⟨k, hk⟩ := hc
  have : follow w (N + 1) (some c) = some r := by
    rw [follow, hk]
    exact hN N (Nat.le_refl _)
  exact follow_iff this g

example : ∃ N, ∀ n ≥ N, baseGeometry demo n 3 = some (some 0) := by
  obtain ⟨r, hN, hr⟩ := base_geometry_partial demo_reach 3 ⟨_, rfl⟩
  rw [(hr 0).mpr demo_bottom] at hN
  exact hN

/-- **C107**: `GetBaseGeometryController` ends and returns the controller of the chain that is directly on a geometry, if there is one. -/
theorem base_geometry_controller_partial {w : World} (h : Reach w) (c : Nat) :
    ∃ r, (∃ N, ∀ n ≥ N, baseGeometryController w n c = some r) ∧ ∀ p, r = some p ↔ Above w c p ∧ ∃ g, On w p g ∧ IsGeom w g := by
  have i := h.inv
  obtain ⟨rk, hr⟩ := i.rank
  have ends : ∃ r N, ∀ n ≥ N, followController w n c (baseTarget w c) = some r := by
    cases hb : baseTarget w c with
    | none => exact ⟨none, 0, fun n _ => by simp [followController]⟩
    | some x =>
      obtain ⟨r, hx⟩ := followController_total i.alive hr (rk x + 1) c x (baseTarget_alive i c x hb) (by omega)
      exact ⟨r, rk x + 1, fun n hn => followController_le w hn hx⟩
  obtain ⟨r, N, hN⟩ := ends
  refine ⟨r, ⟨N, hN⟩, fun p => ⟨?_, ?_⟩⟩
  · rintro rfl
    cases hb : baseTarget w c with
    | none => have := hN N (Nat.le_refl _); rw [hb] at this; simp [followController] at this
    | some x =>
      have := hN N (Nat.le_refl _)
      rw [hb] at this
      exact followController_some w N c x p ((on_iff w c x).mpr hb) this
  · rintro ⟨ha, g, ho, hg⟩
    obtain ⟨m, hm⟩ := followController_of ha ho hg
    exact followController_det (hN N (Nat.le_refl _)) hm

example : ∃ N, ∀ n ≥ N, baseGeometryController demo n 3 = some (some 2) := by
  obtain ⟨r, hN, hr⟩ := base_geometry_controller_partial demo_reach 3
  rw [(hr 2).mpr ⟨.single (Or.inr ⟨_, rfl⟩), 0, Or.inl ⟨4, rfl⟩, ⟨_, rfl⟩⟩] at hN
  exact hN

/-- **C107**: the search for a skin ends; it returns the first controller of the chain with a skin: every other one of the chain is below it; and nothing if there
is none. -/
theorem find_skin_partial {w : World} (h : Reach w) (x : Nat) (hx : (w x).isSome) :
    ∃ r, (∃ N, ∀ n ≥ N, findSkin w n (some x) = some r) ∧ (∀ s, r = some s → Above w x s ∧ IsSkin w s ∧ ∀ y, Above w x y → IsSkin w y → Above w s y) ∧
      (r = none → ∀ s, Above w x s → ¬ IsSkin w s) := by
  have i := h.inv
  obtain ⟨rk, hr⟩ := i.rank
  obtain ⟨r, hx⟩ := findSkin_total i.alive hr (rk x + 1) x hx (by omega)
  refine ⟨r, ⟨rk x + 1, fun n hn => findSkin_le w hn hx⟩, ?_, ?_⟩
  · rintro s rfl
    obtain ⟨ha, hs, hf⟩ := findSkin_some w _ x s hx
    refine ⟨ha, hs, fun y hy hsk => ?_⟩
    -- two of the same chain are ordered
    have total : Above w y s ∨ Above w s y := by
      have key : ∀ a, Above w a s → ∀ b, Above w a b → Above w b s ∨ Above w s b := by
        intro a has
        induction has using Relation.ReflTransGen.head_induction_on with
        | refl => intro b hb; exact Or.inr hb
        | @head a a' haa' ha's ih =>
          intro b hb
          rcases Relation.ReflTransGen.cases_head hb with rfl | ⟨z, hz, hzb⟩
          · exact Or.inl (.head haa' ha's)
          · rw [← on_det haa' hz] at hzb
            exact ih b hzb
      exact key x ha y hy
    rcases total with hys | hsy
    · exact hf y hy hys hsk
    · exact hsy
  · rintro rfl
    exact findSkin_none w _ x hx

example : ∃ N, ∀ n ≥ N, findSkin demo n (some 3) = some (some 2) := ⟨2, fun n hn => by
  obtain ⟨m, rfl⟩ : ∃ m, n = m + 2 := ⟨n - 2, by omega⟩
  rfl⟩

/-- **C107**: `SetTarget` with an entity that has a geometry at its end stores it and gives the skin as many influences as the geometry has vertices; with
another one it changes nothing that can be observed. -/
theorem set_target_partial {w : World} (h : Reach w) (c : Nat) (t : Option Nat) (k x : Nat) (hc : w c = some (.ctrl (.skin t k))) (hx : (w x).isSome) :
    (∀ g G, Bottom w x g → w g = some (.geom G) →
      ∃ v, (∀ p, G = .mesh p → v = p.getD 0) ∧ (∀ m, G = .spline m → v = m) ∧ Steps w (.setTarget c (some x)) (put w c (.ctrl (.skin (some x) v)))) ∧
    ((∀ g, ¬ Bottom w x g) → Steps w (.setTarget c (some x)) w) := by
  obtain ⟨r, N, hN, hM⟩ := h.inv.setTarget_ends (e := some x) hc fun y hy => by cases hy; exact hx
  have hr := fun g => follow_iff (hN N (Nat.le_refl _)) g
  constructor
  · intro g G hb hG
    have := (hr g).mpr hb
    subst this
    refine ⟨vertexCount (w g), ?_, ?_, N, fun n hn => by simpa [run] using hM n hn⟩
    · rintro p rfl; rw [hG]; rfl
    · rintro m rfl; rw [hG]; rfl
  · intro hb
    cases r with
    | none => exact ⟨N, fun n hn => by simpa [run] using hM n hn⟩
    | some g => exact absurd ((hr g).mp rfl) (hb g)

example : Steps demo3 (.setTarget 2 (some 1)) (put demo3 2 (.ctrl (.skin (some 1) 4))) := by
  obtain ⟨v, h1, _, h⟩ := (set_target_partial demo3_reach 2 (some 0) 4 1 rfl rfl).1 1 (.mesh (some 4)) ⟨.refl, ⟨_, rfl⟩⟩ rfl
  rw [h1 _ rfl] at h
  exact h

/-- **C107** fails for a skin that is put on a controller above it, itself for one: the call is accepted, because the old target is found through the identifier,
and afterwards `GetBaseGeometry` never ends. -/
theorem chains_violated : ∃ w w', Reach w ∧ Steps w (.setTarget 2 (some 2)) w' ∧ ∀ n, baseGeometry w' n 2 = none := by
  refine ⟨demo3, put demo3 2 (.ctrl (.skin (some 2) 4)), demo3_reach, ⟨2, fun n hn => ?_⟩, fun n => ?_⟩
  · obtain ⟨m, rfl⟩ : ∃ m, n = m + 2 := ⟨n - 2, by omega⟩
    rfl
  · show follow _ n (some 2) = none
    induction n with
    | zero => rfl
    | succ n ih => exact ih

/-- **C107** fails for a null target, and for one without geometry: the skin keeps its target. -/
theorem set_target_null_violated : ∃ w, Reach w ∧ w 2 = some (.ctrl (.skin (some 0) 4)) ∧ Steps w (.setTarget 2 none) w :=
  ⟨demo3, demo3_reach, rfl, 0, fun _ _ => by simp [run, setTarget, demo3, put_same, follow]⟩

/-! ## C108 -/

open scoped Classical in
/-- **C108**: `SetBaseTarget` with an entity that has a geometry at its end, other than through this controller, stores it and keeps the morph targets that fit
it, in order; with another one it leaves the morpher without base target and without morph targets. -/
theorem set_base_target_partial {w : World} (h : Reach w) (c : Nat) (b : Option Nat) (ts : List Target) (hc : w c = some (.ctrl (.morph b ts)))
    (e : Option Nat) (he : ∀ x, e = some x → (w x).isSome) :
    (∀ x g, e = some x → Bottom (put w c (.ctrl (.morph none ts))) x g →
      Steps w (.setBaseTarget c e) (put w c (.ctrl (.morph (some x) (ts.filter fun t => Fits (put w c (.ctrl (.morph (some x) ts))) x t))))) ∧
    ((∀ x, e = some x → ∀ g, ¬ Bottom (put w c (.ctrl (.morph none ts))) x g) → Steps w (.setBaseTarget c e) (put w c (.ctrl (.morph none [])))) := by
  constructor
  · rintro x g rfl hb
    exact h.inv.setBaseTarget_some hc (he x rfl) hb
  · intro hb
    exact h.inv.setBaseTarget_none hc he hb

example : Steps demo (.setBaseTarget 3 (some 3)) (put demo 3 (.ctrl (.morph none []))) := by
  refine (set_base_target_partial demo_reach 3 (some 2) [⟨0, some 1⟩] rfl (some 3) (fun x hx => by cases hx; rfl)).2 ?_
  rintro x hx g ⟨ha, hg⟩
  cases hx
  rcases Relation.ReflTransGen.cases_head ha with h | ⟨z, hz, _⟩
  · subst h
    obtain ⟨G, hG⟩ := hg
    rw [put_same] at hG
    cases hG
  · exact absurd (on_put_morph.mp hz) (by simp)

/-- **C108**: `AddTarget` adds a morph target with the geometry at the end if the morpher has no base target or the geometry fits it, and refuses it otherwise. -/
theorem add_target_partial {w : World} (h : Reach w) (c t : Nat) (b : Option Nat) (ts : List Target) (hc : w c = some (.ctrl (.morph b ts)))
    (g : Option Nat) (hg : ∀ x, g = some x → IsGeom w x) :
    ∃ s w', (∃ N, ∀ n ≥ N, addTarget n w c t g = some (s, w')) ∧ (s = true ↔ b = none ∨ ∃ x, b = some x ∧ Fits w x ⟨t, g⟩) ∧
      (s = true → w' = put w c (.ctrl (.morph b (ts ++ [⟨t, g⟩])))) ∧ (s = false → w' = w) := by
  obtain ⟨s, N, h1, h2, h3⟩ := h.inv.addTarget_ends (t := t) hc hg
  refine ⟨s, _, ⟨N, h3⟩, ?_, fun hs => by rw [hs]; rfl, fun hs => by rw [hs]; rfl⟩
  cases b with
  | none => simp [h1 rfl]
  | some x =>
    have := h2 (by simp) N (Nat.le_refl _)
    unfold Fits
    cases g with
    | none =>
      simp only [isSimilar, Option.some.injEq] at this
      subst this
      simp
    | some y =>
      rw [isSimilar_iff this]
      simp

example : ∃ w', (∃ N, ∀ n ≥ N, addTarget n demo 3 1 none = some (false, w')) ∧ w' = demo := by
  obtain ⟨s, w', h1, h2, _, h4⟩ := add_target_partial demo_reach 3 1 (some 2) [⟨0, some 1⟩] rfl none (by simp)
  have : s = false := by
    cases s
    · rfl
    · rcases h2.mp rfl with h | ⟨x, _, g, hg, _⟩
      · cases h
      · cases hg
  subst this
  exact ⟨w', h1, h4 rfl⟩

/-- **C108**: `SetGeometry` of a morph target whose geometry has another tracker: the geometry is stored if the morpher has no base target or the geometry fits
it; otherwise the old one stays. -/
theorem set_geometry_shared_partial {w : World} (h : Reach w) (c t : Nat) (b : Option Nat) (ts : List Target) (hc : w c = some (.ctrl (.morph b ts)))
    (ht : ∃ x ∈ ts, x.name = t) (g : Option Nat) (hg : ∀ x, g = some x → IsGeom w x) :
    ((b = none ∨ ∃ x, b = some x ∧ Fits w x ⟨t, g⟩) →
      Steps w (.setGeometry c t false g) (put w c (.ctrl (.morph b (ts.map fun x => if x.name = t then { x with geometry := g } else x))))) ∧
    (¬ (b = none ∨ ∃ x, b = some x ∧ Fits w x ⟨t, g⟩) → Steps w (.setGeometry c t false g) w) := by
  obtain ⟨y, hy, hyn⟩ := ht
  have hf : ∃ x, ts.find? (fun y => y.name = t) = some x := by
    cases hf : ts.find? (fun y => y.name = t) with
    | none => exact absurd hyn (by simpa using List.find?_eq_none.mp hf y hy)
    | some x => exact ⟨x, rfl⟩
  obtain ⟨x, hf⟩ := hf
  obtain ⟨s, N, h1, h2, h3, _⟩ := h.inv.assign_ends (t := t) hc hg
  have hs : s = true ↔ (b = none ∨ ∃ x, b = some x ∧ Fits w x ⟨t, g⟩) := by
    cases b with
    | none => simp [h1 rfl]
    | some x =>
      have := h2 (by simp) N (Nat.le_refl _)
      unfold Fits
      cases g with
      | none =>
        simp only [isSimilar, Option.some.injEq] at this
        subst this
        simp
      | some y =>
        rw [isSimilar_iff this]
        simp
  have run_eq : ∀ n ≥ N, run n w (.setGeometry c t false g) = some (if s then putGeometry w c t g else w) := by
    intro n hn
    show setGeometry n w c t false g = _
    unfold setGeometry
    rw [hc]
    simp only [hf, Option.bind_some, dropGeometry, hc]
    exact h3 n hn
  constructor
  · intro hh
    refine ⟨N, fun n hn => ?_⟩
    rw [run_eq n hn, if_pos (hs.mpr hh)]
    unfold putGeometry
    rw [hc]
  · intro hh
    refine ⟨N, fun n hn => ?_⟩
    rw [run_eq n hn, if_neg (fun h => hh (hs.mp h))]

example : Steps demo (.setGeometry 3 0 false none) demo := by
  refine (set_geometry_shared_partial demo_reach 3 0 (some 2) [⟨0, some 1⟩] rfl ⟨_, List.mem_singleton_self _, rfl⟩ none (by simp)).2 ?_
  rintro (h | ⟨x, _, g, hg, _⟩)
  · cases h
  · cases hg

/-- **C108** fails for a morph target that is the only tracker of its geometry: given another geometry, it destroys the old one, which a library owns; and if the
new one does not fit, the morph target is left with nothing. -/
theorem set_geometry_destroys_violated : ∃ w w', Reach w ∧ IsGeom w 1 ∧ Steps w (.setGeometry 3 0 true none) w' ∧ w' 1 = none ∧
    w' 3 = some (.ctrl (.morph (some 2) [⟨0, none⟩])) := by
  refine ⟨demo, released demo 1, demo_reach, ⟨_, rfl⟩, ⟨2, fun n hn => ?_⟩, rfl, rfl⟩
  obtain ⟨m, rfl⟩ : ∃ m, n = m + 2 := ⟨n - 2, by omega⟩
  rfl

/-- **C108** fails for a morph target that is the only tracker of its geometry and is given that geometry again, in a morpher without base target: the geometry
has been destroyed when it is stored. -/
theorem set_geometry_same_violated : ∃ w, Reach w ∧ w 1 = some (.ctrl (.morph none [⟨0, some 0⟩])) ∧ IsGeom w 0 ∧
    ∀ n, run n w (.setGeometry 1 0 true (some 0)) = none := by
  have r1 : Reach (put (fun _ => none) 0 (.geom (.mesh (some 4)))) :=
    .step (op := .newGeometry 0 (.mesh (some 4))) .start rfl ⟨0, fun n _ => rfl⟩
  have r2 := Reach.step (op := .newController 1) r1 rfl ⟨0, fun n _ => rfl⟩
  have r3 := Reach.step (op := .createMorph 1) r2 ⟨.empty, rfl⟩ ⟨0, fun n _ => rfl⟩
  have r4 := Reach.step (op := .addTarget 1 0 (some 0)) r3 ⟨⟨none, [], rfl, fun x hx => absurd hx List.not_mem_nil⟩, fun x hx => by cases hx; exact ⟨_, rfl⟩⟩
    ⟨0, fun n hn => rfl⟩
  exact ⟨_, r4, rfl, ⟨_, rfl⟩, fun n => rfl⟩

/-- **C108** fails for a mesh without positions: it does not fit itself as base target, so it is refused. -/
theorem add_target_positions_violated : ∃ w, Reach w ∧ w 0 = some (.geom (.mesh none)) ∧ w 1 = some (.ctrl (.morph (some 0) [])) ∧
    ∀ n ≥ 1, addTarget n w 1 0 (some 0) = some (false, w) := by
  have r1 : Reach (put (fun _ => none) 0 (.geom (.mesh none))) :=
    .step (op := .newGeometry 0 (.mesh none)) .start rfl ⟨0, fun n _ => rfl⟩
  have r2 := Reach.step (op := .newController 1) r1 rfl ⟨0, fun n _ => rfl⟩
  have r3 := Reach.step (op := .createMorph 1) r2 ⟨.empty, rfl⟩ ⟨0, fun n _ => rfl⟩
  have r4 := Reach.step (op := .setBaseTarget 1 (some 0)) r3 ⟨⟨none, [], rfl⟩, fun x hx => by cases hx; rfl⟩ ⟨1, fun n hn => by
    obtain ⟨m, rfl⟩ : ∃ m, n = m + 1 := ⟨n - 1, by omega⟩
    rfl⟩
  refine ⟨_, r4, rfl, rfl, fun n hn => ?_⟩
  obtain ⟨m, rfl⟩ : ∃ m, n = m + 1 := ⟨n - 1, by omega⟩
  rfl

/-- **C108** fails when the chain below a morpher changes: after the skin under it has been given another geometry, its morph target no longer fits. -/
theorem morph_targets_fit_violated : ∃ w w', Reach w ∧ Fits w 2 ⟨0, some 1⟩ ∧ w 3 = some (.ctrl (.morph (some 2) [⟨0, some 1⟩])) ∧
    Legal w (.edit 0 (.mesh (some 5))) ∧ Steps w (.edit 0 (.mesh (some 5))) w' ∧ w' 3 = w 3 ∧ ¬ Fits w' 2 ⟨0, some 1⟩ := by
  refine ⟨demo, put demo 0 (.geom (.mesh (some 5))), demo_reach, ?_, rfl, ⟨_, rfl⟩, ⟨0, fun n _ => rfl⟩, rfl, ?_⟩
  · have : isSimilar 2 demo (some 2) (some 1) = some true := rfl
    exact ⟨1, rfl, (isSimilar_iff this).mp rfl⟩
  · rintro ⟨g, hg, hs⟩
    cases hg
    have : isSimilar 2 (put demo 0 (.geom (.mesh (some 5)))) (some 2) (some 1) = some false := rfl
    have := (isSimilar_iff this).mpr hs
    cases this

end Verif.FCtrl
