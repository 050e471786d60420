import Verif.CtrlLemmas

/-!
# Calls on controllers keep the invariant
-/

namespace Verif.FCtrl

theorem alive_of_geom {w : World} {x : Nat} (h : IsGeom w x) : (w x).isSome := by
  obtain ⟨g, hg⟩ := h
  rw [hg]; rfl

/-- Replacing the targets of a morpher. -/
theorem Inv.retarget {w : World} (i : Inv w) {c : Nat} {b ts l} (hc : w c = some (.ctrl (.morph b ts)))
    (hl : ∀ t ∈ l, ∀ g, t.geometry = some g → IsGeom w g) : Inv (put w c (.ctrl (.morph b l))) := by
  refine i.put_ctrl (ctrl_not_geom ⟨_, hc⟩) (fun y h => ?_) (fun _ _ e => by cases e; exact hl)
  exact above_of_same i ((on_morph hc).mpr (on_put_morph.mp h))

theorem Inv.addTarget_ends {w : World} (i : Inv w) {c t : Nat} {g : Option Nat} {b ts} (hc : w c = some (.ctrl (.morph b ts)))
    (hg : ∀ x, g = some x → IsGeom w x) :
    ∃ s N, (b = none → s = true) ∧ (b ≠ none → ∀ n ≥ N, isSimilar n w b g = some s) ∧
      ∀ n ≥ N, addTarget n w c t g = some (s, if s then put w c (.ctrl (.morph b (ts ++ [⟨t, g⟩]))) else w) := by
  by_cases hb : b = none
  · refine ⟨true, 0, fun _ => rfl, fun h => absurd hb h, fun n _ => ?_⟩
    unfold addTarget
    rw [hc]
    simp only [if_pos hb, if_true]
  · obtain ⟨s, N, hN⟩ := i.isSimilar_ends b g (fun x hx => i.alive c x ((on_morph hc).mpr hx)) fun x hx => alive_of_geom (hg x hx)
    refine ⟨s, N, fun h => absurd h hb, fun _ => hN, fun n hn => ?_⟩
    unfold addTarget
    rw [hc]
    simp only [if_neg hb, hN n hn, Option.map_some]
    cases s <;> rfl

theorem released_morph {w : World} {c x : Nat} {b ts} (hc : w c = some (.ctrl (.morph b ts))) (h : c ≠ x) :
    ∃ b' ts', released w x c = some (.ctrl (.morph b' ts')) ∧ b' = (if b = some x then none else b) ∧
      ts' = ts.map fun t => if t.geometry = some x then { t with geometry := none } else t := by
  refine ⟨_, _, ?_, rfl, rfl⟩
  simp [released, h, hc, forget]

/-- The result of giving a geometry to a morph target. -/
theorem Inv.assign_ends {w : World} (i : Inv w) {c t : Nat} {g : Option Nat} {b ts} (hc : w c = some (.ctrl (.morph b ts)))
    (hg : ∀ x, g = some x → IsGeom w x) :
    ∃ s N, (b = none → s = true) ∧ (b ≠ none → ∀ n ≥ N, isSimilar n w b g = some s) ∧
      (∀ n ≥ N, assignGeometry n w c t b g = some (if s then putGeometry w c t g else w)) ∧ Inv (if s then putGeometry w c t g else w) := by
  have inv : Inv (putGeometry w c t g) := by
    unfold putGeometry
    rw [hc]
    refine i.retarget hc ?_
    intro t' ht' h hh
    obtain ⟨t0, ht0, rfl⟩ := List.mem_map.mp ht'
    split_ifs at hh with hn
    · exact hg h hh
    · exact i.geos c b ts hc t0 ht0 h hh
  by_cases hb : b = none
  · refine ⟨true, 0, fun _ => rfl, fun h => absurd hb h, fun n _ => ?_, inv⟩
    unfold assignGeometry
    have : g.all (fun x => (w x).isSome) = true := by
      cases g with
      | none => rfl
      | some x => simpa using alive_of_geom (hg x rfl)
    rw [if_pos hb, if_pos this]
    rfl
  · obtain ⟨s, N, hN⟩ := i.isSimilar_ends b g (fun x hx => i.alive c x ((on_morph hc).mpr hx)) fun x hx => alive_of_geom (hg x hx)
    refine ⟨s, N, fun h => absurd h hb, fun _ => hN, fun n hn => ?_, ?_⟩
    · unfold assignGeometry
      rw [if_neg hb, hN n hn]
      cases s <;> rfl
    · cases s
      · exact i
      · exact inv

/-- The world after the old geometry has been dropped. -/
def dropped (w : World) (sole : Bool) (old : Option Nat) : World :=
  match sole, old with
  | true, some o => released w o
  | _, _ => w

theorem drop_eq {w : World} {sole : Bool} {old : Option Nat} (h : ∀ x, old = some x → (w x).isSome) :
    dropGeometry w sole old = some (dropped w sole old) := by
  cases sole <;> cases old <;> simp [dropGeometry, dropped]
  exact release_eq (h _ rfl)

theorem Inv.dropped {w : World} (i : Inv w) (sole : Bool) (old : Option Nat) : Inv (dropped w sole old) := by
  cases sole <;> cases old
  · exact i
  · exact i
  · exact i
  · exact i.release _

theorem dropped_geom {w : World} {sole : Bool} {old : Option Nat} {x : Nat} (h : IsGeom w x) (hx : sole = true → old ≠ some x) : IsGeom (dropped w sole old) x := by
  cases sole <;> cases old
  · exact h
  · exact h
  · exact h
  · refine released_isGeom.mpr ⟨h, ?_⟩
    rintro rfl
    exact hx rfl rfl

theorem dropped_morph {w : World} {c : Nat} {sole : Bool} {old : Option Nat} {b ts} (hc : w c = some (.ctrl (.morph b ts))) (ho : old ≠ some c) :
    ∃ b' ts', dropped w sole old c = some (.ctrl (.morph b' ts')) := by
  cases sole <;> cases old
  · exact ⟨b, ts, hc⟩
  · exact ⟨b, ts, hc⟩
  · exact ⟨b, ts, hc⟩
  · obtain ⟨b', ts', h, _⟩ := released_morph (x := _) hc (fun h => ho (by rw [h]))
    exact ⟨b', ts', h⟩

theorem Inv.setGeometry_ends {w : World} (i : Inv w) {c t : Nat} {sole : Bool} {g : Option Nat} {b ts x} (hc : w c = some (.ctrl (.morph b ts)))
    (hx : ts.find? (fun y => y.name = t) = some x) (hd : sole = true → x.geometry ≠ g ∨ g = none) (hg : ∀ y, g = some y → IsGeom w y) :
    ∃ w', (∃ N, ∀ n ≥ N, setGeometry n w c t sole g = some w') ∧ Inv w' := by
  have hmem : x ∈ ts := List.mem_of_find?_eq_some hx
  have hgeo : ∀ o, x.geometry = some o → IsGeom w o := i.geos c b ts hc x hmem
  obtain ⟨b', ts', hc'⟩ := dropped_morph (sole := sole) (old := x.geometry) hc
    (fun h => ctrl_not_geom ⟨_, hc⟩ (hgeo c h))
  obtain ⟨s, N, _, _, hs, hinv⟩ := (i.dropped sole x.geometry).assign_ends (t := t) (g := g) hc'
    (fun y hy => dropped_geom (hg y hy) fun hso ho => by
      rcases hd hso with h | h
      · exact h (ho.trans hy.symm)
      · rw [h] at hy; cases hy)
  refine ⟨_, ⟨N, fun n hn => ?_⟩, hinv⟩
  unfold setGeometry
  rw [hc]
  simp only [hx, Option.bind_some, drop_eq fun o ho => alive_of_geom (hgeo o ho), hc']
  exact hs n hn

/-- Every legal call ends and keeps the invariant. -/
theorem Inv.step {w : World} (i : Inv w) {op : Op} (hl : Legal w op) : ∃ w', Steps w op w' ∧ Inv w' := by
  cases op with
  | newGeometry x g =>
    have hx : w x = none := hl
    exact ⟨put w x (.geom g), ⟨0, fun n _ => by simp [run, hx]⟩, i.put_plain (by simp) (Or.inr ⟨g, rfl⟩)⟩
  | newController x =>
    have hx : w x = none := hl
    refine ⟨put w x (.ctrl .empty), ⟨0, fun n _ => by simp [run, hx]⟩, i.put_ctrl ?_ ?_ (by simp)⟩
    · rintro ⟨g, hg⟩; rw [hx] at hg; cases hg
    · intro y h; rw [on_iff] at h; simp [baseTarget, put_same] at h
  | newOther x =>
    have hx : w x = none := hl
    refine ⟨put w x .other, ⟨0, fun n _ => by simp [run, hx]⟩, i.put_plain (by simp) (Or.inl ?_)⟩
    rintro ⟨g, hg⟩; rw [hx] at hg; cases hg
  | createSkin c =>
    have hx : IsCtrl w c := hl
    obtain ⟨k, hk⟩ := hx
    refine ⟨put w c (.ctrl (.skin none 0)), ⟨0, fun n _ => by simp [run, hk]⟩, i.put_ctrl (ctrl_not_geom ⟨k, hk⟩) ?_ (by simp)⟩
    intro y h; exact absurd (on_put_skin.mp h) (by simp)
  | createMorph c =>
    have hx : IsCtrl w c := hl
    obtain ⟨k, hk⟩ := hx
    refine ⟨put w c (.ctrl (.morph none [])), ⟨0, fun n _ => by simp [run, hk]⟩, i.put_ctrl (ctrl_not_geom ⟨k, hk⟩) ?_ ?_⟩
    · intro y h; exact absurd (on_put_morph.mp h) (by simp)
    · intro b ts h; cases h; intro t ht; exact absurd ht (List.not_mem_nil)
  | setTarget c e =>
    obtain ⟨⟨t, k, hc⟩, he⟩ := hl
    obtain ⟨r, N, hN, hM⟩ := i.setTarget_ends hc fun x hx => (he x hx).1
    refine ⟨_, ⟨N, hM⟩, ?_⟩
    cases r with
    | none => exact i
    | some g =>
      refine i.put_ctrl (ctrl_not_geom ⟨_, hc⟩) ?_ (by simp)
      intro y h
      have hy := he y (on_put_skin.mp h)
      exact ⟨hy.1, fun ha => hy.2 (above_empty ha)⟩
  | setBaseTarget c e =>
    obtain ⟨⟨b, ts, hc⟩, he⟩ := hl
    by_cases hb : ∃ x g, e = some x ∧ Bottom (put w c (.ctrl (.morph none ts))) x g
    · obtain ⟨x, g, rfl, hb⟩ := hb
      obtain ⟨N, hN⟩ := i.setBaseTarget_some hc (he x rfl) hb
      exact ⟨_, ⟨N, hN⟩, i.rebase hc (he x rfl) ⟨g, hb⟩ fun t ht => (List.mem_filter.mp ht).1⟩
    · obtain ⟨N, hN⟩ := i.setBaseTarget_none hc he fun x hx g hg => hb ⟨x, g, hx, hg⟩
      refine ⟨_, ⟨N, hN⟩, i.put_ctrl (ctrl_not_geom ⟨_, hc⟩) ?_ ?_⟩
      · intro y h; exact absurd (on_put_morph.mp h) (by simp)
      · intro b ts h; cases h; intro t ht; exact absurd ht (List.not_mem_nil)
  | addTarget c t g =>
    obtain ⟨⟨b, ts, hc, _⟩, hg⟩ := hl
    obtain ⟨s, N, _, _, hN⟩ := i.addTarget_ends (t := t) hc hg
    refine ⟨if s then put w c (.ctrl (.morph b (ts ++ [⟨t, g⟩]))) else w, ⟨N, fun n hn => by simp [run, hN n hn]⟩, ?_⟩
    cases s
    · exact i
    · refine i.retarget hc ?_
      intro t' ht' h hh
      rcases List.mem_append.mp ht' with h' | h'
      · exact i.geos c b ts hc t' h' h hh
      · obtain rfl := List.mem_singleton.mp h'
        exact hg h hh
  | setGeometry c t sole g =>
    obtain ⟨⟨b, ts, hc, ⟨y, hy, hyn⟩, hd⟩, hg⟩ := hl
    cases hf : ts.find? (fun y => y.name = t) with
    | none => exact absurd hyn (by simpa using List.find?_eq_none.mp hf y hy)
    | some x =>
      obtain ⟨w', hw, hi⟩ := i.setGeometry_ends hc hf (hd x (List.mem_of_find?_eq_some hf) (by simpa using List.find?_some hf)) hg
      exact ⟨w', hw, hi⟩
  | edit x g =>
    have hx : IsGeom w x := hl
    obtain ⟨G, hG⟩ := hx
    exact ⟨put w x (.geom g), ⟨0, fun n _ => by simp [run, hG]⟩, i.put_plain (by simp) (Or.inr ⟨g, rfl⟩)⟩
  | release x =>
    have hx : (w x).isSome := hl
    exact ⟨released w x, ⟨0, fun n _ => release_eq hx⟩, i.release x⟩

theorem steps_det {w w' w'' : World} {op : Op} (h : Steps w op w') (h' : Steps w op w'') : w' = w'' := by
  obtain ⟨N, hN⟩ := h
  obtain ⟨M, hM⟩ := h'
  have a := hN (N + M) (by omega)
  have b := hM (N + M) (by omega)
  rw [a] at b
  exact Option.some.inj b

theorem Reach.inv {w : World} (h : Reach w) : Inv w := by
  induction h with
  | start => exact Inv.start
  | step _ hl hs ih =>
    obtain ⟨w', hs', hi⟩ := ih.step hl
    rw [steps_det hs hs']
    exact hi

theorem no_above {w : World} {x y : Nat} (hx : ∀ z, ¬ On w x z) (h : x ≠ y) : ¬ Above w x y := by
  intro ha
  rcases Relation.ReflTransGen.cases_head ha with h' | ⟨z, hz, _⟩
  · exact h h'
  · exact hx z hz

theorem followController_some (w : World) : ∀ n c x p, On w c x → followController w n c (some x) = some (some p) →
    Above w c p ∧ ∃ g, On w p g ∧ IsGeom w g := by
  intro n
  induction n with
  | zero => intro c x p _ h; simp [followController] at h
  | succ n ih =>
    intro c x p ho h
    rw [followController] at h
    rcases hw : w x with _ | (G | k | _)
    · rw [hw] at h; cases h
    · rw [hw] at h
      cases h
      exact ⟨.refl, x, ho, _, hw⟩
    · rw [hw] at h
      cases hb : baseTarget w x with
      | none => rw [hb] at h; simp [followController] at h
      | some y =>
        rw [hb] at h
        obtain ⟨ha, hg⟩ := ih x y p ((on_iff w x y).mpr hb) h
        exact ⟨.head ho ha, hg⟩
    · rw [hw] at h; cases h

theorem followController_of {w : World} {c p g : Nat} (ha : Above w c p) (ho : On w p g) (hg : IsGeom w g) :
    ∃ n, followController w n c (baseTarget w c) = some (some p) := by
  induction ha using Relation.ReflTransGen.head_induction_on with
  | refl =>
    obtain ⟨G, hG⟩ := hg
    refine ⟨1, ?_⟩
    rw [(on_iff w _ _).mp ho]
    simp [followController, hG]
  | @head a b hab hbc ih =>
    obtain ⟨n, hn⟩ := ih
    refine ⟨n + 1, ?_⟩
    have hb : IsCtrl w b := by
      rcases Relation.ReflTransGen.cases_head hbc with h | ⟨z, hz, _⟩
      · rw [h]; exact on_ctrl ho
      · exact on_ctrl hz
    obtain ⟨k, hk⟩ := hb
    rw [(on_iff w _ _).mp hab, followController, hk]
    exact hn

theorem followController_det {w : World} {n m p : Nat} {o r s} (h : followController w n p o = some r) (h' : followController w m p o = some s) : r = s := by
  rcases Nat.le_total n m with k | k
  · have := followController_le w k h
    rw [this] at h'
    exact Option.some.inj h'
  · have := followController_le w k h'
    rw [this] at h
    exact (Option.some.inj h).symm

theorem findSkin_some (w : World) : ∀ n x s, findSkin w n (some x) = some (some s) →
    Above w x s ∧ IsSkin w s ∧ ∀ y, Above w x y → Above w y s → IsSkin w y → Above w s y := by
  intro n
  induction n with
  | zero => intro x s h; simp [findSkin] at h
  | succ n ih =>
    intro x s h
    rw [findSkin] at h
    have next : ∀ k, w x = some (.ctrl k) → (∀ t j, k ≠ .skin t j) → findSkin w n (baseTarget w x) = some (some s) →
        Above w x s ∧ IsSkin w s ∧ ∀ y, Above w x y → Above w y s → IsSkin w y → Above w s y := by
      intro k hk hns h
      cases hb : baseTarget w x with
      | none => rw [hb] at h; simp [findSkin] at h
      | some z =>
        rw [hb] at h
        obtain ⟨ha, hs, hf⟩ := ih z s h
        have ho := (on_iff w x z).mpr hb
        refine ⟨.head ho ha, hs, fun y hy hys hsk => ?_⟩
        rcases Relation.ReflTransGen.cases_head hy with rfl | ⟨z', hz', hy'⟩
        · obtain ⟨t, j, hj⟩ := hsk
          rw [hk] at hj
          exact absurd (by simpa using hj) (hns t j)
        · rw [← on_det ho hz'] at hy'
          exact hf y hy' hys hsk
    rcases hw : w x with _ | (G | (_ | ⟨t, k⟩ | ⟨b, ts⟩) | _)
    · rw [hw] at h; cases h
    · rw [hw] at h; cases h
    · rw [hw] at h; exact next _ hw (by simp) h
    · rw [hw] at h
      cases h
      exact ⟨.refl, ⟨t, k, hw⟩, fun y hy _ _ => hy⟩
    · rw [hw] at h; exact next _ hw (by simp) h
    · rw [hw] at h; cases h

theorem findSkin_none (w : World) : ∀ n x, findSkin w n (some x) = some none → ∀ s, Above w x s → ¬ IsSkin w s := by
  intro n
  induction n with
  | zero => intro x h; simp [findSkin] at h
  | succ n ih =>
    intro x h s hs hsk
    rw [findSkin] at h
    obtain ⟨t', j', hj'⟩ := hsk
    rcases Relation.ReflTransGen.cases_head hs with rfl | ⟨z, hz, hzs⟩
    · rw [hj'] at h; cases h
    · have hb := (on_iff w x z).mp hz
      rcases hw : w x with _ | (G | (_ | ⟨t, k⟩ | ⟨b, ts⟩) | _)
      · rw [hw] at h; cases h
      · exact absurd hz (geom_not_on ⟨_, hw⟩)
      · simp [baseTarget, hw] at hb
      · rw [hw] at h; cases h
      · rw [hw] at h
        change findSkin w n (baseTarget w x) = _ at h
        rw [hb] at h
        exact ih z h s hzs ⟨t', j', hj'⟩
      · simp [baseTarget, hw] at hb

end Verif.FCtrl
