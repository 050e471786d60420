import Verif.CtrlSpec
import Mathlib.Tactic.Common
import Mathlib.Tactic.ByContra

/-!
# Lemmas about controllers
-/

namespace Verif.FCtrl

theorem put_same (w : World) (x : Nat) (e : Ent) : put w x e x = some e := by simp [put]

theorem put_other (w : World) {x y : Nat} (e : Ent) (h : y ≠ x) : put w x e y = w y := by simp [put, h]

theorem put_put (w : World) (x : Nat) (a b : Ent) : put (put w x a) x b = put w x b := by simp [put]

theorem on_iff (w : World) (c x : Nat) : On w c x ↔ baseTarget w c = some x := by
  constructor
  · rintro (⟨k, h⟩ | ⟨ts, h⟩) <;> simp [baseTarget, h]
  · intro h
    unfold baseTarget at h
    split at h
    · rename_i t k hw
      subst h
      exact Or.inl ⟨k, hw⟩
    · rename_i b ts hw
      subst h
      exact Or.inr ⟨ts, hw⟩
    · cases h

theorem on_ctrl {w : World} {c x : Nat} (h : On w c x) : IsCtrl w c := by
  rcases h with ⟨k, h⟩ | ⟨ts, h⟩
  · exact ⟨_, h⟩
  · exact ⟨_, h⟩

theorem on_det {w : World} {c x y : Nat} (h : On w c x) (h' : On w c y) : x = y := by
  rw [on_iff] at h h'
  rw [h] at h'
  exact Option.some.inj h'

theorem geom_not_on {w : World} {g x : Nat} (h : IsGeom w g) : ¬ On w g x := by
  intro h'
  obtain ⟨c, hc⟩ := on_ctrl h'
  obtain ⟨g, hg⟩ := h
  rw [hg] at hc
  cases hc

/-- The pointers are right. -/
structure Inv (w : World) : Prop where
  alive : ∀ c x, On w c x → (w x).isSome
  rank : ∃ rk : Nat → Nat, ∀ c x, On w c x → rk x < rk c
  geos : ∀ c b ts, w c = some (.ctrl (.morph b ts)) → ∀ t ∈ ts, ∀ g, t.geometry = some g → IsGeom w g

theorem follow_mono (w : World) : ∀ n o r, follow w n o = some r → follow w (n + 1) o = some r := by
  intro n
  induction n with
  | zero =>
    intro o r h
    cases o with
    | none => simpa [follow] using h
    | some x => simp [follow] at h
  | succ n ih =>
    intro o r h
    cases o with
    | none => simpa [follow] using h
    | some x =>
      rw [follow] at h ⊢
      split at h
      · cases h
      · exact ih _ _ h
      · exact h
      · exact h

theorem follow_le (w : World) {n m : Nat} (h : n ≤ m) {o r} (e : follow w n o = some r) : follow w m o = some r := by
  induction h with
  | refl => exact e
  | step _ ih => exact follow_mono w _ _ _ ih

theorem followController_mono (w : World) : ∀ n p o r, followController w n p o = some r → followController w (n + 1) p o = some r := by
  intro n
  induction n with
  | zero =>
    intro p o r h
    cases o with
    | none => simpa [followController] using h
    | some x => simp [followController] at h
  | succ n ih =>
    intro p o r h
    cases o with
    | none => simpa [followController] using h
    | some x =>
      rw [followController] at h ⊢
      split at h
      · cases h
      · exact ih _ _ _ h
      · exact h
      · exact h

theorem followController_le (w : World) {n m : Nat} (h : n ≤ m) {p o r} (e : followController w n p o = some r) : followController w m p o = some r := by
  induction h with
  | refl => exact e
  | step _ ih => exact followController_mono w _ _ _ _ ih

theorem findSkin_mono (w : World) : ∀ n o r, findSkin w n o = some r → findSkin w (n + 1) o = some r := by
  intro n
  induction n with
  | zero =>
    intro o r h
    cases o with
    | none => simpa [findSkin] using h
    | some x => simp [findSkin] at h
  | succ n ih =>
    intro o r h
    cases o with
    | none => simpa [findSkin] using h
    | some x =>
      rw [findSkin] at h ⊢
      cases hw : w x with
      | none => rw [hw] at h; cases h
      | some e =>
        rw [hw] at h
        rcases e with g | (_ | ⟨t, k⟩ | ⟨b, ts⟩) | _
        · exact h
        · exact ih _ _ h
        · exact h
        · exact ih _ _ h
        · exact h

theorem findSkin_le (w : World) {n m : Nat} (h : n ≤ m) {o r} (e : findSkin w n o = some r) : findSkin w m o = some r := by
  induction h with
  | refl => exact e
  | step _ ih => exact findSkin_mono w _ _ _ ih

/-- With a rank the loops end. -/
theorem follow_total {w : World} {rk : Nat → Nat} (ha : ∀ c x, On w c x → (w x).isSome) (hr : ∀ c x, On w c x → rk x < rk c) :
    ∀ n x, (w x).isSome → rk x < n → ∃ r, follow w n (some x) = some r := by
  intro n
  induction n with
  | zero => intro x _ h; omega
  | succ n ih =>
    intro x hx hk
    rw [follow]
    rcases hw : w x with _ | (g | c | _)
    · rw [hw] at hx; cases hx
    · exact ⟨_, rfl⟩
    · cases hb : baseTarget w x with
      | none => exact ⟨none, by simp [follow]⟩
      | some y =>
        have ho : On w x y := (on_iff w x y).mpr hb
        have := hr _ _ ho
        exact ih y (ha _ _ ho) (by omega)
    · exact ⟨_, rfl⟩

theorem followController_total {w : World} {rk : Nat → Nat} (ha : ∀ c x, On w c x → (w x).isSome) (hr : ∀ c x, On w c x → rk x < rk c) :
    ∀ n p x, (w x).isSome → rk x < n → ∃ r, followController w n p (some x) = some r := by
  intro n
  induction n with
  | zero => intro p x _ h; omega
  | succ n ih =>
    intro p x hx hk
    rw [followController]
    rcases hw : w x with _ | (g | c | _)
    · rw [hw] at hx; cases hx
    · exact ⟨_, rfl⟩
    · cases hb : baseTarget w x with
      | none => exact ⟨none, by simp [followController]⟩
      | some y =>
        have ho : On w x y := (on_iff w x y).mpr hb
        have := hr _ _ ho
        exact ih x y (ha _ _ ho) (by omega)
    · exact ⟨_, rfl⟩

theorem findSkin_total {w : World} {rk : Nat → Nat} (ha : ∀ c x, On w c x → (w x).isSome) (hr : ∀ c x, On w c x → rk x < rk c) :
    ∀ n x, (w x).isSome → rk x < n → ∃ r, findSkin w n (some x) = some r := by
  intro n
  induction n with
  | zero => intro x _ h; omega
  | succ n ih =>
    intro x hx hk
    have next : ∃ r, findSkin w n (baseTarget w x) = some r := by
      cases hb : baseTarget w x with
      | none => exact ⟨none, by simp [findSkin]⟩
      | some y =>
        have ho : On w x y := (on_iff w x y).mpr hb
        have := hr _ _ ho
        exact ih y (ha _ _ ho) (by omega)
    rw [findSkin]
    rcases hw : w x with _ | (g | (_ | ⟨t, k⟩ | ⟨b, ts⟩) | _)
    · rw [hw] at hx; cases hx
    · exact ⟨_, rfl⟩
    · exact next
    · exact ⟨_, rfl⟩
    · exact next
    · exact ⟨_, rfl⟩

theorem Inv.follow_ends {w : World} (i : Inv w) (o : Option Nat) (ho : ∀ x, o = some x → (w x).isSome) :
    ∃ r N, ∀ n ≥ N, follow w n o = some r := by
  obtain ⟨rk, hr⟩ := i.rank
  cases o with
  | none => exact ⟨none, 0, fun n _ => by simp [follow]⟩
  | some x =>
    obtain ⟨r, h⟩ := follow_total i.alive hr (rk x + 1) x (ho x rfl) (by omega)
    exact ⟨r, rk x + 1, fun n hn => follow_le w hn h⟩

theorem baseTarget_alive {w : World} (i : Inv w) (c x : Nat) (h : baseTarget w c = some x) : (w x).isSome :=
  i.alive c x ((on_iff w c x).mpr h)

/-- What is found is the geometry at the end. -/
theorem follow_some (w : World) : ∀ n x g, follow w n (some x) = some (some g) → Bottom w x g := by
  intro n
  induction n with
  | zero => intro x g h; simp [follow] at h
  | succ n ih =>
    intro x g h
    rw [follow] at h
    rcases hw : w x with _ | (G | c | _)
    · rw [hw] at h; cases h
    · rw [hw] at h
      cases h
      exact ⟨.refl, ⟨_, hw⟩⟩
    · rw [hw] at h
      cases hb : baseTarget w x with
      | none => rw [hb] at h; simp [follow] at h
      | some y =>
        rw [hb] at h
        obtain ⟨ha, hg⟩ := ih y g h
        exact ⟨.head ((on_iff w x y).mpr hb) ha, hg⟩
    · rw [hw] at h; cases h

/-- The geometry at the end is found, if the loop ends. -/
theorem follow_of_bottom {w : World} {x g : Nat} (h : Bottom w x g) : ∃ n, follow w n (some x) = some (some g) := by
  obtain ⟨ha, hg⟩ := h
  induction ha using Relation.ReflTransGen.head_induction_on with
  | refl =>
    obtain ⟨G, hG⟩ := hg
    exact ⟨1, by simp [follow, hG]⟩
  | head hab _ ih =>
    obtain ⟨n, hn⟩ := ih
    obtain ⟨c, hc⟩ := on_ctrl hab
    refine ⟨n + 1, ?_⟩
    rw [follow, hc]
    show follow w n (baseTarget w _) = _
    rw [(on_iff w _ _).mp hab]
    exact hn

theorem follow_det {w : World} {n m : Nat} {o r s} (h : follow w n o = some r) (h' : follow w m o = some s) : r = s := by
  rcases Nat.le_total n m with k | k
  · have := follow_le w k h
    rw [this] at h'
    exact Option.some.inj h'
  · have := follow_le w k h'
    rw [this] at h
    exact (Option.some.inj h).symm

theorem follow_iff {w : World} {n x : Nat} {r} (h : follow w n (some x) = some r) (g : Nat) : r = some g ↔ Bottom w x g := by
  constructor
  · rintro rfl
    exact follow_some w n x g h
  · intro hb
    obtain ⟨m, hm⟩ := follow_of_bottom hb
    exact follow_det h hm

theorem bottom_unique {w : World} {x g g' : Nat} (h : Bottom w x g) (h' : Bottom w x g') : g = g' := by
  obtain ⟨n, hn⟩ := follow_of_bottom h
  obtain ⟨m, hm⟩ := follow_of_bottom h'
  exact Option.some.inj (follow_det hn hm)

/-- A loop that ends from the top ends from every entity on the way. -/
theorem follow_suffix {w : World} {x y : Nat} (h : Above w x y) : ∀ n r, follow w n (some x) = some r → ∃ m, follow w m (some y) = some r := by
  induction h using Relation.ReflTransGen.head_induction_on with
  | refl => intro n r h; exact ⟨n, h⟩
  | head hab _ ih =>
    intro n r h
    cases n with
    | zero => simp [follow] at h
    | succ n =>
      obtain ⟨c, hc⟩ := on_ctrl hab
      rw [follow, hc] at h
      change follow w n (baseTarget w _) = _ at h
      rw [(on_iff w _ _).mp hab] at h
      exact ih n r h

theorem above_geom {w : World} {g x : Nat} (hg : IsGeom w g) (h : Above w g x) : g = x := by
  rcases Relation.ReflTransGen.cases_head h with h | ⟨y, hy, _⟩
  · exact h
  · exact absurd hy (geom_not_on hg)

/-- Fewer edges. -/
theorem rank_sub {w w' : World} (h : ∃ rk : Nat → Nat, ∀ c x, On w c x → rk x < rk c) (hs : ∀ c x, On w' c x → On w c x) :
    ∃ rk : Nat → Nat, ∀ c x, On w' c x → rk x < rk c := by
  obtain ⟨rk, hr⟩ := h
  exact ⟨rk, fun c x hx => hr c x (hs c x hx)⟩

open scoped Classical in
/-- One more edge, not upwards. -/
theorem rank_add {w w' : World} {c x : Nat} (h : ∃ rk : Nat → Nat, ∀ a b, On w a b → rk b < rk a)
    (hs : ∀ a b, On w' a b → On w a b ∨ (a = c ∧ b = x)) (hn : ¬ Above w x c) :
    ∃ rk : Nat → Nat, ∀ a b, On w' a b → rk b < rk a := by
  obtain ⟨rk, hr⟩ := h
  refine ⟨fun y => if Above w y c then rk y + rk x + 1 else rk y, fun a b hab => ?_⟩
  show (if Above w b c then rk b + rk x + 1 else rk b) < (if Above w a c then rk a + rk x + 1 else rk a)
  rcases hs a b hab with h | ⟨rfl, rfl⟩
  · have := hr a b h
    by_cases hb : Above w b c
    · have ha : Above w a c := Relation.ReflTransGen.head h hb
      rw [if_pos hb, if_pos ha]
      omega
    · rw [if_neg hb]
      split_ifs <;> omega
  · have ha : Above w a a := Relation.ReflTransGen.refl
    rw [if_neg hn, if_pos ha]
    omega

theorem on_put {w : World} {a c x : Nat} {e : Ent} (h : On (put w c e) a x) (hne : a ≠ c) : On w a x := by
  rw [on_iff] at h ⊢
  unfold baseTarget at h ⊢
  rwa [put_other w e hne] at h

theorem isGeom_put {w : World} {c g : Nat} {e : Ent} (hc : ¬ IsGeom w c ∨ ∃ G, e = .geom G) (h : IsGeom w g) : IsGeom (put w c e) g := by
  by_cases he : g = c
  · subst he
    rcases hc with hc | ⟨G, rfl⟩
    · exact absurd h hc
    · exact ⟨G, put_same _ _ _⟩
  · obtain ⟨G, hG⟩ := h
    exact ⟨G, by rw [put_other w e he, hG]⟩

theorem isSome_put {w : World} {c x : Nat} {e : Ent} (h : (w x).isSome) : (put w c e x).isSome := by
  by_cases he : x = c
  · subst he; rw [put_same]; rfl
  · rw [put_other w e he]; exact h

theorem ctrl_not_geom {w : World} {c : Nat} (h : IsCtrl w c) : ¬ IsGeom w c := by
  rintro ⟨g, hg⟩
  obtain ⟨k, hk⟩ := h
  rw [hk] at hg
  cases hg

/-- Storing a controller whose base is at most the old one, or one that is not above. -/
theorem Inv.put_ctrl {w : World} (i : Inv w) {c : Nat} {k : Ctrl} (hc : ¬ IsGeom w c)
    (hb : ∀ x, On (put w c (.ctrl k)) c x → (w x).isSome ∧ ¬ Above (put w c (.ctrl .empty)) x c)
    (hg : ∀ b ts, k = .morph b ts → ∀ t ∈ ts, ∀ g, t.geometry = some g → IsGeom w g) : Inv (put w c (.ctrl k)) := by
  have sub : ∀ a b, On (put w c (.ctrl .empty)) a b → On w a b := by
    intro a b h
    by_cases hac : a = c
    · subst hac
      rw [on_iff] at h
      simp [baseTarget, put_same] at h
    · exact on_put h hac
  refine ⟨?_, ?_, ?_⟩
  · intro a x h
    by_cases hac : a = c
    · subst hac
      exact isSome_put (hb x h).1
    · exact isSome_put (i.alive a x (on_put h hac))
  · have h0 := rank_sub i.rank sub
    by_cases hx : ∃ x, On (put w c (.ctrl k)) c x
    · obtain ⟨x, hx⟩ := hx
      refine rank_add (c := c) (x := x) h0 (fun a b hab => ?_) (hb x hx).2
      by_cases hac : a = c
      · subst hac
        exact Or.inr ⟨rfl, on_det hab hx⟩
      · refine Or.inl ?_
        rw [← put_put w c (.ctrl .empty)] at hab
        exact on_put hab hac
    · refine rank_sub h0 fun a b hab => ?_
      by_cases hac : a = c
      · subst hac
        exact absurd ⟨b, hab⟩ hx
      · rw [← put_put w c (.ctrl .empty)] at hab
        exact on_put hab hac
  · intro a b ts ha t ht g hgt
    by_cases hac : a = c
    · subst hac
      rw [put_same] at ha
      exact isGeom_put (Or.inl hc) (hg b ts (by simpa using ha) t ht g hgt)
    · rw [put_other w _ hac] at ha
      exact isGeom_put (Or.inl hc) (i.geos a b ts ha t ht g hgt)

/-- Storing something that is not a controller. -/
theorem Inv.put_plain {w : World} (i : Inv w) {c : Nat} {e : Ent} (he : ∀ k, e ≠ .ctrl k) (hc : ¬ IsGeom w c ∨ ∃ G, e = .geom G) : Inv (put w c e) := by
  have sub : ∀ a b, On (put w c e) a b → a ≠ c := by
    rintro a b h rfl
    obtain ⟨k, hk⟩ := on_ctrl h
    rw [put_same] at hk
    exact he k (Option.some.inj hk)
  refine ⟨fun a x h => isSome_put (i.alive a x (on_put h (sub a x h))), rank_sub i.rank fun a b h => on_put h (sub a b h), ?_⟩
  intro a b ts ha t ht g hgt
  by_cases hac : a = c
  · subst hac
    rw [put_same] at ha
    exact absurd (Option.some.inj ha) (he _)
  · rw [put_other w _ hac] at ha
    exact isGeom_put hc (i.geos a b ts ha t ht g hgt)

theorem Inv.start : Inv fun _ => none := by
  refine ⟨?_, ⟨fun _ => 0, ?_⟩, ?_⟩
  · intro c x h; rw [on_iff] at h; cases h
  · intro c x h; rw [on_iff] at h; cases h
  · intro c b ts h; cases h

/-- What the release leaves. -/
def released (w : World) (x : Nat) : World := fun y => if y = x then none else (w y).map (forget x)

theorem release_eq {w : World} {x : Nat} (h : (w x).isSome) : release w x = some (released w x) := by
  obtain ⟨e, he⟩ := Option.isSome_iff_exists.mp h
  simp [release, he]
  rfl

theorem released_on {w : World} {x a b : Nat} : On (released w x) a b ↔ On w a b ∧ a ≠ x ∧ b ≠ x := by
  rw [on_iff, on_iff]
  unfold baseTarget released
  by_cases ha : a = x
  · simp [ha]
  · rw [if_neg ha]
    rcases w a with _ | (g | (_ | ⟨t, k⟩ | ⟨b', ts⟩) | _)
    · simp
    · simp [forget]
    · simp [forget]
    · simp only [Option.map_some, forget]
      constructor
      · intro h
        split_ifs at h with ht
        refine ⟨h, ha, ?_⟩
        rintro rfl
        exact ht h
      · rintro ⟨rfl, _, hb⟩
        rw [if_neg (by simpa using hb)]
    · simp only [Option.map_some, forget]
      constructor
      · intro h
        split_ifs at h with ht
        refine ⟨h, ha, ?_⟩
        rintro rfl
        exact ht h
      · rintro ⟨rfl, _, hb⟩
        rw [if_neg (by simpa using hb)]
    · simp [forget]

theorem released_isSome {w : World} {x y : Nat} : (released w x y).isSome ↔ (w y).isSome ∧ y ≠ x := by
  unfold released
  by_cases h : y = x <;> simp [h]

theorem released_isGeom {w : World} {x y : Nat} : IsGeom (released w x) y ↔ IsGeom w y ∧ y ≠ x := by
  unfold IsGeom released
  by_cases h : y = x
  · simp [h]
  · rw [if_neg h]
    rcases w y with _ | (g | (_ | ⟨t, k⟩ | ⟨b, ts⟩) | _) <;> simp [forget, h]

theorem Inv.release {w : World} (i : Inv w) (x : Nat) : Inv (released w x) := by
  refine ⟨?_, rank_sub i.rank fun a b h => (released_on.mp h).1, ?_⟩
  · intro a b h
    obtain ⟨h1, _, h3⟩ := released_on.mp h
    exact released_isSome.mpr ⟨i.alive a b h1, h3⟩
  · intro a b ts ha t ht g hg
    unfold released at ha
    split_ifs at ha with hax
    rcases hw : w a with _ | (G | (_ | ⟨t', k⟩ | ⟨b', ts'⟩) | _) <;> rw [hw] at ha <;> simp only [Option.map_none, Option.map_some, forget] at ha
    · cases ha
    · cases ha
    · cases ha
    · cases ha
    · simp only [Option.some.injEq, Ent.ctrl.injEq, Ctrl.morph.injEq] at ha
      obtain ⟨_, rfl⟩ := ha
      obtain ⟨t0, ht0, rfl⟩ := List.mem_map.mp ht
      split_ifs at hg with hx
      · exact released_isGeom.mpr ⟨i.geos a b' ts' hw t0 ht0 g hg, by rintro rfl; exact hx hg⟩
    · cases ha

theorem Inv.isSimilar_ends {w : World} (i : Inv w) (b e : Option Nat) (hb : ∀ x, b = some x → (w x).isSome) (he : ∀ x, e = some x → (w x).isSome) :
    ∃ s N, ∀ n ≥ N, isSimilar n w b e = some s := by
  cases b with
  | none => exact ⟨false, 0, fun n _ => rfl⟩
  | some b =>
    cases e with
    | none => exact ⟨false, 0, fun n _ => rfl⟩
    | some e =>
      obtain ⟨r, N, hN⟩ := i.follow_ends (some b) hb
      obtain ⟨s, M, hM⟩ := i.follow_ends (some e) he
      refine ⟨similarGeom (r.bind w) (s.bind w), N + M, fun n hn => ?_⟩
      simp [isSimilar, hN n (by omega), hM n (by omega)]

theorem similarGeom_iff (X Y : Geom) : similarGeom (some (.geom X)) (some (.geom Y)) = true ↔ SameShape X Y := by
  rcases X with (_ | p) | a | _ <;> rcases Y with (_ | q) | b | _ <;> simp [similarGeom, SameShape, eq_comm]

theorem similarGeom_true {x y : Option Ent} (h : similarGeom x y = true) : ∃ X Y, x = some (.geom X) ∧ y = some (.geom Y) := by
  unfold similarGeom at h
  split at h
  · exact ⟨_, _, rfl, rfl⟩
  · exact ⟨_, _, rfl, rfl⟩
  · cases h

/-- What is computed is the specification. -/
theorem isSimilar_iff {n : Nat} {w : World} {b e : Nat} {s : Bool} (h : isSimilar n w (some b) (some e) = some s) : s = true ↔ Similar w b e := by
  simp only [isSimilar, Option.bind_eq_some_iff, Option.map_eq_some_iff] at h
  obtain ⟨r, hr, q, hq, rfl⟩ := h
  constructor
  · intro h
    obtain ⟨X, Y, hX, hY⟩ := similarGeom_true h
    rw [hX, hY, similarGeom_iff] at h
    obtain ⟨x, rfl, hx⟩ := Option.bind_eq_some_iff.mp hX
    obtain ⟨y, rfl, hy⟩ := Option.bind_eq_some_iff.mp hY
    exact ⟨x, X, y, Y, follow_some w n b x hr, hx, follow_some w n e y hq, hy, h⟩
  · rintro ⟨x, X, y, Y, hbx, hx, hey, hy, hs⟩
    rw [(follow_iff hr x).mpr hbx, (follow_iff hq y).mpr hey]
    simp only [Option.bind_some, hx, hy]
    exact (similarGeom_iff X Y).mpr hs

theorem Inv.keepSimilar_ends {w : World} (i : Inv w) (b : Option Nat) (hb : ∀ x, b = some x → (w x).isSome) :
    ∀ ts : List Target, (∀ t ∈ ts, ∀ g, t.geometry = some g → (w g).isSome) → ∃ l N, ∀ n ≥ N, keepSimilar n w b ts = some l := by
  intro ts
  induction ts with
  | nil => intro _; exact ⟨[], 0, fun n _ => rfl⟩
  | cons t ts ih =>
    intro h
    obtain ⟨l, N, hN⟩ := ih fun x hx => h x (List.mem_cons_of_mem _ hx)
    obtain ⟨s, M, hM⟩ := i.isSimilar_ends b t.geometry hb (h t List.mem_cons_self)
    refine ⟨if s then t :: l else l, N + M, fun n hn => ?_⟩
    simp [keepSimilar, hN n (by omega), hM n (by omega)]

open scoped Classical in
theorem keepSimilar_eq {n : Nat} {w : World} {b : Nat} : ∀ {ts l : List Target}, keepSimilar n w (some b) ts = some l →
    l = ts.filter fun t => Fits w b t := by
  intro ts
  induction ts with
  | nil => intro l h; cases h; rfl
  | cons t ts ih =>
    intro l h
    simp only [keepSimilar, Option.bind_eq_some_iff, Option.map_eq_some_iff] at h
    obtain ⟨s, hs, l', hl', rfl⟩ := h
    have := ih hl'
    subst this
    have e : s = true ↔ Fits w b t := by
      unfold Fits
      cases hg : t.geometry with
      | none =>
        rw [hg] at hs
        simp only [isSimilar, Option.some.injEq] at hs
        subst hs
        simp
      | some g =>
        rw [hg] at hs
        rw [isSimilar_iff hs]
        simp
    by_cases ht : Fits w b t
    · rw [if_pos (e.mpr ht), List.filter_cons_of_pos (by simpa using ht)]
    · rw [if_neg (fun h => ht (e.mp h)), List.filter_cons_of_neg (by simpa using ht)]

/-- After the morpher of `c` has lost its base, nothing with a geometry at the end is above `c`. -/
theorem not_above_of_bottom {w : World} {c x g : Nat} {k : Ctrl} (hk : ∀ y, ¬ On (put w c (.ctrl k)) c y) (h : Bottom (put w c (.ctrl k)) x g) :
    ¬ Above (put w c (.ctrl k)) x c := by
  intro ha
  obtain ⟨n, hn⟩ := follow_of_bottom h
  obtain ⟨m, hm⟩ := follow_suffix ha n _ hn
  cases m with
  | zero => simp [follow] at hm
  | succ m =>
    rw [follow, put_same] at hm
    have : baseTarget (put w c (.ctrl k)) c = none := by
      cases hb : baseTarget (put w c (.ctrl k)) c with
      | none => rfl
      | some y => exact absurd ((on_iff _ _ _).mpr hb) (hk y)
    simp [this, follow] at hm

theorem above_congr {w w' : World} (h : ∀ a b, On w a b ↔ On w' a b) {x y : Nat} : Above w x y ↔ Above w' x y := by
  have : On w = On w' := by
    funext a b
    exact propext (h a b)
  unfold Above
  rw [this]

theorem on_put_congr {w : World} {c : Nat} {k k' : Ctrl} (h : baseTarget (put w c (.ctrl k)) c = baseTarget (put w c (.ctrl k')) c) (a b : Nat) :
    On (put w c (.ctrl k)) a b ↔ On (put w c (.ctrl k')) a b := by
  by_cases hac : a = c
  · subst hac
    rw [on_iff, on_iff, h]
  · rw [on_iff, on_iff]
    unfold baseTarget
    rw [put_other w _ hac, put_other w _ hac]

/-- `c` has lost its base: fewer are above it. -/
theorem above_empty {w : World} {c x y : Nat} (h : Above (put w c (.ctrl .empty)) x y) : Above w x y := by
  have sub : ∀ a b, On (put w c (.ctrl .empty)) a b → On w a b := ?_
  · induction h with
    | refl => exact .refl
    | tail _ hbc ih => exact .tail ih (sub _ _ hbc)
  intro a b hab
  by_cases hac : a = c
  · subst hac
    rw [on_iff] at hab
    simp [baseTarget, put_same] at hab
  · exact on_put hab hac

/-- The same base. -/
theorem above_of_same {w : World} (i : Inv w) {c x : Nat} (h : On w c x) : (w x).isSome ∧ ¬ Above (put w c (.ctrl .empty)) x c := by
  refine ⟨i.alive c x h, fun ha => ?_⟩
  obtain ⟨rk, hr⟩ := i.rank
  have down : ∀ a b, Above w a b → rk b ≤ rk a := by
    intro a b hab
    induction hab with
    | refl => exact Nat.le_refl _
    | tail _ hbc ih => have := hr _ _ hbc; omega
  have := down x c (above_empty ha)
  have := hr c x h
  omega

theorem on_put_skin {w : World} {c x : Nat} {e : Option Nat} {k : Nat} : On (put w c (.ctrl (.skin e k))) c x ↔ e = some x := by
  rw [on_iff]; simp [baseTarget, put_same]

theorem on_put_morph {w : World} {c x : Nat} {e : Option Nat} {ts : List Target} : On (put w c (.ctrl (.morph e ts))) c x ↔ e = some x := by
  rw [on_iff]; simp [baseTarget, put_same]

theorem on_morph {w : World} {c x : Nat} {e : Option Nat} {ts : List Target} (h : w c = some (.ctrl (.morph e ts))) : On w c x ↔ e = some x := by
  rw [on_iff]; simp [baseTarget, h]

theorem Inv.setTarget_ends {w : World} (i : Inv w) {c : Nat} {e : Option Nat} {t k} (hc : w c = some (.ctrl (.skin t k)))
    (he : ∀ x, e = some x → (w x).isSome) :
    ∃ r N, (∀ n ≥ N, follow w n e = some r) ∧ ∀ n ≥ N, setTarget n w c e = some (match r with | none => w | some g => put w c (.ctrl (.skin e (vertexCount (w g))))) := by
  obtain ⟨r, N, hN⟩ := i.follow_ends e he
  refine ⟨r, N, hN, fun n hn => ?_⟩
  unfold setTarget
  rw [hc]
  simp only [hN n hn, Option.map_some]
  cases r <;> rfl

theorem Inv.cut {w : World} (i : Inv w) {c : Nat} {ts : List Target} {b} (hc : w c = some (.ctrl (.morph b ts))) : Inv (put w c (.ctrl (.morph none ts))) :=
  i.put_ctrl (ctrl_not_geom ⟨_, hc⟩) (fun x h => absurd (on_put_morph.mp h) (by simp)) (fun _ _ e => by cases e; exact i.geos c b ts hc)

theorem Inv.rebase {w : World} (i : Inv w) {c x : Nat} {ts l : List Target} {b} (hc : w c = some (.ctrl (.morph b ts))) (hx : (w x).isSome)
    (hbot : ∃ g, Bottom (put w c (.ctrl (.morph none ts))) x g) (hl : ∀ t ∈ l, t ∈ ts) : Inv (put w c (.ctrl (.morph (some x) l))) := by
  refine i.put_ctrl (ctrl_not_geom ⟨_, hc⟩) (fun y h => ?_) (fun _ _ e => by cases e; exact fun t ht => i.geos c b ts hc t (hl t ht))
  obtain rfl : x = y := by simpa using on_put_morph.mp h
  refine ⟨hx, fun ha => ?_⟩
  obtain ⟨g, hg⟩ := hbot
  refine not_above_of_bottom (fun y hy => ?_) hg ?_
  · exact absurd (on_put_morph.mp hy) (by simp)
  · refine (above_congr (on_put_congr ?_)).mpr ha
    simp [baseTarget, put_same]

theorem Inv.setBaseTarget_none {w : World} (i : Inv w) {c : Nat} {e : Option Nat} {b ts} (hc : w c = some (.ctrl (.morph b ts)))
    (he : ∀ x, e = some x → (w x).isSome) (hb : ∀ x, e = some x → ∀ g, ¬ Bottom (put w c (.ctrl (.morph none ts))) x g) :
    ∃ N, ∀ n ≥ N, setBaseTarget n w c e = some (put w c (.ctrl (.morph none []))) := by
  have i1 := i.cut hc
  obtain ⟨r, N, hN⟩ := i1.follow_ends e fun x hx => isSome_put (he x hx)
  have hr : r = none := by
    cases r with
    | none => rfl
    | some g =>
      cases e with
      | none => have := hN N (Nat.le_refl _); simp [follow] at this
      | some x => exact absurd (follow_some _ _ _ _ (hN N (Nat.le_refl _))) (hb x rfl g)
  subst hr
  refine ⟨N, fun n hn => ?_⟩
  unfold setBaseTarget
  rw [hc]
  simp only [hN n hn, Option.bind_some]

open scoped Classical in
theorem Inv.setBaseTarget_some {w : World} (i : Inv w) {c x g : Nat} {b ts} (hc : w c = some (.ctrl (.morph b ts)))
    (hx : (w x).isSome) (hb : Bottom (put w c (.ctrl (.morph none ts))) x g) :
    ∃ N, ∀ n ≥ N, setBaseTarget n w c (some x) = some (put w c (.ctrl (.morph (some x)
      (ts.filter fun t => Fits (put w c (.ctrl (.morph (some x) ts))) x t)))) := by
  have i1 := i.cut hc
  obtain ⟨r, N, hN⟩ := i1.follow_ends (some x) fun y hy => isSome_put (by cases hy; exact hx)
  have hr : r = some g := (follow_iff (hN N (Nat.le_refl _)) g).mpr hb
  subst hr
  have i2 : Inv (put w c (.ctrl (.morph (some x) ts))) := i.rebase hc hx ⟨g, hb⟩ fun t ht => ht
  obtain ⟨l, M, hM⟩ := i2.keepSimilar_ends (some x) (fun y hy => isSome_put (by cases hy; exact hx)) ts
    fun t ht g hg => isSome_put (by obtain ⟨G, hG⟩ := i.geos c b ts hc t ht g hg; rw [hG]; rfl)
  refine ⟨N + M, fun n hn => ?_⟩
  unfold setBaseTarget
  rw [hc]
  simp only [hN n (by omega), Option.bind_some, hM n (by omega), Option.map_some]
  rw [keepSimilar_eq (hM n (by omega))]

end Verif.FCtrl
