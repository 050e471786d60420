import Verif.EntAux
import Mathlib.Data.Rat.Defs
import Mathlib.Algebra.Order.Field.Rat
import Mathlib.Tactic.FieldSimp
import Mathlib.Tactic.Linarith
import Verif.Ent

/-! # Properties of assets, entities, targets and cameras (C136, C137, C138, C139) -/

namespace Verif.FEnt

open Verif.FEff (Text text)

variable {D E C L K : Type}

section assets

/-- C136: the copy of an asset is the asset with the time of the copy as its time of modification: dates, texts, up-axis, unit, both flags, and all the contributors in order when they are asked for, none otherwise. -/
theorem asset_clone [Zero K] [One K] (a : Asset D K) (now : D) (all : Bool) :
    a.clone now all = { a with modified := now, contributors := if all then a.contributors else [] } := by
  cases all
  · simp [Asset.clone, Asset.cloneInto, newAsset]
  · simp [Asset.clone, Asset.cloneInto, newAsset, contributors_same]

/-- C136: a copy into an asset that has contributors adds those of the original after them, and an up-axis or a unit set in the original is set in the copy. -/
theorem asset_clone_into_partial (a c : Asset D K) (now : D) :
    (a.cloneInto c now true).contributors = c.contributors ++ a.contributors ∧ (a.cloneInto c now false).contributors = c.contributors
      ∧ (∀ all, (a.hasUpAxis = true → (a.cloneInto c now all).hasUpAxis = true) ∧ (a.hasUnits = true → (a.cloneInto c now all).hasUnits = true)
        ∧ (a.cloneInto c now all).upAxis = a.upAxis ∧ (a.cloneInto c now all).unitFactor = a.unitFactor) := by
  refine ⟨by simp [Asset.cloneInto, contributors_same], by simp [Asset.cloneInto], fun all => ⟨?_, ?_, rfl, rfl⟩⟩
  · intro h; simp [Asset.cloneInto, h]
  · intro h; simp [Asset.cloneInto, h]

/-- C136, violated: a copy into an asset with an up-axis of its own keeps the flag, now for the up-axis of the original, which was not set. -/
theorem asset_clone_into_violated (a c : Asset D K) (now : D) (all : Bool) (hc : c.hasUpAxis = true) : (a.cloneInto c now all).hasUpAxis = true := by
  simp [Asset.cloneInto, hc]

example : ((newAsset 0 : Asset Nat ℚ).cloneInto ((newAsset 0).setUpAxis (0, 0, 1)) 5 true).hasUpAxis = true
    ∧ ((newAsset 0 : Asset Nat ℚ).cloneInto ((newAsset 0).setUpAxis (0, 0, 1)) 5 true).upAxis = (0, 1, 0) ∧ (newAsset 0 : Asset Nat ℚ).hasUpAxis = false := by
  decide +kernel

/-- C136: a contributor is empty exactly when all its texts are. -/
theorem contributor_empty (c : Contributor) : c.isEmpty = true ↔ c = {} := by
  obtain ⟨a, b, c, d, e⟩ := c
  simp [Contributor.isEmpty, and_assoc]

end assets

section entities

/-- The classes whose copy is of the same class. -/
def Keeps : Body E C L → Prop
  | .camera _ _ => False
  | .light _ _ => False
  | _ => True

/-- C137: the copy of an entity has its name, note, extra tree, and, unless it is a camera or a light, its class and fields; it has no asset. -/
theorem entity_clone_partial (e0 : E) (s : Entity D K E C L) :
    (s.clone e0).name = s.name ∧ (s.clone e0).note = s.note ∧ (s.clone e0).extra = s.extra ∧ (Keeps s.body → (s.clone e0).body = s.body) := by
  refine ⟨rfl, rfl, rfl, ?_⟩
  intro h
  obtain ⟨n, t, x, a, b⟩ := s
  cases b <;> first | rfl | exact absurd h id

example : Keeps (.image (text "a.png") 4 5 6 true : Body Nat Nat Nat) ∧ ((⟨text "n", [], 3, none, .image (text "a.png") 4 5 6 true⟩ : Entity Nat Nat Nat Nat Nat).clone 0).body = .image (text "a.png") 4 5 6 true :=
  ⟨trivial, rfl⟩

/-- C137, violated: the copy of a camera or of a light is neither: it is a targeted entity with the target alone; and copying one camera into another, or one light into another, leaves the fields of the latter. -/
theorem camera_clone_violated (e0 : E) (s d : Entity D K E C L) (t t' : Option Nat) (c c' : C) (l l' : L) :
    (s.body = .camera t c → (s.clone e0).body = .targeted t) ∧ (s.body = .light t l → (s.clone e0).body = .targeted t)
      ∧ (s.body = .camera t c → d.body = .camera t' c' → (s.cloneInto d).body = .camera t c')
      ∧ (s.body = .light t l → d.body = .light t' l' → (s.cloneInto d).body = .light t l') := by
  refine ⟨?_, ?_, ?_, ?_⟩
  · intro h; simp only [Entity.clone, Entity.cloneInto, h, fresh, Body.cloneInto, setTarget]
  · intro h; simp only [Entity.clone, Entity.cloneInto, h, fresh, Body.cloneInto, setTarget]
  · intro h h'; simp only [Entity.cloneInto, h, h', Body.cloneInto, setTarget]
  · intro h h'; simp only [Entity.cloneInto, h, h', Body.cloneInto, setTarget]

/-- C137, violated: the copy of an entity has no asset, so that the asset of the document holds for it, whatever held for the original. -/
theorem entity_asset_violated (e0 : E) (s : Entity D K E C L) (doc : Asset D K) : (s.clone e0).asset = none ∧ (s.clone e0).holds doc = doc := ⟨rfl, rfl⟩

example : ∃ (s : Entity Nat ℚ Nat Nat Nat) (doc : Asset Nat ℚ), (s.holds doc).unitFactor = 1 / 100 ∧ ((s.clone 0).holds doc).unitFactor = 1 :=
  ⟨⟨[], [], 0, some ((newAsset 0).setFactor (1 / 100)), .entity⟩, newAsset 0, rfl, rfl⟩

end entities

section targets

/-- C138: as long as no entity is released, the target count of every scene node is the number of the live entities that have it as their target, after any sequence of new nodes and entities, changes of targets, copies and releases of nodes; and the target of every entity is a live node. -/
theorem targets_counted_partial (s : Targets) (h : TReach Keep s) :
    ∃ l : List Nat, l.Nodup ∧ (∀ e, e ∈ l ↔ s.target e ≠ none) ∧ (∀ e n, s.target e = some (some n) → s.count n ≠ none)
      ∧ ∀ n c, s.count n = some c → c = aimed s l n := by
  obtain ⟨l, hi⟩ := reach_inv True Keep (fun _ _ h => h) h
  exact ⟨l, hi.nodup, hi.live, hi.nodes, hi.eq trivial⟩

/-- C138: after any history, releases of entities included, a node that an entity has as its target says that it is a target. -/
theorem is_target (s : Targets) (h : TReach (fun _ => True) s) (e n : Nat) (he : s.target e = some (some n)) : ∃ c, s.count n = some c ∧ 0 < c := by
  obtain ⟨l, hi⟩ := reach_inv False (fun _ => True) (fun h => absurd h id) h
  obtain ⟨c, hc⟩ := Option.ne_none_iff_exists'.mp (hi.nodes e n he)
  refine ⟨c, hc, ?_⟩
  have h1 := hi.le n c hc
  have h2 : 0 < aimed s l n := List.countP_pos_iff.mpr ⟨e, (hi.live e).mpr (by rw [he]; simp), by simp [he]⟩
  omega

/-- C138, violated: after the one entity that has a node as its target is released, the node still says that it is a target. -/
theorem released_target_violated : ∃ s, TReach (fun _ => True) s ∧ s.count 0 = some 1 ∧ ∀ e, s.target e ≠ some (some 0) := by
  refine ⟨tstep (tstep (tstep (tstep ⟨fun _ => none, fun _ => none⟩ (.newNode 0)) (.newEntity 0)) (.setTarget 0 (some 0))) (.releaseEntity 0), ?_, rfl, ?_⟩
  · refine .step _ (.step _ (.step _ (.step _ .init rfl trivial) rfl trivial) ⟨by decide, ?_⟩ trivial) (by change (some _ : Option (Option Nat)) ≠ none; simp) trivial
    intro m hm
    cases hm
    change (some _ : Option Nat) ≠ none
    simp
  · intro e
    change (if e = 0 then none else if e = 0 then some (some 0) else if e = 0 then some none else none) ≠ some (some 0)
    split <;> simp_all

example : ∃ s, TReach Keep s ∧ s.target 1 = some (some 0) ∧ s.count 0 = some 2 := by
  refine ⟨tstep (tstep (tstep (tstep ⟨fun _ => none, fun _ => none⟩ (.newNode 0)) (.newEntity 0)) (.setTarget 0 (some 0))) (.clone 0 1), ?_, rfl, rfl⟩
  refine .step _ (.step _ (.step _ (.step _ .init rfl trivial) rfl trivial) ⟨by decide, ?_⟩ trivial) ⟨by change (some _ : Option (Option Nat)) ≠ none; simp, rfl⟩ trivial
  intro m hm
  cases hm
  change (some _ : Option Nat) ≠ none
  simp

end targets

section camera

variable [Field K] [LinearOrder K]

/-- Runs the setters on a camera. -/
def runView (eps : K) (v : View K) : List (COp K) → Option (View K)
  | [] => some v
  | o :: l => (v.set eps o).bind fun w => runView eps w l

/-- Whether the setter sets one of the views. -/
def SetsView : COp K → Prop
  | .aspect _ => False
  | _ => True

/-- C139: the views are the ones last set, and each is marked as set; after a view was set, if both are marked and the horizontal one is not about zero, the vertical one is not zero and the aspect ratio is the horizontal view over the vertical one. -/
theorem camera_aspect_partial (eps : K) (v w : View K) (o : COp K) (h : v.set eps o = some w) :
    (∀ x, o = .fovX x → w.x = x ∧ w.y = v.y ∧ w.hasX = true ∧ w.hasY = v.hasY) ∧ (∀ y, o = .fovY y → w.y = y ∧ w.x = v.x ∧ w.hasY = true ∧ w.hasX = v.hasX)
      ∧ (∀ a, o = .aspect a → w = { v with aspect := a })
      ∧ (SetsView o → w.hasX = true → w.hasY = true → nearZero eps w.x = false → w.y ≠ 0 ∧ w.aspect = w.x / w.y) := by
  cases o with
  | fovX x =>
    rw [View.set, Option.map_eq_some_iff] at h
    obtain ⟨u, hu, rfl⟩ := h
    obtain ⟨h1, h2, h3, h4, h5⟩ := ratio_some hu
    refine ⟨?_, (fun _ h => nomatch h), (fun _ h => nomatch h), ?_⟩
    · intro x' hx
      cases hx
      exact ⟨h1, h2, rfl, h4⟩
    · intro _ _ hy hz
      have := h5 (h4 ▸ hy) (by rw [← h1]; exact hz)
      exact ⟨by rw [h2]; exact this.1, by rw [h1, h2]; exact this.2⟩
  | fovY y =>
    rw [View.set, Option.map_eq_some_iff] at h
    obtain ⟨u, hu, rfl⟩ := h
    obtain ⟨h1, h2, h3, h4, h5⟩ := ratio_some hu
    refine ⟨(fun _ h => nomatch h), ?_, (fun _ h => nomatch h), ?_⟩
    · intro x' hx
      cases hx
      exact ⟨h2, h1, rfl, h3⟩
    · intro _ hx _ hz
      have := h5 (h3 ▸ hx) (by rw [← h1]; exact hz)
      exact ⟨by rw [h2]; exact this.1, by rw [h1, h2]; exact this.2⟩
  | aspect a =>
    cases h
    refine ⟨(fun _ h => nomatch h), (fun _ h => nomatch h), ?_, fun h => absurd h id⟩
    intro a' ha
    cases ha
    rfl

example : runView (1 / 10000 : ℚ) newView [.fovX 90, .fovY 60] = some ⟨90, 60, 3 / 2, true, true⟩ := by decide +kernel

/-- C139, violated: with both views set, the aspect ratio is not the vertical view over the horizontal one, which is what the documentation of the class says it is, unless the views are equal or opposite. -/
theorem camera_documented_violated [IsStrictOrderedRing K] (eps : K) (he : 0 < eps) (v w : View K) (o : COp K) (h : v.set eps o = some w) (ho : SetsView o) (hx : w.hasX = true) (hy : w.hasY = true)
    (hz : nearZero eps w.x = false) (hne : w.x ≠ w.y) (hne' : w.x ≠ -w.y) : w.aspect ≠ w.y / w.x := by
  obtain ⟨h1, h2⟩ := (camera_aspect_partial eps v w o h).2.2.2 ho hx hy hz
  have hx0 : w.x ≠ 0 := by
    intro h0
    rw [nearZero, h0] at hz
    simp [he] at hz
  rw [h2]
  intro heq
  rw [div_eq_div_iff h1 hx0] at heq
  rcases mul_self_eq_mul_self_iff.mp heq with h3 | h3
  · exact hne h3
  · exact hne' h3

/-- C139, violated: a vertical view of zero divides by zero; and a horizontal view of about zero leaves the old aspect ratio. -/
theorem camera_zero_violated (eps : K) (v : View K) (hx : v.hasX = true) :
    (nearZero eps v.x = false → v.set eps (.fovY 0) = none) ∧ ∀ x, nearZero eps x = true → ∃ w, v.set eps (.fovX x) = some w ∧ w.aspect = v.aspect := by
  constructor
  · intro h
    simp [View.set, ratio, hx, h]
  · intro x h
    refine ⟨{ v with x := x, hasX := true }, ?_, rfl⟩
    simp [View.set, ratio, h]

example : runView (1 / 10000 : ℚ) newView [.fovX 90, .fovY 0] = none := by decide +kernel

end camera

end Verif.FEnt
