import Verif.JointSpec
import Verif.InstProps
import Verif.LibSub
import Verif.ArcInstLemmas

/-!
# Lemmas about the linking of joints
-/

namespace Verif.FJoint

open Verif.FStr Verif.FScene Verif.FInst

/-- What a search below one node gives. -/
def Below (w : World) (name : Nat → List Ch) (j : List Ch) (x : Nat) (r : Option Nat) : Prop :=
  (∀ y, r = some y → Desc w x y ∧ name y = j) ∧ (r = none → ∀ y, Desc w x y → name y ≠ j)

theorem subFirst_ok (w : World) (sub : Nat → List Ch) (j : List Ch) (f : Nat → Option (Option Nat)) : ∀ l : List Nat, (∀ x ∈ l, ∃ r, f x = some r ∧ Below w sub j x r) →
    ∃ r, FLib.findSubFirst f l = some r ∧ (∀ y, r = some y → (∃ x ∈ l, Desc w x y) ∧ sub y = j) ∧ (r = none → ∀ x ∈ l, ∀ y, Desc w x y → sub y ≠ j) := by
  intro l
  induction l with
  | nil => intro _; exact ⟨none, rfl, fun _ h => (nomatch h), fun _ x hx => absurd hx List.not_mem_nil⟩
  | cons x l ih =>
    intro h
    obtain ⟨r, hr, hb⟩ := h x List.mem_cons_self
    obtain ⟨s, hs, h1, h2⟩ := ih fun y hy => h y (List.mem_cons_of_mem _ hy)
    cases r with
    | some y =>
      refine ⟨some y, by simp [FLib.findSubFirst, hr], ?_, fun e => (nomatch e)⟩
      rintro z ⟨⟩
      exact ⟨⟨x, by simp, (hb.1 y rfl).1⟩, (hb.1 y rfl).2⟩
    | none =>
      refine ⟨s, by simp [FLib.findSubFirst, hr, hs], ?_, ?_⟩
      · intro y hy
        obtain ⟨⟨z, hz, hd⟩, he⟩ := h1 y hy
        exact ⟨⟨z, List.mem_cons_of_mem _ hz, hd⟩, he⟩
      · intro e z hz y hd
        rcases List.mem_cons.1 hz with rfl | hz
        · exact hb.2 rfl y hd
        · exact h2 e z hz y hd

theorem sub_ok {w : World} {rk : Nat → Nat} (hi : Inv rk (fun _ => False) w) (sub : Nat → List Ch) (j : List Ch) :
    ∀ (k x : Nat), (w.nodes x).isSome → rk x < k → ∃ r, (∀ n ≥ k, FLib.findSubId w sub j n x = some r) ∧ Below w sub j x r := by
  intro k
  induction k with
  | zero => intro x _ h; omega
  | succ k ih =>
    intro x hx hk
    obtain ⟨a, ha⟩ := Option.isSome_iff_exists.mp hx
    by_cases e : sub x = j
    · refine ⟨some x, fun n hn => ?_, ?_, fun e => (nomatch e)⟩
      · obtain ⟨m, rfl⟩ : ∃ m, n = m + 1 := ⟨n - 1, by omega⟩
        simp [FLib.findSubId, ha, e]
      · rintro y ⟨⟩
        exact ⟨.refl, e⟩
    · have hc : ∀ c ∈ a.children, Child w x c := fun c hc => ⟨a, ha, hc⟩
      have hk' : ∀ c ∈ a.children, ∃ r, (∀ n ≥ k, FLib.findSubId w sub j n c = some r) ∧ Below w sub j c r :=
        fun c h => ih c (hi.alive x c (hc c h)) (by have := hi.rank x c (hc c h); omega)
      obtain ⟨r, hr, h1, h2⟩ := subFirst_ok w sub j (FLib.findSubId w sub j k) a.children fun c h => by
        obtain ⟨r, hr, hb⟩ := hk' c h
        exact ⟨r, hr k (Nat.le_refl _), hb⟩
      refine ⟨r, fun n hn => ?_, ?_, ?_⟩
      · obtain ⟨m, rfl⟩ : ∃ m, n = m + 1 := ⟨n - 1, by omega⟩
        obtain ⟨s, hs, h3, h4⟩ := subFirst_ok w sub j (FLib.findSubId w sub j m) a.children fun c h => by
          obtain ⟨r, hr, hb⟩ := hk' c h
          exact ⟨r, hr m (by omega), hb⟩
        have : ∀ l : List Nat, (∀ c ∈ l, c ∈ a.children) → FLib.findSubFirst (FLib.findSubId w sub j m) l = FLib.findSubFirst (FLib.findSubId w sub j k) l := by
          intro l
          induction l with
          | nil => intro _; rfl
          | cons c l ihl =>
            intro hl
            obtain ⟨r, hr, _⟩ := hk' c (hl c (by simp))
            rw [FLib.findSubFirst, FLib.findSubFirst, hr m (by omega), hr k (Nat.le_refl _), ihl fun d hd => hl d (by simp [hd])]
        rw [FLib.findSubId, ha, Option.bind_some, if_neg e, this _ (fun _ h => h), hr]
      · intro y hy
        obtain ⟨⟨z, hz, hd⟩, he⟩ := h1 y hy
        exact ⟨.head (hc z hz) hd, he⟩
      · intro hn y hd
        rcases Relation.ReflTransGen.cases_head hd with rfl | ⟨c, hcz, hd⟩
        · exact e
        · obtain ⟨a', ha', hm⟩ := hcz
          rw [ha] at ha'
          cases ha'
          exact h2 hn c hm y hd

theorem boneIn_ok {w : World} (hg : Good w) (ids sub : Nat → List Ch) (sids : Bool) (j : List Ch) (x : Nat) (hx : (w.nodes x).isSome) :
    ∃ r N, (∀ n ≥ N, boneIn w ids sub n sids j x = some r) ∧ Below w (nameOf ids sub sids) j x r := by
  obtain ⟨rk, hi, _⟩ := hg
  cases sids with
  | true =>
    obtain ⟨r, h1, h2⟩ := sub_ok hi sub j (rk x + 1) x hx (by omega)
    exact ⟨r, _, h1, h2⟩
  | false =>
    obtain ⟨r, N, h1, h2, h3⟩ := findDaeId_ok hi ids j (rk x + 1) x hx (by omega)
    refine ⟨r, N, h1, ?_, fun e => h3 e x (by simp)⟩
    intro y hy
    obtain ⟨⟨z, hz, hd⟩, he⟩ := h2 y hy
    rw [List.mem_singleton] at hz
    exact ⟨hz ▸ hd, he⟩

theorem boneNode_ok {w : World} (hg : Good w) (ids sub : Nat → List Ch) (sids : Bool) (j : List Ch) : ∀ roots : List Nat, (∀ x ∈ roots, (w.nodes x).isSome) →
    ∃ r N, (∀ n ≥ N, boneNode (boneIn w ids sub n sids j) (roots.map some) = some r) ∧ Bone w (nameOf ids sub sids) roots j r := by
  intro roots
  induction roots with
  | nil => intro _; exact ⟨none, 0, fun _ _ => rfl, fun _ h => absurd h List.not_mem_nil⟩
  | cons x l ih =>
    intro h
    obtain ⟨r, N, hr, hb⟩ := boneIn_ok hg ids sub sids j x (h x (by simp))
    obtain ⟨s, M, hs, hc⟩ := ih fun y hy => h y (by simp [hy])
    cases r with
    | some y =>
      refine ⟨some y, N, fun n hn => by simp [boneNode, hr n hn], (hb.1 y rfl).2, [], x, l, rfl, (hb.1 y rfl).1, by simp⟩
    | none =>
      refine ⟨s, N + M, fun n hn => by simp [boneNode, hr n (by omega), hs n (by omega)], ?_⟩
      cases s with
      | none =>
        intro z hz y hd
        rcases List.mem_cons.1 hz with rfl | hz
        · exact hb.2 rfl y hd
        · exact hc z hz y hd
      | some y =>
        obtain ⟨he, b, r, a, e, hd, ho⟩ := hc
        refine ⟨he, x :: b, r, a, by simp [e], hd, ?_⟩
        intro z hz
        rcases List.mem_cons.1 hz with rfl | hz
        · exact fun y hd => hb.2 rfl y hd
        · exact ho z hz

theorem linkJoints_ok {w : World} (hg : Good w) (ids sub : Nat → List Ch) (sids : Bool) (roots : List Nat) (hr : ∀ x ∈ roots, (w.nodes x).isSome) : ∀ js : List (List Ch),
    ∃ (l : List (Option Nat)) (N : Nat), List.Forall₂ (Bone w (nameOf ids sub sids) roots) js l ∧
      ∀ n ≥ N, ∀ s : Linked, linkJoints (fun j => boneNode (boneIn w ids sub n sids j) (roots.map some)) s js =
        some ⟨{ s.inst with joints := s.inst.joints ++ nodesOf l }, s.flagged ++ nodesOf l, s.warnings + l.countP Option.isNone⟩ := by
  intro js
  induction js with
  | nil => exact ⟨[], 0, .nil, fun _ _ s => by simp [linkJoints, nodesOf]⟩
  | cons j js ih =>
    obtain ⟨l, N, hl, hN⟩ := ih
    obtain ⟨r, M, hM, hb⟩ := boneNode_ok hg ids sub sids j roots hr
    refine ⟨r :: l, N + M, .cons hb hl, fun n hn s => ?_⟩
    rw [linkJoints, hM n (by omega), Option.bind_some, hN n (by omega)]
    cases r with
    | none => simp [linkBone, nodesOf]; omega
    | some y => simp [linkBone, nodesOf, addJoint]

/-- With names that are unique below the roots, the joint of a node is linked to this node. -/
theorem bone_unique {w : World} {name : Nat → List Ch} {roots : List Nat} {x : Nat} {r : Option Nat} (hx : ∃ q ∈ roots, Desc w q x)
    (hu : ∀ y, (∃ q ∈ roots, Desc w q y) → name y = name x → y = x) (h : Bone w name roots (name x) r) : r = some x := by
  cases r with
  | none => obtain ⟨q, hq, hd⟩ := hx; exact absurd rfl (h q hq x hd)
  | some y =>
    obtain ⟨he, b, q, a, e, hd, -⟩ := h
    rw [hu y ⟨q, by simp [e], hd⟩ he]

theorem bones_unique {w : World} {name : Nat → List Ch} {roots : List Nat} : ∀ {xs : List Nat} {l : List (Option Nat)}, (∀ x ∈ xs, ∃ q ∈ roots, Desc w q x) →
    (∀ x ∈ xs, ∀ y, (∃ q ∈ roots, Desc w q y) → name y = name x → y = x) → List.Forall₂ (Bone w name roots) (xs.map name) l → l = xs.map some := by
  intro xs
  induction xs with
  | nil => intro l _ _ h; cases h; rfl
  | cons x xs ih =>
    intro l hx hu h
    rw [List.map_cons] at h
    cases h with
    | cons hb ht =>
      rw [bone_unique (hx x (by simp)) (hu x (by simp)) hb, ih (fun y hy => hx y (by simp [hy])) (fun y hy => hu y (by simp [hy])) ht]
      rfl

theorem nodesOf_some (xs : List Nat) : nodesOf (xs.map some) = xs := by
  unfold nodesOf
  induction xs with
  | nil => rfl
  | cons x xs ih => simp [ih]

theorem countP_some (xs : List Nat) : (xs.map some).countP Option.isNone = 0 := by
  induction xs with
  | nil => rfl
  | cons x xs ih => simp

end Verif.FJoint
