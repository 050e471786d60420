import Verif.InstSpec
import Verif.SceneOps
import Verif.UriProps

/-!
# Lemmas about instances in the scene graph
-/

namespace Verif.FInst

open Verif.FScene Verif.FStr

/-- The parents of a node. -/
def parentsOf (w : World) (p : Nat) : List Nat := (w.nodes p).elim [] Node.parents

theorem mem_parentsOf {w : World} {p z : Nat} : z ∈ parentsOf w p ↔ Parent w z p := by
  unfold parentsOf Parent
  cases h : w.nodes p with
  | none => simp
  | some a => simp

theorem climb_round (w : World) (y : Nat) : ∀ (l m : List Nat) (n : Nat), (∀ p ∈ l, (w.nodes p).isSome) →
    climb w y (l.length + n) (l ++ m) = if y ∈ l then some true else climb w y n (m ++ l.flatMap (parentsOf w)) := by
  intro l
  induction l with
  | nil => intro m n _; simp
  | cons p l ih =>
    intro m n h
    rw [List.length_cons, show l.length + 1 + n = (l.length + n) + 1 by omega, List.cons_append, climb]
    by_cases e : p = y
    · simp [e]
    · rw [if_neg e]
      obtain ⟨P, hP⟩ := Option.isSome_iff_exists.mp (h p List.mem_cons_self)
      rw [hP, Option.bind_some, List.append_assoc, ih _ n fun q hq => h q (List.mem_cons_of_mem _ hq)]
      have : parentsOf w p = P.parents := by simp [parentsOf, hP]
      simp [this, Ne.symm e]

open scoped Classical in
theorem climb_ok {w : World} {rk : Nat → Nat} (hi : Inv rk (fun _ => False) w) (y B : Nat) (hB : ∀ p, (w.nodes p).isSome → rk p ≤ B) :
    ∀ k l, (∀ p ∈ l, (w.nodes p).isSome ∧ B - rk p < k) → ∃ N, ∀ n ≥ N, climb w y n l = some (decide (∃ p ∈ l, Desc w y p)) := by
  intro k
  induction k with
  | zero =>
    intro l h
    have : l = [] := by
      cases l with
      | nil => rfl
      | cons a l => have := (h a List.mem_cons_self).2; omega
    subst this
    refine ⟨1, fun n hn => ?_⟩
    obtain ⟨m, rfl⟩ : ∃ m, n = m + 1 := ⟨n - 1, by omega⟩
    simp [climb]
  | succ k ih =>
    intro l h
    have up : ∀ z ∈ l.flatMap (parentsOf w), ∃ p ∈ l, Child w z p := by
      intro z hz
      obtain ⟨p, hp, hzp⟩ := List.mem_flatMap.mp hz
      exact ⟨p, hp, (hi.mirror z p (by simp)).mpr (mem_parentsOf.mp hzp)⟩
    obtain ⟨N, hN⟩ := ih (l.flatMap (parentsOf w)) (by
      intro z hz
      obtain ⟨p, hp, hc⟩ := up z hz
      have h1 := hi.rank z p hc
      have h2 : (w.nodes z).isSome := by obtain ⟨b, hb, _⟩ := hc; simp [hb]
      have h3 := hB z h2
      have h4 := (h p hp).2
      exact ⟨h2, by omega⟩)
    refine ⟨l.length + N, fun n hn => ?_⟩
    obtain ⟨m, rfl⟩ : ∃ m, n = l.length + m := ⟨n - l.length, by omega⟩
    have := climb_round w y l [] m fun p hp => (h p hp).1
    rw [List.append_nil] at this
    rw [this, List.nil_append]
    by_cases hy : y ∈ l
    · rw [if_pos hy]
      have : ∃ p ∈ l, Desc w y p := ⟨y, hy, .refl⟩
      simp [this]
    · rw [if_neg hy, hN m (by omega)]
      congr 1
      rw [decide_eq_decide]
      constructor
      · rintro ⟨z, hz, hd⟩
        obtain ⟨p, hp, hc⟩ := up z hz
        exact ⟨p, hp, hd.tail hc⟩
      · rintro ⟨p, hp, hd⟩
        rcases Relation.ReflTransGen.cases_tail hd with e | ⟨z, hz, hc⟩
        · exact absurd (e ▸ hp) hy
        · exact ⟨z, List.mem_flatMap.mpr ⟨p, hp, mem_parentsOf.mpr ((hi.mirror z p (by simp)).mp hc)⟩, hz⟩

theorem findJointIndex_eq (j : Nat) : ∀ (l : List Nat) (k : Nat), findJointIndex j k l = if j ∈ l then k + l.idxOf j else npos := by
  intro l
  induction l with
  | nil => intro k; simp [findJointIndex]
  | cons x l ih =>
    intro k
    rw [findJointIndex]
    by_cases e : x = j
    · simp [e]
    · rw [if_neg e, ih]
      have : j ∈ x :: l ↔ j ∈ l := by simp [Ne.symm e]
      by_cases h : j ∈ l
      · rw [if_pos h, if_pos (this.mpr h), List.idxOf_cons_ne _ e]
        omega
      · rw [if_neg h, if_neg (fun hh => h (this.mp hh))]

theorem hasJointParent_iff (joints : List Nat) : ∀ l, hasJointParent joints l = true ↔ ∃ p ∈ l, p ∈ joints := by
  intro l
  induction l with
  | nil => simp [hasJointParent]
  | cons p l ih =>
    rw [hasJointParent]
    by_cases h : p ∈ joints
    · simp [h]
    · simp [h, ih]

theorem find_head (c : Ch) (t : List Ch) : FUri.find c (c :: t) 0 = some 0 := by
  simp [FUri.find, List.findIdx?_cons]

/-- A URI that is only a fragment. -/
theorem parse_fragment (ov : FConv.Ov) (id : List Ch) (h : 92 ∉ id) : ∃ u, FUri.parse ov (35 :: id) = some u ∧ u.fragment = id := by
  have hs : FUri.slashes (35 :: id) = 35 :: id := by
    apply FUri.slashes_eq
    simp [h]
  have fin : ∀ r hd, (FUri.finish (35 :: id) hd r).fragment = id := by
    intro r hd
    simp [FUri.finish, find_head]
  have host : ∀ i hi d, ∃ u, FUri.hostPart ov (35 :: id) i hi { scheme := .none, delim := d } = some u ∧ u.fragment = id := by
    intro i hi d
    refine ⟨_, ?_, fin { scheme := .none, delim := d } 0⟩
    rw [FUri.hostPart, if_pos rfl]
  rw [FUri.parse, if_neg (by simp)]
  simp only [hs]
  cases hf : FUri.find 58 (35 :: id) 0 with
  | none =>
    simp only
    rw [if_neg (by simp)]
    exact host 0 0 []
  | some i =>
    simp only
    by_cases hi : i > 1
    · rw [if_pos hi]
      have : FUri.schemeOf ((35 :: id).take i) = .none := by
        obtain ⟨k, rfl⟩ : ∃ k, i = k + 1 := ⟨i - 1, by omega⟩
        rw [List.take_succ_cons]
        simp [FUri.schemeOf, FUri.fileT, FUri.ftpT, FUri.httpT, FUri.httpsT]
      rw [this]
      exact host i (i + 3) _
    · rw [if_neg hi]
      exact host i 0 []

open scoped Classical in
theorem rootIds_eq (ov : FConv.Ov) (w : World) (ids : Nat → List Ch) (joints : List Nat) : ∀ l : List Nat,
    (∀ j ∈ l, (w.nodes j).isSome ∧ 92 ∉ ids j) →
    ∃ r, rootIds ov w ids joints l = some r ∧ r.map FUri.Uri.fragment = (l.filter fun j => ∀ p, Parent w p j → p ∉ joints).map ids := by
  intro l
  induction l with
  | nil => intro _; exact ⟨[], rfl, rfl⟩
  | cons j l ih =>
    intro h
    obtain ⟨r, hr, he⟩ := ih fun x hx => h x (List.mem_cons_of_mem _ hx)
    obtain ⟨ha, hb⟩ := h j List.mem_cons_self
    obtain ⟨a, ha⟩ := Option.isSome_iff_exists.mp ha
    have key : hasJointParent joints a.parents = true ↔ ¬ ∀ p, Parent w p j → p ∉ joints := by
      rw [hasJointParent_iff]
      push Not
      constructor
      · rintro ⟨p, hp, hj⟩; exact ⟨p, ⟨a, ha, hp⟩, hj⟩
      · rintro ⟨p, ⟨a', ha', hp⟩, hj⟩
        rw [ha] at ha'
        cases ha'
        exact ⟨p, hp, hj⟩
    rw [rootIds, ha, Option.bind_some]
    by_cases hp : ∀ p, Parent w p j → p ∉ joints
    · rw [if_neg (fun hk => key.mp hk hp)]
      obtain ⟨u, hu, hf⟩ := parse_fragment ov (ids j) hb
      refine ⟨u :: r, by simp [hu, hr], ?_⟩
      rw [List.filter_cons_of_pos (by simpa using hp), List.map_cons, List.map_cons, he, hf]
    · rw [if_pos (key.mpr hp)]
      refine ⟨r, hr, ?_⟩
      rw [List.filter_cons_of_neg (by simpa using hp), he]

/-- What a search among some nodes gives. -/
def Finds (w : World) (ids : Nat → List Ch) (id : List Ch) (l : List Nat) (r : Option Nat) : Prop :=
  (∀ y, r = some y → (∃ x ∈ l, Desc w x y) ∧ ids y = id) ∧ (r = none → ∀ x ∈ l, ∀ y, Desc w x y → ids y ≠ id)

theorem findFirst_ok (w : World) (ids : Nat → List Ch) (id : List Ch) : ∀ l : List Nat,
    (∀ x ∈ l, ∃ r N, (∀ n ≥ N, findDaeId w ids id n x = some r) ∧ Finds w ids id [x] r) →
    ∃ r N, (∀ n ≥ N, findFirst w ids id n l = some r) ∧ Finds w ids id l r := by
  intro l
  induction l with
  | nil =>
    intro _
    refine ⟨none, 1, fun n hn => ?_, by simp, fun _ x hx => absurd hx List.not_mem_nil⟩
    obtain ⟨m, rfl⟩ : ∃ m, n = m + 1 := ⟨n - 1, by omega⟩
    simp [findFirst]
  | cons x l ih =>
    intro h
    obtain ⟨r, N, hN, hf⟩ := h x List.mem_cons_self
    obtain ⟨s, M, hM, hg⟩ := ih fun y hy => h y (List.mem_cons_of_mem _ hy)
    cases r with
    | some y =>
      obtain ⟨⟨z, hz, hd⟩, he⟩ := hf.1 y rfl
      rw [List.mem_singleton] at hz
      subst hz
      refine ⟨some y, N + 1, fun n hn => ?_, ?_, by simp⟩
      · obtain ⟨m, rfl⟩ : ∃ m, n = m + 1 := ⟨n - 1, by omega⟩
        simp [findFirst, hN m (by omega)]
      · rintro y' e
        cases e
        exact ⟨⟨z, List.mem_cons_self, hd⟩, he⟩
    | none =>
      refine ⟨s, N + M + 1, fun n hn => ?_, ?_, ?_⟩
      · obtain ⟨m, rfl⟩ : ∃ m, n = m + 1 := ⟨n - 1, by omega⟩
        simp [findFirst, hN m (by omega), hM m (by omega)]
      · intro y hy
        obtain ⟨⟨z, hz, hd⟩, he⟩ := hg.1 y hy
        exact ⟨⟨z, List.mem_cons_of_mem _ hz, hd⟩, he⟩
      · intro hs z hz y hd
        rcases List.mem_cons.mp hz with rfl | hz
        · exact hf.2 rfl _ (List.mem_singleton_self _) y hd
        · exact hg.2 hs z hz y hd

theorem findDaeId_ok {w : World} {rk : Nat → Nat} (hi : Inv rk (fun _ => False) w) (ids : Nat → List Ch) (id : List Ch) :
    ∀ k x, (w.nodes x).isSome → rk x < k → ∃ r N, (∀ n ≥ N, findDaeId w ids id n x = some r) ∧ Finds w ids id [x] r := by
  intro k
  induction k with
  | zero => intro x _ h; omega
  | succ k ih =>
    intro x hx hk
    obtain ⟨a, ha⟩ := Option.isSome_iff_exists.mp hx
    by_cases e : ids x = id
    · refine ⟨some x, 1, fun n hn => ?_, ?_, by simp⟩
      · obtain ⟨m, rfl⟩ : ∃ m, n = m + 1 := ⟨n - 1, by omega⟩
        simp [findDaeId, ha, e]
      · intro y hy
        cases hy
        exact ⟨⟨x, List.mem_singleton_self _, .refl⟩, e⟩
    · have hc : ∀ c ∈ a.children, Child w x c := fun c hc => ⟨a, ha, hc⟩
      obtain ⟨r, N, hN, hf⟩ := findFirst_ok w ids id a.children fun c hcm => ih c (hi.alive x c (hc c hcm)) (by have := hi.rank x c (hc c hcm); omega)
      refine ⟨r, N + 1, fun n hn => ?_, ?_, ?_⟩
      · obtain ⟨m, rfl⟩ : ∃ m, n = m + 1 := ⟨n - 1, by omega⟩
        simp [findDaeId, ha, e, hN m (by omega)]
      · intro y hy
        obtain ⟨⟨z, hz, hd⟩, he⟩ := hf.1 y hy
        exact ⟨⟨x, List.mem_singleton_self _, .head (hc z hz) hd⟩, he⟩
      · intro hr z hz y hd
        rw [List.mem_singleton] at hz
        subst hz
        rcases Relation.ReflTransGen.cases_head hd with rfl | ⟨c, hcz, hd⟩
        · exact e
        · obtain ⟨a', ha', hm⟩ := hcz
          rw [ha] at ha'
          cases ha'
          exact hf.2 hr c hm y hd

theorem findFirst_good {w : World} (hg : Good w) (ids : Nat → List Ch) (id : List Ch) (l : List Nat) (hl : ∀ x ∈ l, (w.nodes x).isSome) :
    ∃ r N, (∀ n ≥ N, findFirst w ids id n l = some r) ∧ Finds w ids id l r := by
  obtain ⟨rk, hi, _⟩ := hg
  exact findFirst_ok w ids id l fun x hx => findDaeId_ok hi ids id (rk x + 1) x (hl x hx) (by omega)

/-- The loop of `FindSkeletonNodes` for URIs with the identifiers of given nodes. -/
theorem skeletonLoop_ok {w : World} (hg : Good w) (ids : Nat → List Ch) (scenes : List Nat) (hs : ∀ x ∈ scenes, (w.nodes x).isSome)
    (hu : ∀ x y, InScenes w scenes x → InScenes w scenes y → ids x = ids y → x = y) :
    ∀ (us : List FUri.Uri) (l : List Nat), us.map FUri.Uri.fragment = l.map ids → (∀ x ∈ l, InScenes w scenes x) →
      ∃ N, ∀ n ≥ N, skeletonLoop w ids scenes n us = some (l, 0) := by
  intro us
  induction us with
  | nil =>
    intro l h _
    have : l = [] := by simpa using h.symm
    subst this
    exact ⟨0, fun n _ => rfl⟩
  | cons u us ih =>
    intro l h hin
    cases l with
    | nil => simp at h
    | cons x l =>
      simp only [List.map_cons, List.cons.injEq] at h
      obtain ⟨N, hN⟩ := ih l h.2 fun y hy => hin y (List.mem_cons_of_mem _ hy)
      obtain ⟨r, M, hM, hf⟩ := findFirst_good hg ids u.fragment scenes hs
      have hx := hin x List.mem_cons_self
      have hr : r = some x := by
        cases r with
        | none =>
          obtain ⟨s, hs, hd⟩ := hx
          exact absurd h.1.symm (hf.2 rfl s hs x hd)
        | some y =>
          obtain ⟨⟨s, hs, hd⟩, he⟩ := hf.1 y rfl
          rw [hu y x ⟨s, hs, hd⟩ hx (he.trans h.1)]
      subst hr
      refine ⟨N + M, fun n hn => ?_⟩
      simp [skeletonLoop, hN n (by omega), hM n (by omega)]

end Verif.FInst
