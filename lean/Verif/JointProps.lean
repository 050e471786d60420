import Verif.JointLemmas

/-!
# Properties of the linking of joints and targets (C159)
-/

namespace Verif.FJoint

open Verif.FStr Verif.FScene Verif.FInst

/-- **C159**: in a scene graph that a program can build, and with a visual scene to fall back on, each joint of the skin is looked for, by identifier or by sub-id, below the
roots that `FindSkeletonNodes` gives. The joints of the instance are afterwards the nodes that were found, in the order of the skin, whatever they were before; these nodes
carry the flag of a joint, and there is one warning for each joint that has no node, after those for the roots. -/
theorem joints_linked (w : World) (h : Reach w) (ids sub : Nat → List Ch) (scenes : List Nat) (v : Nat) (k : Skin) (flagged : List Nat) (i : Inst)
    (hs : ∀ x ∈ scenes, (w.nodes x).isSome) (hv : (w.nodes v).isSome) :
    ∃ (roots : List Nat) (missing : Nat) (l : List (Option Nat)) (N : Nat), roots ≠ [] ∧ List.Forall₂ (Bone w (nameOf ids sub k.sids) roots) k.joints l ∧
      (∀ n ≥ N, findSkeletonNodes w ids scenes (some v) n i = some (roots.map some, missing)) ∧
      ∀ n ≥ N, linkController w ids sub scenes (some v) n (some k) flagged i =
        some ⟨{ i with joints := nodesOf l }, flagged ++ nodesOf l, missing + l.countP Option.isNone⟩ := by
  obtain ⟨q, M, hq, hM⟩ := skeleton_found w h ids scenes (some v) i hs
  have hroots : ∃ roots : List Nat, roots ≠ [] ∧ (if q.filter Option.isSome = [] then [some v] else q.filter Option.isSome) = roots.map some ∧
      ∀ x ∈ roots, (w.nodes x).isSome := by
    by_cases e : q.filter Option.isSome = []
    · exact ⟨[v], by simp, by simp [e], by simpa using hv⟩
    · rw [if_neg e]
      refine ⟨nodesOf q, ?_, ?_, ?_⟩
      · intro hn
        apply e
        unfold nodesOf at hn
        rw [List.filter_eq_nil_iff]
        intro x hx hsome
        obtain ⟨y, rfl⟩ := Option.isSome_iff_exists.1 hsome
        have : y ∈ q.filterMap id := List.mem_filterMap.2 ⟨some y, hx, rfl⟩
        rw [hn] at this
        cases this
      · clear hq hM e
        unfold nodesOf
        induction q with
        | nil => rfl
        | cons x q ih => cases x <;> simp [ih]
      · intro x hx
        obtain ⟨o, ho, e⟩ := List.mem_filterMap.1 hx
        have e : o = some x := e
        subst e
        have hu : ∃ u : FUri.Uri, InScenes w scenes x ∧ ids x = u.fragment := by
          obtain ⟨m, hm, he⟩ := List.getElem_of_mem ho
          have := (List.forall₂_iff_get.1 hq).2 m (by rw [(List.forall₂_iff_get.1 hq).1]; exact hm) hm
          simp only [List.get_eq_getElem, he] at this
          exact ⟨_, this⟩
        obtain ⟨-, ⟨s, hsm, hd⟩, -⟩ := hu
        obtain ⟨rk, hi, -⟩ := reach_good h
        rcases Relation.ReflTransGen.cases_tail hd with rfl | ⟨z, -, hc⟩
        · exact hs _ hsm
        · exact hi.alive z x hc
  obtain ⟨roots, hne, hroots, hal⟩ := hroots
  obtain ⟨l, N, hl, hN⟩ := linkJoints_ok (reach_good h) ids sub k.sids roots hal k.joints
  refine ⟨roots, q.countP Option.isNone, l, N + M, hne, hl, fun n hn => by rw [hM n (by omega), hroots], fun n hn => ?_⟩
  rw [linkController, hM n (by omega), Option.bind_some]
  simp only [hroots]
  rw [hN n (by omega)]
  simp

/-- The conditions of **C159** are met by three nodes in a chain, of which the skin knows the last and the first one. -/
example : ∃ w, Reach w ∧ ∃ N, ∀ n ≥ N, (linkController w (fun x => [(x : Int)]) (fun _ => []) [1] (some 1) n (some ⟨[[3], [1]], false⟩) [] ⟨[2], []⟩).map (·.inst.joints) = some [3, 1] := by
  obtain ⟨w, hr, h1, h2, h3⟩ := chain_reach
  have d3 : Desc w 1 3 := .head (b := 2) ⟨_, h1, by simp⟩ (.single ⟨_, h2, by simp⟩)
  obtain ⟨roots, missing, l, N, -, hl, hf, hN⟩ := joints_linked w hr (fun x => [(x : Int)]) (fun _ => []) [1] 1 ⟨[[3], [1]], false⟩ [] ⟨[2], []⟩ (by simp [h1]) (by simp [h1])
  have e : roots = [1] := by
    have := hf N (Nat.le_refl _)
    simp [findSkeletonNodes, skeletonLoop] at this
    cases roots with
    | nil => simp at this
    | cons a b => cases b <;> simp_all
  subst e
  have inj : ∀ x y : Nat, [(x : Int)] = [(y : Int)] → x = y := fun x y h => by simpa using h
  have := bones_unique (xs := [3, 1]) (name := fun x => [(x : Int)]) (w := w) (roots := [1]) (l := l)
    (by intro x hx; rcases List.mem_cons.1 hx with rfl | hx; exact ⟨1, by simp, d3⟩; rw [List.mem_singleton.1 hx]; exact ⟨1, by simp, .refl⟩)
    (fun x _ y _ e => inj y x e) hl
  refine ⟨w, hr, N, fun n hn => ?_⟩
  rw [hN n hn, this]
  rfl

/-- Without a skin nothing is linked. -/
theorem no_skin (w : World) (ids sub : Nat → List Ch) (scenes : List Nat) (visual : Option Nat) (n : Nat) (flagged : List Nat) (i : Inst) :
    linkController w ids sub scenes visual n none flagged i = some ⟨i, flagged, 0⟩ := rfl

/-- **C159**, partly: if the roots of an instance were computed before it was saved, and the skin names the joints of the instance by names that are unique below these roots, then
loading gives the instance its joints back, in order and without a warning. Missing: other roots, names that are not unique, joints that are in no visual scene. -/
theorem joints_roundtrip_partial (ov : FConv.Ov) (w : World) (h : Reach w) (ids sub : Nat → List Ch) (scenes : List Nat) (visual : Option Nat) (i : Inst) (sids : Bool) (flagged : List Nat)
    (hs : ∀ x ∈ scenes, (w.nodes x).isSome) (hu : ∀ x y, InScenes w scenes x → InScenes w scenes y → ids x = ids y → x = y)
    (hj : ∀ j ∈ i.joints, (w.nodes j).isSome ∧ 92 ∉ ids j ∧ InScenes w scenes j) (hne : i.joints ≠ [])
    (hn : ∀ j ∈ i.joints, ∀ y, (∃ r ∈ i.joints, Desc w r y) → nameOf ids sub sids y = nameOf ids sub sids j → y = j) :
    ∃ i', calculateRootIds ov w ids i = some i' ∧ ∃ N, ∀ n ≥ N, ∀ before : List Nat,
      linkController w ids sub scenes visual n (some ⟨i.joints.map (nameOf ids sub sids), sids⟩) flagged { i' with joints := before } =
        some ⟨{ i' with joints := i.joints }, flagged ++ i.joints, 0⟩ := by
  classical
  obtain ⟨i', h1, M, hM⟩ := skeleton_round_trip_partial ov w h ids scenes visual i hs hu hj hne
  have hM := hM
  obtain ⟨l, N, hl, hN⟩ := linkJoints_ok (reach_good h) ids sub sids (i.joints.filter fun j => RootJoint w i.joints j)
    (fun x hx => (hj x (List.mem_filter.1 hx).1).1) (i.joints.map (nameOf ids sub sids))
  have hl := bones_unique (by
      intro x hx
      obtain ⟨r, hr, hd⟩ := roots_cover w h i.joints x hx
      exact ⟨r, List.mem_filter.2 ⟨hr.1, by simpa using hr⟩, hd⟩)
    (by
      intro x hx y hy
      obtain ⟨r, hr, hd⟩ := hy
      exact hn x hx y ⟨r, (List.mem_filter.1 hr).1, hd⟩) hl
  subst hl
  refine ⟨i', h1, N + M, fun n hn before => ?_⟩
  have e : findSkeletonNodes w ids scenes visual n { i' with joints := before } = findSkeletonNodes w ids scenes visual n i' := rfl
  rw [linkController, e, hM n (by omega), Option.bind_some]
  have hN := hN n (by omega) ⟨{ i' with joints := [] }, flagged, 0⟩
  rw [nodesOf_some, countP_some] at hN
  rw [List.nil_append] at hN
  convert hN using 6

/-- The conditions of the round trip are met by an instance with two of three nodes in a chain. -/
example (ov : FConv.Ov) : ∃ w i' N, Reach w ∧ calculateRootIds ov w (fun x => [(x : Int)]) ⟨[2, 3], []⟩ = some i' ∧ ∀ n ≥ N, ∀ before : List Nat,
    linkController w (fun x => [(x : Int)]) (fun x => [(x : Int) + 1]) [1] none n (some ⟨[[3], [4]], true⟩) [] { i' with joints := before } =
      some ⟨{ i' with joints := [2, 3] }, [2, 3], 0⟩ := by
  obtain ⟨w, hr, h1, h2, h3⟩ := chain_reach
  have d2 : Desc w 1 2 := .single ⟨_, h1, by simp⟩
  have d3 : Desc w 1 3 := d2.tail ⟨_, h2, by simp⟩
  obtain ⟨i', h, N, hN⟩ := joints_roundtrip_partial ov w hr (fun x => [(x : Int)]) (fun x => [(x : Int) + 1]) [1] none ⟨[2, 3], []⟩ true [] (by simp [h1])
    (by intro x y _ _ e; simp only [List.cons.injEq, and_true] at e; exact_mod_cast (show (x : Int) = y from e))
    (by
      intro j hj
      rcases List.mem_cons.1 hj with rfl | hj
      · exact ⟨by simp [h2], by simp, 1, by simp, d2⟩
      · rw [List.mem_singleton] at hj
        subst hj
        exact ⟨by simp [h3], by simp, 1, by simp, d3⟩) (by simp)
    (by intro j _ y _ e; simp only [nameOf, if_true, List.cons.injEq, and_true] at e; have : (y : Int) + 1 = j + 1 := e; omega)
  exact ⟨w, i', N, hr, h, hN⟩

/-- **C159**: the target of a camera or light that is saved as `#` and the identifier of a node of the visual scenes is found again, whatever the target was before. -/
theorem target_linked (ov : FConv.Ov) (w : World) (h : Reach w) (ids : Nat → List Ch) (scenes : List Nat) (cur : Option Nat) (x : Nat)
    (hs : ∀ x ∈ scenes, (w.nodes x).isSome) (hx : InScenes w scenes x) (hi : FXml.ValidId true (ids x)) (hne : ids x ≠ [])
    (hu : ∀ y, InScenes w scenes y → ids y = ids x → y = x) :
    ∃ N, ∀ n ≥ N, linkTarget ov w ids scenes n (35 :: ids x) cur = some (some x, 0) := by
  obtain ⟨r, ⟨N, hN⟩, h1, h2⟩ := find_scene_node w h ids scenes hs (ids x)
  have hr : r = some x := by
    cases r with
    | none => exact absurd rfl (h2 rfl x hx)
    | some y => obtain ⟨hy, e⟩ := h1 y rfl; rw [hu y hy e]
  subst hr
  obtain ⟨u, hp, -, hf, hpath⟩ := FArc.parse_local ov (FArc.id_link hi).1 (FArc.id_link hi).2
  refine ⟨N, fun n hn => ?_⟩
  unfold linkTarget
  rw [if_neg (by simp), hp, Option.bind_some, hf, hpath, hN n hn]
  have : (ids x).isEmpty = false := by cases e : ids x with
    | nil => exact absurd e hne
    | cons _ _ => rfl
  rw [this]
  rfl

/-- **C159**: without an address the target stays; for an identifier of no node of the visual scenes, the target becomes null, with a warning. -/
theorem target_missing (ov : FConv.Ov) (w : World) (h : Reach w) (ids : Nat → List Ch) (scenes : List Nat) (cur : Option Nat) (id : List Ch)
    (hs : ∀ x ∈ scenes, (w.nodes x).isSome) (hi : FXml.ValidId true id) (hne : id ≠ []) (hx : ∀ y, InScenes w scenes y → ids y ≠ id) :
    (∀ n, linkTarget ov w ids scenes n [] cur = some (cur, 0)) ∧ ∃ N, ∀ n ≥ N, linkTarget ov w ids scenes n (35 :: id) cur = some (none, 1) := by
  refine ⟨fun n => rfl, ?_⟩
  obtain ⟨r, ⟨N, hN⟩, h1, h2⟩ := find_scene_node w h ids scenes hs id
  have hr : r = none := by
    cases r with
    | none => rfl
    | some y => obtain ⟨hy, e⟩ := h1 y rfl; exact absurd e (hx y hy)
  subst hr
  obtain ⟨u, hp, -, hf, hpath⟩ := FArc.parse_local ov (FArc.id_link hi).1 (FArc.id_link hi).2
  refine ⟨N, fun n hn => ?_⟩
  unfold linkTarget
  rw [if_neg (by simp), hp, Option.bind_some, hf, hpath, hN n hn]
  have : id.isEmpty = false := by cases e : id with
    | nil => exact absurd e hne
    | cons _ _ => rfl
  rw [this]
  rfl

/-- The conditions are met. -/
example (ov : FConv.Ov) : ∃ w, Reach w ∧ ∃ N, ∀ n ≥ N, linkTarget ov w (fun x => [97 + (x : Int)]) [1] n [35, 100] none = some (some 3, 0) := by
  obtain ⟨w, hr, h1, h2, h3⟩ := chain_reach
  have d3 : Desc w 1 3 := .head (b := 2) ⟨_, h1, by simp⟩ (.single ⟨_, h2, by simp⟩)
  refine ⟨w, hr, ?_⟩
  have := target_linked ov w hr (fun x => [97 + (x : Int)]) [1] none 3 (by simp [h1]) ⟨1, by simp, d3⟩ ⟨by decide +kernel, by decide +kernel, by decide +kernel⟩ (by simp)
    (by intro y _ e; simp only [List.cons.injEq, and_true] at e; have : (97 : Int) + y = 97 + (3 : Nat) := e; omega)
  exact this

/-- **C159** fails: a joint of the skin without a node is left out, so that the joints after it move: the node of the third joint of the skin is the second joint of the instance, and
the third one is missing. The indices of the influences are those of the skin. -/
theorem shift_violated : ∃ w, Reach w ∧ ∃ N, ∀ n ≥ N, ∃ s,
    linkController w (fun x => [(x : Int)]) (fun _ => []) [1] (some 1) n (some ⟨[[1], [9], [3]], false⟩) [] ⟨[], []⟩ = some s ∧
      s.inst.joints[1]? = some 3 ∧ s.inst.joints[2]? = none := by
  obtain ⟨w, hr, h1, h2, h3⟩ := chain_reach
  refine ⟨w, hr, 9, fun n hn => ?_⟩
  obtain ⟨m, rfl⟩ : ∃ m, n = m + 9 := ⟨n - 9, by omega⟩
  refine ⟨⟨⟨[1, 3], []⟩, [1, 3], 1⟩, ?_, rfl, rfl⟩
  simp [linkController, findSkeletonNodes, skeletonLoop, linkJoints, boneNode, boneIn, findDaeId, findFirst, h1, h2, h3, linkBone, addJoint]

/-- **C159** fails for sub-ids that two skeletons share: the joint is linked to the node of the first root. -/
theorem sids_violated : ∃ w, Reach w ∧ ∃ (sub : Nat → List Ch) (N : Nat), sub 3 = [7] ∧ ∀ n ≥ N, ∃ s i' ov,
    calculateRootIds ov w (fun x => [(x : Int)]) ⟨[1, 3], []⟩ = some i' ∧
    linkController w (fun x => [(x : Int)]) sub [1] (some 1) n (some ⟨[sub 1, sub 3], true⟩) [] i' = some s ∧ s.inst.joints = [1, 2] := by
  obtain ⟨w, hr, h1, h2, h3⟩ := chain_reach
  refine ⟨w, hr, fun x => if x = 1 then [6] else [7], 9, rfl, fun n hn => ?_⟩
  obtain ⟨m, rfl⟩ : ∃ m, n = m + 9 := ⟨n - 9, by omega⟩
  obtain ⟨u, hu, hf⟩ := parse_fragment .wrap [1] (by decide)
  obtain ⟨u', hu', hf'⟩ := parse_fragment .wrap [3] (by decide)
  have e : calculateRootIds .wrap w (fun x => [(x : Int)]) ⟨[1, 3], []⟩ = some ⟨[1, 3], [u, u']⟩ := by
    simp [calculateRootIds, rootIds, h1, h3, hasJointParent, hu, hu']
  refine ⟨⟨⟨[1, 2], [u, u']⟩, [1, 2], 0⟩, _, .wrap, e, ?_, rfl⟩
  simp [linkController, findSkeletonNodes, skeletonLoop, linkJoints, boneNode, boneIn, FLib.findSubId, FLib.findSubFirst, findDaeId, findFirst, h1, h2, h3, linkBone, addJoint, hf, hf']

/-- **C159** fails without a visual scene: an instance without roots, or with roots that are not found, uses the null pointer for its first joint. -/
theorem no_scene_violated (w : World) (ids sub : Nat → List Ch) (scenes : List Nat) (n : Nat) (k : Skin) (flagged : List Nat) (j : List Ch) (js : List (List Ch)) (hk : k.joints = j :: js) :
    linkController w ids sub scenes none n (some k) flagged ⟨[], []⟩ = none := by
  rw [linkController, skeleton_null_violated, Option.bind_some, hk, linkJoints]
  rfl

/-- **C159** fails for the address of a node in a file: it is not looked for, and the target stays. -/
theorem extern_violated (w : World) (ids : Nat → List Ch) (scenes : List Nat) (n : Nat) (cur : Option Nat) :
    ∃ t, t.getLast? = some 98 ∧ linkTarget .wrap w ids scenes n t cur = some (cur, 1) := by
  refine ⟨[97, 46, 100, 35, 98], rfl, ?_⟩
  have h : (FUri.parse .wrap [97, 46, 100, 35, 98]).map (fun u => (u.path, u.fragment)) = some ([97, 46, 100], [98]) := by decide +kernel
  obtain ⟨u, hu, he⟩ := Option.map_eq_some_iff.1 h
  simp only [Prod.mk.injEq] at he
  unfold linkTarget
  rw [if_neg (by simp), hu, Option.bind_some, he.1, he.2]
  rfl

end Verif.FJoint
