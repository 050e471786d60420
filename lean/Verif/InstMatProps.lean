import Verif.InstMatLemmas

/-!
# C111, C112: material instances and clones of instances
-/

namespace Verif.FMat

/-- C111: `FindMaterialInstance` gives the first material instance with the semantic, and none exactly when there is none. -/
theorem find_material (ms : List Mat) (s : Text) :
    (∀ k, findMaterial ms s = some k ↔ FirstWith Mat.semantic ms s k) ∧ (findMaterial ms s = none ↔ Without Mat.semantic ms s) :=
  findMaterial_spec ms s

/-- C111: binding a material to polygons adds one instance of the material behind the others, with the semantic the polygons have afterwards; that semantic is not empty, polygons that had one keep it, and
nothing else changes. -/
theorem add_bound_partial (ids : Nat → Text) (parent : Option Nat) (ms : List Mat) (sets : List PSet) (e k : Nat) (p : PSet) (hp : sets[k]? = some p) :
    ∃ m p', addBound ids parent ms sets (some e) (some k) = some (ms ++ [m], sets.set k p') ∧ m.base.entity = some e ∧ m.base.parent = parent ∧
      m.semantic = p'.semantic ∧ m.semantic ≠ [] ∧ p'.offset = p.offset ∧ (p.semantic ≠ [] → p' = p) ∧ m.binds = [] ∧ m.vbinds = [] := by
  by_cases h : p.semantic = []
  · refine ⟨madeMat parent e (generated (ids e) p.offset), { p with semantic := generated (ids e) p.offset }, ?_, rfl, rfl, rfl, generated_ne_nil _ _, rfl, fun h' => absurd h h', rfl, rfl⟩
    simp [addBound, hp, h, addNamed, madeMat]
  · refine ⟨madeMat parent e p.semantic, p, ?_, rfl, rfl, rfl, h, rfl, fun _ => rfl, rfl, rfl⟩
    have hset : sets.set k p = sets := by
      apply List.ext_getElem?
      intro i
      rw [List.getElem?_set]
      split_ifs with h1 h2
      · rw [← h1, hp]
      · subst h1
        rw [List.getElem?_eq_none (by omega)]
      · rfl
    simp [addBound, hp, h, addNamed, madeMat, hset]

example : addBound (fun _ => [109]) none [] [⟨[], 7⟩, ⟨[115], 9⟩] (some 4) (some 0) =
    some ([⟨⟨none, some 4, [], [], none⟩, [109, 55], [], []⟩], [⟨[109, 55], 7⟩, ⟨[115], 9⟩]) := by
  simp [addBound, addNamed, newMat, setEntity, newBase, generated, FBld.decimal]

/-- C111: when no other instance and no other polygons use the semantic, the instance is found by the semantic of the polygons, and the polygons are the target of the instance, also through a
controller. -/
theorem bound_found_partial (ids : Nat → Text) (parent : Option Nat) (ms : List Mat) (sets : List PSet) (e k : Nat) (ms' : List Mat) (sets' : List PSet) (p' : PSet)
    (hrun : addBound ids parent ms sets (some e) (some k) = some (ms', sets')) (hp : sets'[k]? = some p')
    (hm : Without Mat.semantic ms p'.semantic) (hs : ∀ (j : Nat) (q : PSet), sets'[j]? = some q → q.semantic = p'.semantic → j = k) :
    findMaterial ms' p'.semantic = some ms.length ∧ (∃ m, ms'[ms.length]? = some m ∧ m.base.entity = some e ∧ m.semantic = p'.semantic) ∧
      geometryTarget (some (.mesh sets')) p'.semantic = some (some k) ∧ geometryTarget (some (.controller (some (.mesh sets')))) p'.semantic = some (some k) := by
  have hk : k < sets.length := by
    by_contra hn
    rw [addBound, List.getElem?_eq_none (by omega)] at hrun
    simp at hrun
  obtain ⟨m, q, hr, he, -, hsem, -⟩ := add_bound_partial ids parent ms sets e k sets[k] (List.getElem?_eq_getElem hk)
  rw [hr] at hrun
  obtain ⟨h1, h2⟩ := Prod.mk.inj (Option.some.inj hrun)
  have hq : q = p' := by
    rw [← h2, List.getElem?_set_self hk] at hp
    simpa using hp
  subst hq
  refine ⟨?_, ⟨m, by rw [← h1]; simp, he, hsem⟩, ?_⟩
  · rw [← h1, (findMaterial_spec _ _).1]
    exact without_first hm hsem
  · have hf : findSet sets' q.semantic = some k := by
      rw [(findSet_spec _ _).1]
      exact ⟨⟨q, hp, rfl⟩, fun j hj y hy hc => absurd (hs j y hy hc) (by omega)⟩
    exact ⟨congrArg some hf, congrArg some hf⟩

example : Without Mat.semantic ([] : List Mat) [109, 55] ∧ ∀ (j : Nat) (q : PSet), ([⟨[109, 55], 7⟩, ⟨[115], 9⟩] : List PSet)[j]? = some q → q.semantic = ([109, 55] : Text) → j = 0 := by
  refine ⟨by simp [Without], ?_⟩
  intro j q hq hs
  match j with
  | 0 => rfl
  | 1 => simp at hq; subst hq; simp at hs
  | j + 2 => simp at hq

/-- C111: the target of a material instance is the first polygons with its semantic; there is none for an instance without entity, and for a geometry that is no mesh. -/
theorem target_partial (sets : List PSet) (s : Text) :
    (∀ k, geometryTarget (some (.mesh sets)) s = some (some k) ↔ FirstWith PSet.semantic sets s k) ∧
      (geometryTarget (some (.mesh sets)) s = some none ↔ Without PSet.semantic sets s) ∧
      geometryTarget none s = some none ∧ geometryTarget (some .geometry) s = some none ∧ geometryTarget (some .other) s = some none ∧
      ∀ g, geometryTarget (some (.controller (some (.mesh g)))) s = geometryTarget (some (.mesh g)) s := by
  refine ⟨fun k => ?_, ?_, rfl, rfl, rfl, fun _ => rfl⟩
  · rw [← (findSet_spec _ _).1]
    exact ⟨fun h => Option.some.inj h, fun h => congrArg some h⟩
  · rw [← (findSet_spec _ _).2]
    exact ⟨fun h => Option.some.inj h, fun h => congrArg some h⟩

/-- C111: generated semantics differ when the ids of the materials do not end in a digit and the ids or the face offsets differ, for offsets below 2^32. -/
theorem generated_distinct_partial (a b : Text) (m n : Nat) (ha : NoDigitAtEnd a) (hb : NoDigitAtEnd b) (hm : m < 2 ^ 32) (hn : n < 2 ^ 32)
    (h : generated a m = generated b n) : a = b ∧ m = n := by
  unfold generated at h
  obtain ⟨h1, h2⟩ := split_digits ha hb (decimal_isDigit _) (decimal_isDigit _) h
  have := decimal_inj h2
  rw [Nat.mod_eq_of_lt hm, Nat.mod_eq_of_lt hn] at this
  exact ⟨h1, this⟩

example : NoDigitAtEnd [109, 49, 45] ∧ ¬ NoDigitAtEnd [109, 49] := by
  refine ⟨?_, ?_⟩
  · intro c hc
    simp at hc
    subst hc
    simp [IsDigit]
  · intro h
    exact h 49 (by simp) (by simp [IsDigit])

/-- C111: binding one material to each set of polygons of a mesh whose sets had no semantics, where the ids of the materials do not end in a digit and the face offsets differ: every set is then found to
have its own material, and every instance to have its own set. -/
theorem bind_each_partial (ids : Nat → Text) (parent : Option Nat) (es : List Nat) (sets : List PSet) (hl : sets.length = es.length) (he : ∀ p ∈ sets, p.semantic = [])
    (hd : ∀ (i j : Nat) (p q : PSet), sets[i]? = some p → sets[j]? = some q → p.offset = q.offset → i = j) (hb : ∀ p ∈ sets, p.offset < 2 ^ 32) (hid : ∀ e ∈ es, NoDigitAtEnd (ids e)) :
    ∃ ms' sets', bindEach ids parent es 0 ([], sets) = some (ms', sets') ∧ ms'.length = es.length ∧ sets'.length = sets.length ∧
      ∀ k e, es[k]? = some e → ∃ m p', ms'[k]? = some m ∧ sets'[k]? = some p' ∧ m.base.entity = some e ∧ m.semantic = p'.semantic ∧
        findMaterial ms' p'.semantic = some k ∧ geometryTarget (some (.mesh sets')) m.semantic = some (some k) := by
  have hrun := bindEach_spec ids parent es sets [] [] hl he
  simp only [List.length_nil, List.nil_append] at hrun
  refine ⟨_, _, hrun, by simp [hl], by simp [hl], ?_⟩
  -- the semantic at a position tells the position
  have hinj : ∀ (i j e e' : Nat) (p q : PSet), es[i]? = some e → es[j]? = some e' → sets[i]? = some p → sets[j]? = some q →
      generated (ids e) p.offset = generated (ids e') q.offset → i = j := by
    intro i j e e' p q h1 h2 h3 h4 hg
    have := generated_distinct_partial _ _ _ _ (hid e (List.mem_of_getElem? h1)) (hid e' (List.mem_of_getElem? h2)) (hb p (List.mem_of_getElem? h3)) (hb q (List.mem_of_getElem? h4)) hg
    exact hd i j p q h3 h4 this.2
  intro k e hk
  have hlt : k < sets.length := by
    have := (List.getElem?_eq_some_iff.mp hk).1
    omega
  have hp : sets[k]? = some sets[k] := List.getElem?_eq_getElem hlt
  refine ⟨madeMat parent e (generated (ids e) sets[k].offset), { sets[k] with semantic := generated (ids e) sets[k].offset }, ?_, ?_, rfl, rfl, ?_, ?_⟩
  · rw [List.getElem?_zipWith, hk, hp]
  · rw [List.getElem?_zipWith, hk, hp]
  · rw [(findMaterial_spec _ _).1]
    refine ⟨⟨_, by rw [List.getElem?_zipWith, hk, hp], rfl⟩, fun j hj y hy => ?_⟩
    rw [List.getElem?_zipWith] at hy
    have h1 : es[j]? = some es[j] := List.getElem?_eq_getElem (by omega)
    have h2 : sets[j]? = some sets[j] := List.getElem?_eq_getElem (by omega)
    rw [h1, h2] at hy
    obtain rfl := Option.some.inj hy
    intro hc
    exact absurd (hinj j k _ _ _ _ h1 hk h2 hp hc) (by omega)
  · refine congrArg some ?_
    change findSet _ _ = _
    rw [(findSet_spec _ _).1]
    refine ⟨⟨_, by rw [List.getElem?_zipWith, hk, hp], rfl⟩, fun j hj y hy => ?_⟩
    rw [List.getElem?_zipWith] at hy
    have h1 : es[j]? = some es[j] := List.getElem?_eq_getElem (by omega)
    have h2 : sets[j]? = some sets[j] := List.getElem?_eq_getElem (by omega)
    rw [h1, h2] at hy
    obtain rfl := Option.some.inj hy
    intro hc
    exact absurd (hinj j k _ _ _ _ h1 hk h2 hp hc) (by omega)

example : ([⟨[], 0⟩, ⟨[], 12⟩] : List PSet).length = [3, 4].length ∧ (∀ p ∈ ([⟨[], 0⟩, ⟨[], 12⟩] : List PSet), p.semantic = [] ∧ p.offset < 2 ^ 32) := by simp

/-- C111: materials whose ids end in digits may get the same semantic. "m" bound at the face offset 10 and "m1" bound at 0 both get "m10"; the polygons of the second are then found to have the first
material, and the second instance to have the polygons of the first. -/
theorem generated_collide_violated :
    ∃ (ids : Nat → Text) (ms' : List Mat) (sets' : List PSet) (p' : PSet), ids 1 ≠ ids 2 ∧
      bindEach ids none [1, 2] 0 ([], [⟨[], 10⟩, ⟨[], 0⟩]) = some (ms', sets') ∧ sets'[1]? = some p' ∧
      findMaterial ms' p'.semantic = some 0 ∧ geometryTarget (some (.mesh sets')) p'.semantic = some (some 0) := by
  have h0 : FBld.decimal 0 = [48] := by rw [FBld.decimal]; rfl
  have h1 : FBld.decimal 1 = [49] := by rw [FBld.decimal]; rfl
  have h10 : FBld.decimal 10 = [49, 48] := by
    rw [FBld.decimal, if_neg (by omega), h1]
    rfl
  have g1 : generated [109] 10 = [109, 49, 48] := by rw [generated, show 10 % 2 ^ 32 = 10 from rfl, h10]; rfl
  have g2 : generated [109, 49] 0 = [109, 49, 48] := by rw [generated, show 0 % 2 ^ 32 = 0 from rfl, h0]; rfl
  refine ⟨fun e => if e = 1 then [109] else [109, 49], _, _, ⟨[109, 49, 48], 0⟩, by decide,
    bindEach_spec _ none [1, 2] [⟨[], 10⟩, ⟨[], 0⟩] [] [] rfl (by simp), ?_, ?_, ?_⟩
  · simp [g1, g2]
  · simp [g1, g2, findMaterial, madeMat]
  · simp [g1, g2, geometryTarget, targetIn, findSet]

/-- C111: binding a null material to polygons without a semantic uses the null pointer; asking for the target of an instance of a controller without base geometry does too. -/
theorem null_violated (ids : Nat → Text) (parent : Option Nat) (ms : List Mat) (sets : List PSet) (k : Nat) (p : PSet) (hp : sets[k]? = some p) (hs : p.semantic = []) (s : Text) :
    addBound ids parent ms sets none (some k) = none ∧ geometryTarget (some (.controller none)) s = none := by
  refine ⟨?_, rfl⟩
  simp [addBound, hp, hs]

example : ([⟨[], 3⟩] : List PSet)[0]? = some ⟨[], 3⟩ ∧ (⟨[], 3⟩ : PSet).semantic = [] := ⟨rfl, rfl⟩

/-- C111: the bindings of a material instance are found by their semantics, the first one of several; removing at a position outside the list changes nothing. -/
theorem bindings (m : Mat) (s : Text) :
    (∀ b, findBind m.binds s = some b ↔ ∃ k, FirstWith Bind.semantic m.binds s k ∧ m.binds[k]? = some b) ∧ (findBind m.binds s = none ↔ Without Bind.semantic m.binds s) ∧
      (∀ b, findVBind m.vbinds s = some b ↔ ∃ k, FirstWith VBind.semantic m.vbinds s k ∧ m.vbinds[k]? = some b) ∧ (findVBind m.vbinds s = none ↔ Without VBind.semantic m.vbinds s) :=
  ⟨(findBind_spec _ _).1, (findBind_spec _ _).2, (findVBind_spec _ _).1, (findVBind_spec _ _).2⟩

/-- C111: adding a binding makes it the last one, the vertex bindings apart; removing takes out the one at the position and keeps the order of the others. -/
theorem binding_edits (m : Mat) (s t : Text) (i : Nat) (k : Int) (n : Nat) :
    (addBind m s t).binds = m.binds ++ [⟨s, t⟩] ∧ (addBind m s t).vbinds = m.vbinds ∧
      (addVBind m s i k).vbinds = m.vbinds ++ [⟨s, i, k⟩] ∧ (addVBind m s i k).binds = m.binds ∧
      (∀ j, (removeBind m n).binds[j]? = if n < m.binds.length then (if j < n then m.binds[j]? else m.binds[j + 1]?) else m.binds[j]?) ∧ (removeBind m n).vbinds = m.vbinds := by
  refine ⟨rfl, rfl, rfl, rfl, fun j => ?_, ?_⟩
  · unfold removeBind
    by_cases h : n < m.binds.length
    · rw [if_pos h, if_pos h]
      simp only [List.getElem?_eraseIdx]
    · rw [if_neg h, if_neg h]
  · unfold removeBind
    split_ifs <;> rfl

/-- C112: the clone of an instance into nothing has the kind, entity, effect parameters, material instances, roots and joints of the instance; that of an entity or geometry instance is in the same scene
node. -/
theorem clone_new_partial (src : Inst) (h : ∀ m, src ≠ .mat m) :
    ∃ c, clone src none = some c ∧ SameContent src c ∧ ((∀ b p m r j, src ≠ .ctrl b p m r j) → c.base.parent = src.base.parent) := by
  cases src with
  | plain b => exact ⟨_, rfl, (setEntity_new _ _).symm, fun _ => rfl⟩
  | geom b p m =>
    refine ⟨_, rfl, ⟨(setEntity_new _ _).symm, (List.nil_append _).symm, ?_⟩, fun _ => rfl⟩
    exact cloneMats_same _ _
  | ctrl b p m r j =>
    refine ⟨_, rfl, ⟨(setEntity_new _ _).symm, (List.nil_append _).symm, ?_, rfl, rfl⟩, fun hc => absurd rfl (hc b p m r j)⟩
    exact cloneMats_same _ _
  | mat m => exact absurd rfl (h m)

example : ∀ m, (Inst.geom ⟨some 1, some 2, [], [], none⟩ [7] [newMat none]) ≠ .mat m := by simp

/-- C112: a material instance copied into a new one of another instance has the same material, semantic and bindings. -/
theorem clone_material_partial (m : Mat) (parent : Option Nat) : ∃ c, clone (.mat m) (some (.mat (newMat parent))) = some c ∧ SameContent (.mat m) c ∧ c.base.parent = parent := by
  refine ⟨_, rfl, ⟨(setEntity_new _ _).symm, rfl, ?_, ?_⟩, rfl⟩
  · simp [cloneMatInto, newMat]
  · simp [cloneMatInto, newMat]

/-- C112: the material found for a semantic is the same in the clone as in the instance. -/
theorem clone_finds_partial (src c : Inst) (h : clone src none = some c) (s : Text) : findMaterial c.mats s = findMaterial src.mats s := by
  have key : ∀ (p : Option Nat) (ms : List Mat), findMaterial (cloneMats p ms) s = findMaterial ms s := by
    intro p ms
    induction ms with
    | nil => rfl
    | cons m ms ih =>
      change (if m.semantic = s then some 0 else (findMaterial (cloneMats p ms) s).map (· + 1)) = _
      rw [ih]
      rfl
  cases src with
  | plain b => cases h; rfl
  | geom b p m => cases h; exact key _ _
  | ctrl b p m r j => cases h; exact key _ _
  | mat m => cases h

example : ∃ c, clone (.geom ⟨some 1, some 2, [], [], none⟩ [7] [newMat none]) none = some c := ⟨_, rfl⟩

/-- C112: cloning an instance with an entity into an existing one gives it the entity and leaves its kind, scene node, name, sub id and extra tree; a geometry instance keeps what it had and gets copies
of the parameters and material instances of another behind; the joints and roots of a controller instance replace those of another. -/
theorem clone_into_partial (src dst : Inst) (e : Nat) (he : src.base.entity = some e) :
    ∃ c, clone src (some dst) = some c ∧ c.base = { dst.base with entity := some e } ∧ c.kind = dst.kind ∧
      (src.isGeom = true → dst.isGeom = true → ∃ new, c.mats = dst.mats ++ new ∧ List.Forall₂ SameMat src.mats new ∧ c.params = dst.params ++ src.params) ∧
      ((src.isGeom = false ∨ dst.isGeom = false) → c.mats = dst.mats ∧ c.params = dst.params) ∧
      (∀ b p m r j b' p' m' r' j', src = .ctrl b p m r j → dst = .ctrl b' p' m' r' j' → ∃ b'' p'' m'', c = .ctrl b'' p'' m'' r j) ∧
      (∀ b p m r' j', (∀ b p m r j, src ≠ .ctrl b p m r j) → dst = .ctrl b p m r' j' → ∃ b'' p'' m'', c = .ctrl b'' p'' m'' r' j') := by
  have hb : ∀ d : Base, setEntity d src.base.entity = { d with entity := some e } := fun d => by simp [setEntity, he]
  refine ⟨_, rfl, ?_, ?_, ?_, ?_, ?_, ?_⟩
  · cases src <;> cases dst <;> exact hb _
  · cases src <;> cases dst <;> rfl
  · intro h1 h2
    cases src with
    | plain b => cases h1
    | mat m => cases h1
    | geom b p m =>
      cases dst with
      | plain d => cases h2
      | mat d => cases h2
      | geom d p' m' => exact ⟨_, rfl, cloneMats_same _ _, rfl⟩
      | ctrl d p' m' r' j' => exact ⟨_, rfl, cloneMats_same _ _, rfl⟩
    | ctrl b p m r j =>
      cases dst with
      | plain d => cases h2
      | mat d => cases h2
      | geom d p' m' => exact ⟨_, rfl, cloneMats_same _ _, rfl⟩
      | ctrl d p' m' r' j' => exact ⟨_, rfl, cloneMats_same _ _, rfl⟩
  · intro h
    cases src <;> cases dst <;> first | exact ⟨rfl, rfl⟩ | exact absurd h (by simp [Inst.isGeom])
  · rintro b p m r j b' p' m' r' j' rfl rfl
    exact ⟨_, _, _, rfl⟩
  · rintro b p m r' j' h rfl
    cases src with
    | plain b => exact ⟨_, _, _, rfl⟩
    | mat m => exact ⟨_, _, _, rfl⟩
    | geom b p m => exact ⟨_, _, _, rfl⟩
    | ctrl b p m r j => exact absurd rfl (h b p m r j)

example : (Inst.ctrl ⟨none, some 2, [], [], none⟩ [] [newMat none] [[35]] [some 1, none]).base.entity = some 2 := rfl

/-- C112: the clone does not have the name, the wanted sub id nor the extra tree of the instance. -/
theorem clone_name_violated (b : Base) : ∃ c, clone (.plain b) none = some c ∧ c.base.name = [] ∧ c.base.subId = [] ∧ c.base.extra = none := ⟨_, rfl, rfl, rfl, rfl⟩

/-- C112: the clone of a controller instance is in no scene node. -/
theorem clone_parent_violated (b : Base) (p : List Nat) (m : List Mat) (r : List Text) (j : List (Option Nat)) : ∃ c, clone (.ctrl b p m r j) none = some c ∧ c.base.parent = none := ⟨_, rfl, rfl⟩

/-- C112: cloning a material instance into nothing uses a null pointer. -/
theorem clone_material_null_violated (m : Mat) : clone (.mat m) none = none := rfl

/-- C112: cloning an instance without entity into an existing one leaves the entity there. -/
theorem clone_null_entity_violated (b : Base) (h : b.entity = none) (d : Base) : ∃ c, clone (.plain b) (some (.plain d)) = some c ∧ c.base.entity = d.entity := by
  refine ⟨_, rfl, ?_⟩
  change (setEntity d b.entity).entity = d.entity
  rw [h]
  rfl

example : (⟨some 1, none, [], [], none⟩ : Base).entity = none := rfl

/-- C112: cloning into a geometry instance that has a material for a semantic leaves that material in front: the clone is found to have the old material. -/
theorem clone_into_stale_violated :
    ∃ (src dst c : Inst) (s : Text) (m : Mat), src.mats[0]? = some m ∧ findMaterial src.mats s = some 0 ∧ m.base.entity = some 5 ∧ clone src (some dst) = some c ∧
      ∃ k m', findMaterial c.mats s = some k ∧ c.mats[k]? = some m' ∧ m'.base.entity = some 6 := by
  refine ⟨.geom ⟨none, some 1, [], [], none⟩ [] (addNamed none [] (some 5) [109]), .geom ⟨none, some 1, [], [], none⟩ [] (addNamed none [] (some 6) [109]), _, [109], _, rfl, rfl, rfl, rfl, 0, _, rfl, rfl, rfl⟩

end Verif.FMat
