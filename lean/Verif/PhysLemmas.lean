import Verif.PhysSpec
import Verif.BoundLemmas

/-!
# Lemmas about physics shapes, bodies and scenes
-/

namespace Verif.FPhys

open Verif.Geo (V3 Box Item Within)

section Mesh
variable {K : Type}

theorem readPoints_flat (ps : List (V3 K)) : readPoints (ps.flatMap fun p => [p.x, p.y, p.z]) = some ps := by
  induction ps with
  | nil => rfl
  | cons p ps ih =>
    rw [List.flatMap_cons]
    show (readPoints (ps.flatMap fun p => [p.x, p.y, p.z])).map _ = _
    rw [ih]
    rfl

theorem findHull_none (lib : Geometries K) (n : Nat) : findHull lib n none = some none := by cases n <;> rfl

theorem findHull_of {lib : Geometries K} {m m' : Mesh K} (h : HullOf lib m m') : m'.hullOf = none ∧ ∃ N, ∀ n ≥ N, findHull lib n (some m) = some (some m') := by
  induction h with
  | @self m h =>
    refine ⟨h, 0, fun n _ => ?_⟩
    cases n with
    | zero => simp [findHull, h]
    | succ n => simp [findHull, h]
  | @step m id m' m'' h hl _ ih =>
    obtain ⟨h1, N, hN⟩ := ih
    refine ⟨h1, N + 1, fun n hn => ?_⟩
    obtain ⟨k, rfl⟩ : ∃ k, n = k + 1 := ⟨n - 1, by omega⟩
    simp only [findHull, h, hl]
    exact hN k (by omega)

variable [Field K] [LinearOrder K]

omit [Field K] in
theorem foldl_points (l : List (V3 K)) (b : Box K) : l.foldl Box.includePoint b = (l.map Item.point).foldl Box.includeItem b := by
  induction l generalizing b with
  | nil => rfl
  | cons p l ih => exact ih _

theorem box_of_points (big : K) (ps : List (V3 K)) (h1 : FirstInside ps) (h2 : ∀ p ∈ ps, Within big p) :
    (ps.foldl Box.includePoint (Box.reset big)).Smallest (fun p => p ∈ ps) := by
  cases ps with
  | nil => exact h1.elim
  | cons p ps =>
    obtain ⟨⟨qx, hx, hx'⟩, ⟨qy, hy, hy'⟩, ⟨qz, hz, hz'⟩⟩ := h1
    rw [List.foldl_cons, foldl_points]
    have := Geo.items_point big p (h2 p (by simp)) (ps.map Item.point)
      (by
        intro i hi
        obtain ⟨q, _, rfl⟩ := List.mem_map.1 hi
        exact ⟨q, rfl⟩)
      ⟨qx, ⟨_, List.mem_map_of_mem hx, rfl⟩, hx'⟩ ⟨qy, ⟨_, List.mem_map_of_mem hy, rfl⟩, hy'⟩ ⟨qz, ⟨_, List.mem_map_of_mem hz, rfl⟩, hz'⟩
    have e : (fun q => q = p ∨ ∃ i ∈ ps.map Item.point, i.Has q) = fun q => q ∈ p :: ps := by
      funext q
      simp [Item.Has]
    rwa [e] at this

theorem setsVolume_spec (big : K) (sets : List (Option (PosSource K))) (pss : List (List (V3 K)))
    (h : List.Forall₂ (fun o ps => ∃ s, o = some s ∧ s.Gives ps) sets pss) (h1 : ∀ ps ∈ pss, FirstInside ps ∧ ∀ p ∈ ps, Within big p) (acc : K) :
    ∃ vs, List.Forall₂ BoundingVolume pss vs ∧ setsVolume big (Box.reset big) acc sets = some (acc + vs.sum) := by
  induction h generalizing acc with
  | nil => exact ⟨[], .nil, by simp [setsVolume]⟩
  | @cons o ps sets pss ho _ ih =>
    obtain ⟨s, rfl, h3, h4⟩ := ho
    obtain ⟨f1, f2⟩ := h1 ps (by simp)
    have hb := box_of_points big ps f1 f2
    obtain ⟨vs, hv, he⟩ := ih (fun ps hp => h1 ps (by simp [hp])) (acc + boxSize (ps.foldl Box.includePoint (Box.reset big)))
    refine ⟨boxSize (ps.foldl Box.includePoint (Box.reset big)) :: vs, .cons ⟨_, hb, ?_, rfl⟩ hv, ?_⟩
    · cases ps with
      | nil => exact f1.elim
      | cons p ps => exact ⟨p, hb.1 p (by simp)⟩
    · simp only [setsVolume, h3, if_true, h4, readPoints_flat, Option.bind_some]
      rw [he, List.sum_cons, add_assoc]

theorem boundingVolume_unique (ps : List (V3 K)) (v w : K) (hv : BoundingVolume ps v) (hw : BoundingVolume ps w) : v = w := by
  obtain ⟨b, hb, ⟨p, hp⟩, rfl⟩ := hv
  obtain ⟨c, hc, ⟨q, hq⟩, rfl⟩ := hw
  have lo : ∀ d : Box K, (∃ p, d.Has p) → d.Has d.min ∧ d.Has d.max := by
    rintro d ⟨p, ⟨a1, a2⟩, ⟨b1, b2⟩, c1, c2⟩
    exact ⟨⟨⟨le_refl _, a1.trans a2⟩, ⟨le_refl _, b1.trans b2⟩, le_refl _, c1.trans c2⟩,
      ⟨⟨a1.trans a2, le_refl _⟩, ⟨b1.trans b2, le_refl _⟩, c1.trans c2, le_refl _⟩⟩
  obtain ⟨b1, b2⟩ := lo b ⟨p, hp⟩
  obtain ⟨c1, c2⟩ := lo c ⟨q, hq⟩
  have x1 := hb.2 c hc.1 _ b1
  have x2 := hb.2 c hc.1 _ b2
  have y1 := hc.2 b hb.1 _ c1
  have y2 := hc.2 b hb.1 _ c2
  rw [le_antisymm x1.1.1 y1.1.1, le_antisymm x2.1.2 y2.1.2, le_antisymm x1.2.1.1 y1.2.1.1, le_antisymm x2.2.1.2 y2.2.1.2, le_antisymm x1.2.2.1 y1.2.2.1,
    le_antisymm x2.2.2.2 y2.2.2.2]

end Mesh

section Copies
variable {K T : Type} [Zero K]

theorem anal_clone (a : Anal K) : a.cloneInto (createPAS a.kind) = a ↔ a.Kept := by
  cases a with
  | plane n d =>
    simp only [Anal.kind, createPAS, Anal.cloneInto, Anal.Kept, Anal.plane.injEq, true_and]
    constructor
    · rintro h n' d' ⟨_, rfl⟩
      exact h.symm
    · intro h
      exact (h n d ⟨rfl, rfl⟩).symm
  | _ => simp [Anal.kind, createPAS, Anal.cloneInto, Anal.Kept]

theorem shape_clone (s : Shape K T) : (s.cloneInto .new).SameAs s ↔ s.Plain := by
  obtain ⟨hol, mat, ow, geo, an, ma, den, tr, im, dm⟩ := s
  simp only [Shape.SameAs, Shape.cloneInto, Shape.new, Shape.Plain, List.nil_append, true_and]
  have h6 : (if im.isSome then some none else none) = im ↔ ∀ e, im ≠ some (some e) := by
    rcases im with _ | _ | e <;> simp
  have h7 : (false = dm) ↔ dm = false := eq_comm
  rw [h6, h7]
  rcases mat with _ | mat <;> rcases geo with _ | geo <;> rcases ma with _ | ma <;> rcases den with _ | den <;> rcases an with _ | an <;>
    simp [Material.cloneInto, anal_clone] <;> tauto

theorem forall2_shapes (l : List (Shape K T)) : List.Forall₂ Shape.SameAs (l.map fun s => s.cloneInto .new) l ↔ ∀ s ∈ l, s.Plain := by
  induction l with
  | nil => simp
  | cons s l ih => simp only [List.map_cons, List.forall₂_cons, ih, shape_clone, List.mem_cons, forall_eq_or_imp]

theorem body_clone [One K] (mats : Nat → Material K) (same : Bool) (p : Params K T) : (cloneBody mats same p).SameAs mats p ↔ p.Plain := by
  obtain ⟨dy, ma, de, ine, tra, ax, an, sh, mat, im, dm, ia⟩ := p
  simp only [Params.SameAs, cloneBody, Params.copyFrom, Params.new, Params.Plain, List.nil_append, true_and]
  rw [forall2_shapes]
  have h1 : (match mat with
    | none => none
    | some r =>
      match same, r with
      | true, .shared i => some (.shared i)
      | true, .own m => some (.borrowed m)
      | true, .borrowed m => some (.borrowed m)
      | false, .shared i => some (.own ((mats i).cloneInto .new))
      | false, .own m => some (.own (m.cloneInto .new))
      | false, .borrowed m => some (.own (m.cloneInto .new)) : Option (MatRef K)).map (MatRef.values mats) = mat.map (MatRef.values mats) := by
    rcases mat with _ | _ | _ | _ <;> cases same <;> rfl
  have h2 : (match im with | some e => some e | none => none) = im := by cases im <;> rfl
  have h3 : (0 = de) ↔ de = 0 := eq_comm
  have h4 : (false = dm) ↔ dm = false := eq_comm
  have h5 : (false = ia) ↔ ia = false := eq_comm
  rw [h3, h4, h5]
  constructor
  · rintro ⟨a, b, _, _, c, d⟩
    exact ⟨a, c, d, b⟩
  · rintro ⟨a, b, c, d⟩
    exact ⟨a, d, h1, h2, b, c⟩

theorem cloneInst_spec [One K] (mats : Nat → Material K) (i : Inst K T) :
    (∀ e, i ≠ .force e) → ∃ c, cloneInst mats i = some c ∧ (i.Plain → i.SameAs mats c) := by
  intro h
  cases i with
  | body e v a t p =>
    refine ⟨_, rfl, fun hp => ⟨rfl, rfl, rfl, rfl, ?_⟩⟩
    have := (body_clone mats true p).2 hp
    obtain ⟨a1, a2, a3, a4, a5, a6, a7, a8, a9, a10, a11, a12⟩ := this
    refine ⟨a1.symm, a2.symm, a3.symm, a4.symm, a5.symm, a6.symm, a7.symm, ?_, a9.symm, a10.symm, a11.symm, a12.symm⟩
    refine List.Forall₂.imp ?_ (List.Forall₂.flip a8)
    rintro a b ⟨b1, b2, b3, b4, b5, b6, b7, b8, b9⟩
    exact ⟨b1.symm, b2.symm, b3.symm, b4.symm, b5.symm, b6.symm, b7.symm, b8.symm, b9.symm⟩
  | constraint e => exact ⟨_, rfl, fun _ => rfl⟩
  | force e => exact absurd rfl (h e)

theorem mapM_spec {α β : Type} (f : α → Option β) (R : α → β → Prop) (l : List α) (h : ∀ a ∈ l, ∃ b, f a = some b ∧ R a b) :
    ∃ l', l.mapM f = some l' ∧ List.Forall₂ R l l' := by
  induction l with
  | nil => exact ⟨[], rfl, .nil⟩
  | cons a l ih =>
    obtain ⟨b, hb, hr⟩ := h a (by simp)
    obtain ⟨l', hl, hf⟩ := ih fun x hx => h x (by simp [hx])
    exact ⟨b :: l', by simp [List.mapM_cons, hb, hl], .cons hr hf⟩

theorem mapM_none {α β : Type} (f : α → Option β) (l : List α) (a : α) (ha : a ∈ l) (h : f a = none) : l.mapM f = none := by
  induction l with
  | nil => cases ha
  | cons x l ih =>
    rcases List.mem_cons.1 ha with rfl | ha
    · simp [List.mapM_cons, h]
    · cases hx : f x <;> simp [List.mapM_cons, hx, ih ha]

theorem cloneModelInst_spec [One K] (mats : Nat → Material K) (m : ModelInst K T) (h : m.NoForce) :
    ∃ c, cloneModelInst mats m = some c ∧ ((∀ i ∈ m.insts, i.Plain) → m.SameAs mats c) := by
  obtain ⟨l, hl, hf⟩ := mapM_spec (cloneInst mats) (fun i c => i.Plain → i.SameAs mats c) m.insts fun i hi =>
    cloneInst_spec mats i (fun e he => h e (he ▸ hi))
  refine ⟨⟨m.entity, l⟩, by simp [cloneModelInst, hl], fun hp => ⟨rfl, ?_⟩⟩
  show List.Forall₂ _ m.insts l
  clear hl h
  generalize m.insts = k at *
  induction hf with
  | nil => exact .nil
  | cons a b ih => exact .cons (a (hp _ (by simp))) (ih fun i hi => hp i (by simp [hi]))

theorem cloneModelInst_none [One K] (mats : Nat → Material K) (m : ModelInst K T) (h : ¬ m.NoForce) : cloneModelInst mats m = none := by
  unfold ModelInst.NoForce at h
  push Not at h
  obtain ⟨e, he⟩ := h
  simp [cloneModelInst, mapM_none (cloneInst mats) m.insts _ he rfl]

end Copies

/-! ## Materials -/

structure MatInv (doc : List Nat) (w : Mats) : Prop where
  ptr : ∀ h k m, w.holders h = some k → k.ptr = some m → w.alive m = true
  uniq : ∀ h h' m, OwnsMat w h m → OwnsMat w h' m → h = h'
  notDoc : ∀ h m, OwnsMat w h m → m ∉ doc
  kept : ∀ m, w.alive m = true → m ∈ doc ∨ ∃ h, OwnsMat w h m
  once : w.freed.Nodup
  dead : ∀ m ∈ w.freed, w.alive m = false
  docs : ∀ m ∈ doc, w.alive m = true ∨ m ∈ w.freed

theorem releaseMat_spec (w : Mats) (m : Nat) (h : w.alive m = true) : ∃ w', releaseMat w m = some w' ∧
    (∀ x, w'.alive x = if x = m then false else w.alive x) ∧ w'.freed = w.freed ++ [m] ∧
    (∀ x, w'.holders x = (w.holders x).map fun k => if k.ptr = some m then { k with ptr := none } else k) := by
  refine ⟨_, if_pos h, fun _ => rfl, rfl, fun _ => rfl⟩

theorem release_owns {w w' : Mats} {m : Nat}
    (e : ∀ x, w'.holders x = (w.holders x).map fun k => if k.ptr = some m then { k with ptr := none } else k) (h x : Nat) :
    OwnsMat w' h x ↔ OwnsMat w h x ∧ x ≠ m := by
  unfold OwnsMat
  rw [e h]
  cases hk : w.holders h with
  | none => simp
  | some k =>
    obtain ⟨p, o⟩ := k
    simp only [Option.map_some, Option.some.injEq]
    by_cases hp : p = some m
    · subst hp
      simp only [if_true, Holder.mk.injEq, Option.some.injEq]
      constructor
      · rintro ⟨a, _⟩
        cases a
      · rintro ⟨⟨rfl, _⟩, b⟩
        exact absurd rfl b
    · rw [if_neg hp]
      simp only [Holder.mk.injEq]
      constructor
      · rintro ⟨rfl, rfl⟩
        exact ⟨⟨rfl, rfl⟩, fun hx => hp (by rw [hx])⟩
      · exact fun h => h.1

theorem inv_release {doc : List Nat} {w w' : Mats} {m : Nat} (i : MatInv doc w) (h : w.alive m = true)
    (ha : ∀ x, w'.alive x = if x = m then false else w.alive x) (hf : w'.freed = w.freed ++ [m])
    (hh : ∀ x, w'.holders x = (w.holders x).map fun k => if k.ptr = some m then { k with ptr := none } else k) : MatInv doc w' := by
  have ho := fun h x => release_owns hh h x
  refine ⟨?_, ?_, ?_, ?_, ?_, ?_, ?_⟩
  · intro h k x hk hx
    rw [hh h] at hk
    cases hw : w.holders h with
    | none => rw [hw] at hk; cases hk
    | some q =>
      rw [hw] at hk
      simp only [Option.map_some, Option.some.injEq] at hk
      by_cases hp : q.ptr = some m
      · rw [if_pos hp] at hk
        subst hk
        cases hx
      · rw [if_neg hp] at hk
        subst hk
        rw [ha, if_neg]
        · exact i.ptr h q x hw hx
        · rintro rfl
          exact hp hx
  · intro h h' x a b
    exact i.uniq h h' x ((ho h x).1 a).1 ((ho h' x).1 b).1
  · intro h x a
    exact i.notDoc h x ((ho h x).1 a).1
  · intro x hx
    rw [ha] at hx
    by_cases hm : x = m
    · rw [if_pos hm] at hx; cases hx
    · rw [if_neg hm] at hx
      rcases i.kept x hx with a | ⟨h, a⟩
      · exact .inl a
      · exact .inr ⟨h, (ho h x).2 ⟨a, hm⟩⟩
  · rw [hf, List.nodup_append]
    refine ⟨i.once, by simp, ?_⟩
    rintro a ha' b hb rfl
    simp only [List.mem_singleton] at hb
    subst hb
    rw [i.dead _ ha'] at h
    cases h
  · intro x hx
    rw [hf] at hx
    rw [ha]
    by_cases hm : x = m
    · rw [if_pos hm]
    · rw [if_neg hm]
      rcases List.mem_append.1 hx with a | a
      · exact i.dead x a
      · exact absurd (List.mem_singleton.1 a) hm
  · intro x hx
    rw [ha, hf]
    by_cases hm : x = m
    · right; simp [hm]
    · rw [if_neg hm]
      rcases i.docs x hx with a | a
      · exact .inl a
      · right; simp [a]

/-- What `dropOwn` does. -/
theorem dropOwn_spec {doc : List Nat} {w : Mats} (i : MatInv doc w) (h : Nat) (hh : (w.holders h).isSome = true) : ∃ w1, dropOwn w h = some w1 ∧ MatInv doc w1 ∧
    (∀ m, ¬ OwnsMat w1 h m) ∧ (∀ h' m, OwnsMat w1 h' m → OwnsMat w h' m) ∧ (∀ h', (w1.holders h').isSome = (w.holders h').isSome) ∧
    (∀ h' m, h' ≠ h → OwnsMat w h' m → OwnsMat w1 h' m) ∧
    (∀ m, w1.alive m = true ↔ w.alive m = true ∧ ¬ OwnsMat w h m) ∧ (∀ m, m ∈ w1.freed ↔ m ∈ w.freed ∨ OwnsMat w h m) := by
  obtain ⟨k, hk⟩ := Option.isSome_iff_exists.1 hh
  unfold dropOwn
  rw [hk, Option.bind_some]
  obtain ⟨p, o⟩ := k
  by_cases hc : o = true ∧ ∃ m, p = some m
  · obtain ⟨rfl, m, rfl⟩ := hc
    have hal := i.ptr h _ m hk rfl
    obtain ⟨w1, h1, h2, h3, h4⟩ := releaseMat_spec w m hal
    have ho := fun h x => release_owns h4 h x
    have hm : ∀ x, OwnsMat w h x ↔ x = m := by
      intro x
      unfold OwnsMat
      rw [hk]
      simp [eq_comm]
    refine ⟨w1, h1, inv_release i hal h2 h3 h4, ?_, fun h' x a => ((ho h' x).1 a).1, ?_, ?_, ?_, ?_⟩
    · intro x a
      obtain ⟨b, c⟩ := (ho h x).1 a
      exact c ((hm x).1 b)
    · intro h'
      rw [h4]
      simp
    · intro h' x hne a
      refine (ho h' x).2 ⟨a, ?_⟩
      rintro rfl
      exact hne (i.uniq h' h x a ((hm x).2 rfl))
    · intro x
      rw [h2, hm]
      by_cases hx : x = m <;> simp [hx]
    · intro x
      rw [h3, hm]
      simp
  · have hno : ∀ x, ¬ OwnsMat w h x := by
      intro x hx
      unfold OwnsMat at hx
      rw [hk] at hx
      simp only [Option.some.injEq, Holder.mk.injEq] at hx
      exact hc ⟨hx.2, x, hx.1⟩
    refine ⟨w, ?_, i, hno, fun _ _ a => a, fun _ => rfl, fun _ _ _ a => a, fun x => by simp [hno x], fun x => by simp [hno x]⟩
    cases o with
    | false => rfl
    | true =>
      cases p with
      | none => rfl
      | some m => exact absurd ⟨rfl, m, rfl⟩ hc

theorem put_owns (w : Mats) (h : Nat) (k : Option Holder) (h' m : Nat) :
    OwnsMat (putHolder w h k) h' m ↔ if h' = h then k = some ⟨some m, true⟩ else OwnsMat w h' m := by
  unfold OwnsMat putHolder
  by_cases e : h' = h <;> simp [e]

/-- A holder that owns nothing is given something that lives and that it does not own. -/
theorem inv_put {doc : List Nat} {w : Mats} (i : MatInv doc w) (h : Nat) (k : Option Holder) (hno : ∀ m, ¬ OwnsMat w h m)
    (hk : ∀ q, k = some q → q.owns = false ∧ ∀ m, q.ptr = some m → w.alive m = true) : MatInv doc (putHolder w h k) := by
  have ho : ∀ h' m, OwnsMat (putHolder w h k) h' m ↔ OwnsMat w h' m := by
    intro h' m
    rw [put_owns]
    by_cases e : h' = h
    · rw [if_pos e]
      constructor
      · intro a
        have := (hk _ a).1
        cases this
      · intro a
        rw [e] at a
        exact absurd a (hno m)
    · rw [if_neg e]
  refine ⟨?_, fun h1 h2 m a b => i.uniq h1 h2 m ((ho _ _).1 a) ((ho _ _).1 b), fun h1 m a => i.notDoc h1 m ((ho _ _).1 a), ?_, i.once, i.dead, i.docs⟩
  · intro h' q m hq hm
    show w.alive m = true
    have hq : (if h' = h then k else w.holders h') = some q := hq
    by_cases e : h' = h
    · rw [if_pos e] at hq
      exact (hk q hq).2 m hm
    · rw [if_neg e] at hq
      exact i.ptr h' q m hq hm
  · intro m hm
    rcases i.kept m hm with a | ⟨h', a⟩
    · exact .inl a
    · exact .inr ⟨h', (ho _ _).2 a⟩

theorem mat_step {doc : List Nat} {w : Mats} (i : MatInv doc w) (op : MatOp) (l : MatLegal w op) : ∃ w', matStep w op = some w' ∧ MatInv (docMats doc op) w' ∧
    (∀ x, w'.alive x = true ↔ (w.alive x = true ∧ ¬ Gone w op x) ∨ Made op x) ∧ (∀ x, x ∈ w'.freed ↔ x ∈ w.freed ∨ Gone w op x) := by
  cases op with
  | newMaterial m =>
    obtain ⟨l1, l2⟩ := l
    refine ⟨_, rfl, ⟨?_, i.uniq, ?_, ?_, i.once, ?_, ?_⟩, ?_, ?_⟩
    · intro h k x hk hx
      show (if x = m then true else w.alive x) = true
      rw [i.ptr h k x hk hx]
      simp
    · intro h x a hx
      rcases List.mem_cons.1 hx with rfl | hx
      · rw [i.ptr h _ x a rfl] at l1
        cases l1
      · exact i.notDoc h x a hx
    · intro x hx
      have hx : (if x = m then true else w.alive x) = true := hx
      by_cases e : x = m
      · left; rw [e]; exact List.mem_cons_self
      · rw [if_neg e] at hx
        rcases i.kept x hx with a | a
        · exact .inl (List.mem_cons_of_mem _ a)
        · exact .inr a
    · intro x hx
      show (if x = m then true else w.alive x) = false
      rw [if_neg, i.dead x hx]
      rintro rfl
      exact l2 hx
    · intro x hx
      show (if x = m then true else w.alive x) = true ∨ x ∈ w.freed
      rcases List.mem_cons.1 hx with rfl | hx
      · left; rw [if_pos rfl]
      · rcases i.docs x hx with a | a
        · left; rw [a]; simp
        · exact .inr a
    · intro x
      show (if x = m then true else w.alive x) = true ↔ _
      by_cases e : x = m <;> simp [Gone, Made, e]
    · intro x
      simp [Gone]
  | freeMaterial m =>
    obtain ⟨w1, h1, h2, h3, h4⟩ := releaseMat_spec w m l
    refine ⟨w1, h1, inv_release i l h2 h3 h4, ?_, ?_⟩
    · intro x
      rw [h2]
      by_cases e : x = m <;> simp [Gone, Made, e]
    · intro x
      rw [h3]
      simp [Gone]
  | newHolder h =>
    refine ⟨_, rfl, inv_put i h _ ?_ ?_, ?_, ?_⟩
    · intro m a
      unfold OwnsMat at a
      rw [show w.holders h = none from l] at a
      cases a
    · rintro q hq
      cases hq
      exact ⟨rfl, fun m hm => by cases hm⟩
    · intro x
      simp [Gone, Made, putHolder]
    · intro x
      simp [Gone, putHolder]
  | addOwn h m =>
    obtain ⟨l1, l2, l3⟩ := l
    obtain ⟨w1, e, i1, hno, hsub, _, hoth, hal, hfr⟩ := dropOwn_spec i h l1
    have ho : ∀ h' x, OwnsMat (putHolder { w1 with alive := fun x => if x = m then true else w1.alive x } h (some ⟨some m, true⟩)) h' x ↔
        (h' = h ∧ x = m) ∨ OwnsMat w1 h' x := by
      intro h' x
      rw [put_owns]
      by_cases eh : h' = h
      · rw [if_pos eh]
        subst eh
        simp only [Option.some.injEq, Holder.mk.injEq, and_true, true_and]
        constructor
        · exact fun a => .inl a.symm
        · rintro (a | a)
          · exact a.symm
          · exact absurd a (hno x)
      · rw [if_neg eh]
        simp only [eh, false_and, false_or]
        rfl
    have hm1 : w1.alive m ≠ true := fun a => by
      rw [((hal m).1 a).1] at l2
      cases l2
    have hm2 : m ∉ w1.freed := by
      intro a
      rcases (hfr m).1 a with b | b
      · exact l3 b
      · rw [i.ptr h _ m b rfl] at l2
        cases l2
    have hm3 : ∀ h', ¬ OwnsMat w1 h' m := fun h' a => hm1 (i1.ptr h' _ m a rfl)
    have hm4 : m ∉ doc := fun a => by
      rcases i1.docs m a with b | b
      · exact hm1 b
      · exact hm2 b
    refine ⟨putHolder { w1 with alive := fun x => if x = m then true else w1.alive x } h (some ⟨some m, true⟩), by simp only [matStep, e, Option.map_some],
      ⟨?_, ?_, ?_, ?_, i1.once, ?_, ?_⟩, ?_, ?_⟩
    · intro h' q x hq hx
      show (if x = m then true else w1.alive x) = true
      have hq : (if h' = h then some ⟨some m, true⟩ else w1.holders h') = some q := hq
      by_cases eh : h' = h
      · rw [if_pos eh] at hq
        cases hq
        cases hx
        simp
      · rw [if_neg eh] at hq
        rw [i1.ptr h' q x hq hx]
        simp
    · intro h1 h2 x a b
      rcases (ho _ _).1 a with ⟨rfl, rfl⟩ | a'
      · rcases (ho _ _).1 b with ⟨rfl, _⟩ | b'
        · rfl
        · exact absurd b' (hm3 _)
      · rcases (ho _ _).1 b with ⟨rfl, rfl⟩ | b'
        · exact absurd a' (hm3 _)
        · exact i1.uniq _ _ _ a' b'
    · intro h' x a
      rcases (ho _ _).1 a with ⟨_, rfl⟩ | a
      · exact hm4
      · exact i1.notDoc _ _ a
    · intro x hx
      have hx : (if x = m then true else w1.alive x) = true := hx
      by_cases ex : x = m
      · exact .inr ⟨h, (ho _ _).2 (.inl ⟨rfl, ex⟩)⟩
      · rw [if_neg ex] at hx
        rcases i1.kept x hx with a | ⟨h', a⟩
        · exact .inl a
        · exact .inr ⟨h', (ho _ _).2 (.inr a)⟩
    · intro x hx
      show (if x = m then true else w1.alive x) = false
      rw [if_neg, i1.dead x hx]
      rintro rfl
      exact hm2 hx
    · intro x hx
      show (if x = m then true else w1.alive x) = true ∨ x ∈ w1.freed
      rcases i1.docs x hx with a | a
      · left; rw [a]; simp
      · exact .inr a
    · intro x
      show (if x = m then true else w1.alive x) = true ↔ _
      by_cases ex : x = m
      · simp [Made, ex]
      · rw [if_neg ex, hal]
        simp [Gone, Made, ex]
    · intro x
      exact hfr x
  | set h p =>
    obtain ⟨l1, l2⟩ := l
    obtain ⟨w1, e, i1, hno, hsub, _, hoth, hal, hfr⟩ := dropOwn_spec i h l1
    cases p with
    | none =>
      refine ⟨_, by simp only [matStep, e, Option.bind_some]; rfl, inv_put i1 h _ hno ?_, ?_, fun x => hfr x⟩
      · rintro q hq
        cases hq
        exact ⟨rfl, fun m hm => by cases hm⟩
      · intro x
        show w1.alive x = true ↔ _
        rw [hal]
        simp [Gone, Made]
    | some m =>
      obtain ⟨a, b⟩ := l2 m rfl
      have hm : w1.alive m = true := (hal m).2 ⟨a, b⟩
      refine ⟨_, by simp only [matStep, e, Option.bind_some, hm, if_true]; rfl, inv_put i1 h _ hno ?_, ?_, fun x => hfr x⟩
      · rintro q hq
        cases hq
        exact ⟨rfl, fun x hx => by cases hx; exact hm⟩
      · intro x
        show w1.alive x = true ↔ _
        rw [hal]
        simp [Gone, Made]
  | deleteHolder h =>
    obtain ⟨w1, e, i1, hno, hsub, _, hoth, hal, hfr⟩ := dropOwn_spec i h l
    refine ⟨putHolder w1 h none, by simp only [matStep, e, Option.map_some], inv_put i1 h none hno (fun q hq => by cases hq), ?_, fun x => hfr x⟩
    intro x
    show w1.alive x = true ↔ _
    rw [hal]
    simp [Gone, Made]

theorem matReach_inv {doc : List Nat} {w : Mats} (r : MatReach doc w) : MatInv doc w := by
  induction r with
  | start =>
    refine ⟨?_, ?_, ?_, ?_, ?_, ?_, ?_⟩
    · intro h k m a; cases a
    · intro h h' m a; cases a
    · intro h m a; cases a
    · intro m a; cases a
    · exact List.nodup_nil
    · intro m a; cases a
    · intro m a; cases a
  | step _ l e ih =>
    obtain ⟨w', e', i, _⟩ := mat_step ih _ l
    rw [e] at e'
    cases e'
    exact i

end Verif.FPhys
