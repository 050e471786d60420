import Verif.ArcDocSpec
import Verif.ArcLemmas
import Verif.ArcExtraProps

/-! # Lemmas on the libraries of a document: sorting and gathering -/

namespace Verif.FArc

open Verif.FEff (Text text)
open Verif.FConv (Ov)

theorem rank_inj {a b : Kind} (h : a.rank = b.rank) : a = b := by cases a <;> cases b <;> first | rfl | cases h

/-- The elements of a kind in a list. -/
def ofKind (k : Kind) (l : List (Kind × Node)) : List Node := (l.filter fun x => decide (x.1 = k)).map (·.2)

theorem ofKind_append (k : Kind) (a b : List (Kind × Node)) : ofKind k (a ++ b) = ofKind k a ++ ofKind k b := by simp [ofKind]

theorem ofKind_cons (k : Kind) (x : Kind × Node) (l : List (Kind × Node)) : ofKind k (x :: l) = if x.1 = k then x.2 :: ofKind k l else ofKind k l := by
  by_cases h : x.1 = k <;> simp [ofKind, h]

/-- Sorted by kind. -/
def Ordered (l : List (Kind × Node)) : Prop := l.Pairwise fun a b => a.1.rank ≤ b.1.rank

theorem mem_place {x y : Kind × Node} : ∀ {l : List (Kind × Node)}, y ∈ place x l → y = x ∨ y ∈ l
  | [], h => by simpa [place] using h
  | z :: l, h => by
    rw [place] at h
    split at h
    · simpa using h
    · rcases List.mem_cons.1 h with rfl | h
      · exact Or.inr List.mem_cons_self
      · rcases mem_place h with h | h
        · exact Or.inl h
        · exact Or.inr (List.mem_cons_of_mem _ h)

theorem place_ordered (x : Kind × Node) : ∀ l : List (Kind × Node), Ordered l → Ordered (place x l)
  | [], _ => by simp [place, Ordered]
  | y :: l, h => by
    obtain ⟨h1, h2⟩ := List.pairwise_cons.1 h
    rw [place]
    split
    · rename_i hlt
      refine List.pairwise_cons.2 ⟨fun z hz => ?_, h⟩
      rcases List.mem_cons.1 hz with rfl | hz
      · omega
      · have := h1 z hz
        omega
    · rename_i hlt
      refine List.pairwise_cons.2 ⟨fun z hz => ?_, place_ordered x l h2⟩
      rcases mem_place hz with rfl | hz
      · omega
      · exact h1 z hz

theorem place_ofKind (k : Kind) (x : Kind × Node) : ∀ l : List (Kind × Node), Ordered l → ofKind k (place x l) = ofKind k l ++ if x.1 = k then [x.2] else []
  | [], _ => by rw [place, ofKind_cons]; by_cases h : x.1 = k <;> simp [h, ofKind]
  | y :: l, h => by
    obtain ⟨h1, h2⟩ := List.pairwise_cons.1 h
    rw [place]
    split
    · rename_i hlt
      by_cases hk : x.1 = k
      · have hn : ofKind k (y :: l) = [] := by
          unfold ofKind
          rw [List.map_eq_nil_iff, List.filter_eq_nil_iff]
          intro z hz
          have hr : y.1.rank ≤ z.1.rank := by
            rcases List.mem_cons.1 hz with rfl | hz
            · exact Nat.le_refl _
            · exact h1 z hz
          rw [decide_eq_true_eq]
          rintro rfl
          rw [hk] at hlt
          omega
        rw [ofKind_cons, if_pos hk, hn, if_pos hk, List.nil_append]
      · rw [ofKind_cons, if_neg hk, if_neg hk, List.append_nil]
    · rw [ofKind_cons, place_ofKind k x l h2, ofKind_cons]
      split <;> simp

/-! ## The elements of a file -/

/-- The kind under which an element of a file is put. -/
def entry (n : Node) : Option Kind := (libKind n.name).or (if n.name = text "extra" then some .unknown else none)

theorem libKind_asset : libKind (text "asset") = none := by decide
theorem libKind_scene : libKind (text "scene") = none := by decide
theorem libKind_extra : libKind (text "extra") = none := by decide

theorem gather_order (g : Gathered) (k : Node) : (gather g k).order = match entry k with | some kind => place (kind, k) g.order | none => g.order := by
  unfold gather entry
  cases hk : libKind k.name with
  | some kind => rfl
  | none =>
    by_cases h1 : k.name = text "asset"
    · simp [h1, text_inj]
    · by_cases h2 : k.name = text "scene"
      · simp [h2, text_inj]
      · by_cases h3 : k.name = text "extra" <;> simp [h1, h2, h3, text_inj]

theorem gather_lists (g : Gathered) (k : Node) : (gather g k).assets = g.assets ++ (if k.name = text "asset" then [k] else []) ∧
    (gather g k).extras = g.extras ++ (if k.name = text "extra" then [k] else []) ∧ (gather g k).scene = if k.name = text "scene" then some k else g.scene := by
  unfold gather
  by_cases h1 : k.name = text "asset"
  · simp [h1, libKind_asset, text_inj]
  · by_cases h2 : k.name = text "scene"
    · simp [h2, libKind_scene, text_inj]
    · by_cases h3 : k.name = text "extra"
      · simp [h3, libKind_extra, text_inj]
      · simp only [h1, h2, h3, if_false, List.append_nil]
        cases libKind k.name <;> exact ⟨rfl, rfl, rfl⟩

theorem gathered : ∀ (ks : List Node) (g : Gathered), Ordered g.order →
    Ordered (ks.foldl gather g).order ∧
    (∀ k, ofKind k (ks.foldl gather g).order = ofKind k g.order ++ ks.filter fun n => decide (entry n = some k)) ∧
    (ks.foldl gather g).assets = g.assets ++ (ks.filter fun n => decide (n.name = text "asset")) ∧
    (ks.foldl gather g).extras = g.extras ++ (ks.filter fun n => decide (n.name = text "extra")) ∧
    (ks.foldl gather g).scene = ((ks.filter fun n => decide (n.name = text "scene")).getLast?).or g.scene
  | [], g, h => by simp [h]
  | n :: ks, g, h => by
    rw [List.foldl_cons]
    have ho := gather_order g n
    have hs : Ordered (gather g n).order := by
      rw [ho]
      split
      · exact place_ordered _ _ h
      · exact h
    obtain ⟨e1, e2, e3⟩ := gather_lists g n
    obtain ⟨i1, i2, i3, i4, i5⟩ := gathered ks (gather g n) hs
    refine ⟨i1, fun k => ?_, ?_, ?_, ?_⟩
    · rw [i2, ho]
      cases he : entry n with
      | none => simp [he]
      | some kind =>
        rw [place_ofKind k _ _ h]
        by_cases hk : kind = k <;> simp [he, hk]
    · rw [i3, e1]
      by_cases hn : n.name = text "asset" <;> simp [hn]
    · rw [i4, e2]
      by_cases hn : n.name = text "extra" <;> simp [hn]
    · rw [i5, e3]
      by_cases hn : n.name = text "scene"
      · simp only [hn, if_true, decide_true, List.filter_cons_of_pos, List.getLast?_cons]
        cases (ks.filter fun n => decide (n.name = text "scene")).getLast? <;> simp
      · simp [hn]

theorem placeAll (ns : List Node) : ∀ (l : List (Kind × Node)), Ordered l → Ordered (ns.foldl (fun l k => place (.emitter, k) l) l) ∧
    ∀ k, ofKind k (ns.foldl (fun l k => place (.emitter, k) l) l) = ofKind k l ++ if k = .emitter then ns else [] := by
  induction ns with
  | nil => intro l h; exact ⟨h, fun k => by simp⟩
  | cons n ns ih =>
    intro l h
    obtain ⟨i1, i2⟩ := ih _ (place_ordered (.emitter, n) l h)
    refine ⟨i1, fun k => ?_⟩
    rw [List.foldl_cons, i2, place_ofKind k _ l h]
    by_cases hk : k = .emitter
    · subst hk; simp
    · simp [hk, Ne.symm hk]

/-- The libraries of emitters in the extra elements. -/
def emittersIn (xs : List Node) : List Node := (xs.filter fun x => decide (prop (some x) (text "type") = some (text "libraries"))).flatMap emitterLibs

theorem gatheredExtras : ∀ (xs : List Node) (l : List (Kind × Node)) (e : FExtra.Extra) (r : List (Kind × Node) × FExtra.Extra), Ordered l → xs.foldlM gatherExtra (l, e) = some r →
    Ordered r.1 ∧ ∀ k, ofKind k r.1 = ofKind k l ++ if k = .emitter then emittersIn xs else []
  | [], l, e, r, h, hr => by
    simp only [List.foldlM_nil, Option.pure_def, Option.some.injEq] at hr
    subst hr
    exact ⟨h, fun k => by simp [emittersIn]⟩
  | x :: xs, l, e, r, h, hr => by
    rw [List.foldlM_cons] at hr
    obtain ⟨⟨l1, e1⟩, h1, hr⟩ := Option.bind_eq_some_iff.1 hr
    unfold gatherExtra at h1
    obtain ⟨t, ht, h1⟩ := Option.bind_eq_some_iff.1 h1
    by_cases htl : t = text "libraries"
    · rw [if_pos htl, Option.some.injEq, Prod.mk.injEq] at h1
      obtain ⟨rfl, rfl⟩ := h1
      obtain ⟨p1, p2⟩ := placeAll (emitterLibs x) l h
      obtain ⟨i1, i2⟩ := gatheredExtras xs _ _ r p1 hr
      refine ⟨i1, fun k => ?_⟩
      rw [i2, p2]
      by_cases hk : k = .emitter <;> simp [hk, emittersIn, ht, htl]
    · rw [if_neg htl] at h1
      obtain ⟨e2, -, h1⟩ := Option.map_eq_some_iff.1 h1
      rw [Prod.mk.injEq] at h1
      obtain ⟨rfl, rfl⟩ := h1
      obtain ⟨i1, i2⟩ := gatheredExtras xs _ _ r h hr
      refine ⟨i1, fun k => ?_⟩
      rw [i2]
      by_cases hk : k = .emitter <;> simp [hk, emittersIn, ht, htl]

/-! ## The members of libraries -/

/-- The elements in the libraries, in the order of loading. -/
def flat (l : List (Kind × Node)) : List (Kind × Node) := l.flatMap fun x => if x.1 = .unknown then [] else x.2.kids.map fun k => (x.1, k)

/-- One of them is loaded. -/
def loadPart (r : DocLoaded) (x : Kind × Node) : Option DocLoaded := loadMember x.1 r x.2

theorem loadOne_flat : ∀ (l : List (Kind × Node)) (r : DocLoaded), l.foldlM loadOne r = (flat l).foldlM loadPart r
  | [], _ => rfl
  | x :: l, r => by
    have h : flat (x :: l) = (if x.1 = .unknown then [] else x.2.kids.map fun k => (x.1, k)) ++ flat l := rfl
    rw [h, List.foldlM_append, List.foldlM_cons]
    have h1 : loadOne r x = (if x.1 = .unknown then [] else x.2.kids.map fun k => (x.1, k)).foldlM loadPart r := by
      unfold loadOne
      split
      · rfl
      · rw [List.foldlM_map]
        rfl
    rw [h1]
    congr 1
    funext s
    exact loadOne_flat l s

/-- Whether an element of a library is an entity. -/
def isEnt (n : Node) : Bool := decide (n.name ≠ text "asset") && decide (n.name ≠ text "extra")

theorem loadParts : ∀ (l : List (Kind × Node)) (r s : DocLoaded), l.foldlM loadPart r = some s →
    s.ents = r.ents ++ l.filter (fun x => isEnt x.2) ∧ s.libAssets = r.libAssets ++ l.filter (fun x => decide (x.2.name = text "asset")) ∧
    s.assets = r.assets ∧ s.extra = r.extra ∧ s.physics = r.physics ∧ s.scene = r.scene
  | [], r, s, h => by
    simp only [List.foldlM_nil, Option.pure_def, Option.some.injEq] at h
    subst h
    simp
  | x :: l, r, s, h => by
    rw [List.foldlM_cons] at h
    obtain ⟨r1, h1, h⟩ := Option.bind_eq_some_iff.1 h
    obtain ⟨i1, i2, i3, i4, i5, i6⟩ := loadParts l r1 s h
    unfold loadPart loadMember at h1
    by_cases ha : x.2.name = text "asset"
    · rw [if_pos ha, Option.some.injEq] at h1
      subst h1
      simp [i1, i2, i3, i4, i5, i6, ha, isEnt]
    · by_cases he : x.2.name = text "extra"
      · rw [if_neg ha, if_pos he] at h1
        obtain ⟨e, -, rfl⟩ := Option.map_eq_some_iff.1 h1
        simp [i1, i2, i3, i4, i5, i6, he, isEnt, text_inj]
      · rw [if_neg ha, if_neg he, Option.some.injEq] at h1
        subst h1
        simp [i1, i2, i3, i4, i5, i6, ha, he, isEnt]

/-- The extra elements of the libraries of a kind. -/
def extrasIn (l : List (Kind × Node)) (k : Kind) : List Node := ofKind k (l.filter fun x => decide (x.2.name = text "extra"))

theorem loadParts_some : ∀ (l : List (Kind × Node)) (r : DocLoaded) (e : Kind → FExtra.Extra), (∀ k, loadExtras (r.libExtra k) (extrasIn l k) = some (e k)) →
    ∃ s, l.foldlM loadPart r = some s ∧ s.libExtra = e
  | [], r, e, h => ⟨r, rfl, by funext k; have := h k; simpa [extrasIn, ofKind, loadExtras] using this⟩
  | x :: l, r, e, h => by
    rw [List.foldlM_cons]
    unfold loadPart loadMember
    by_cases he : x.2.name = text "extra"
    · rw [if_neg (by rw [he, text_inj]; decide), if_pos he]
      have hx := h x.1
      have hc : ∀ k, extrasIn (x :: l) k = if x.1 = k then x.2 :: extrasIn l k else extrasIn l k := fun k => by
        unfold extrasIn
        rw [List.filter_cons_of_pos (by simpa using he), ofKind_cons]
      rw [hc, if_pos rfl] at hx
      unfold loadExtras at hx
      rw [List.foldlM_cons] at hx
      obtain ⟨e1, h1, hx⟩ := Option.bind_eq_some_iff.1 hx
      rw [h1]
      obtain ⟨s, hs, hse⟩ := loadParts_some l { r with libExtra := fun y => if y = x.1 then e1 else r.libExtra y } e (by
        intro k
        by_cases hk : k = x.1
        · subst hk
          simpa [loadExtras] using hx
        · have := h k
          rw [hc, if_neg (Ne.symm hk)] at this
          simpa [hk] using this)
      exact ⟨s, hs, hse⟩
    · have hc : ∀ k, extrasIn (x :: l) k = extrasIn l k := fun k => by
        unfold extrasIn
        rw [List.filter_cons_of_neg (by simpa using he)]
      have h' : ∀ k, loadExtras (r.libExtra k) (extrasIn l k) = some (e k) := fun k => by rw [← hc]; exact h k
      by_cases ha : x.2.name = text "asset"
      · rw [if_pos ha]
        exact loadParts_some l { r with libAssets := r.libAssets ++ [(x.1, x.2)] } e h'
      · rw [if_neg ha, if_neg he]
        exact loadParts_some l { r with ents := r.ents ++ [(x.1, x.2)] } e h'

theorem flat_ordered {l : List (Kind × Node)} (h : Ordered l) : Ordered (flat l) := by
  unfold flat Ordered
  rw [List.pairwise_flatMap]
  refine ⟨fun x _ => ?_, ?_⟩
  · split
    · exact List.Pairwise.nil
    · rw [List.pairwise_map]
      exact List.pairwise_of_forall fun _ _ => Nat.le_refl _
  · refine List.Pairwise.imp ?_ h
    intro a b hab y hy z hz
    have hm : ∀ (c y : Kind × Node), (y ∈ if c.1 = .unknown then [] else c.2.kids.map fun k => (c.1, k)) → y.1 = c.1 := by
      intro c y hy
      split at hy
      · cases hy
      · obtain ⟨k, -, rfl⟩ := List.mem_map.1 hy
        rfl
    rw [hm a y hy, hm b z hz]
    exact hab

theorem flat_filter (p : Node → Bool) (k : Kind) (hk : k ≠ .unknown) : ∀ l : List (Kind × Node),
    ofKind k ((flat l).filter fun x => p x.2) = (ofKind k l).flatMap fun n => n.kids.filter p
  | [] => rfl
  | x :: l => by
    have h : flat (x :: l) = (if x.1 = .unknown then [] else x.2.kids.map fun k => (x.1, k)) ++ flat l := rfl
    rw [h, List.filter_append, ofKind_append, flat_filter p k hk l, ofKind_cons]
    by_cases hx : x.1 = k
    · subst hx
      simp only [hk, if_false, if_true, List.flatMap_cons]
      congr 1
      induction x.2.kids with
      | nil => rfl
      | cons n ns ih =>
        rw [List.map_cons]
        by_cases hp : p n = true
        · rw [List.filter_cons_of_pos (by simpa using hp), List.filter_cons_of_pos hp, ofKind_cons, if_pos rfl, ih]
        · rw [List.filter_cons_of_neg (by simpa using hp), List.filter_cons_of_neg hp, ih]
    · rw [if_neg hx]
      have : ofKind k ((if x.1 = .unknown then [] else x.2.kids.map fun k => (x.1, k)).filter fun y => p y.2) = [] := by
        unfold ofKind
        rw [List.map_eq_nil_iff, List.filter_eq_nil_iff]
        intro y hy
        have hy := List.mem_of_mem_filter hy
        split at hy
        · cases hy
        · obtain ⟨n, -, rfl⟩ := List.mem_map.1 hy
          simpa using hx
      rw [this, List.nil_append]

theorem flat_unknown (p : Kind × Node → Bool) (l : List (Kind × Node)) : ofKind .unknown ((flat l).filter p) = [] := by
  unfold ofKind flat
  rw [List.map_eq_nil_iff, List.filter_eq_nil_iff]
  intro y hy
  obtain ⟨x, -, hy⟩ := List.mem_flatMap.1 (List.mem_of_mem_filter hy)
  split at hy
  · cases hy
  · rename_i hx
    obtain ⟨n, -, rfl⟩ := List.mem_map.1 hy
    simpa using hx

/-! ## The scene -/

theorem loadInstance_keeps (ov : Ov) : ∀ (ks : List Node) (r s : DocLoaded), ks.foldlM (loadInstance ov) r = some s →
    s.ents = r.ents ∧ s.libAssets = r.libAssets ∧ s.libExtra = r.libExtra ∧ s.assets = r.assets ∧ s.extra = r.extra
  | [], r, s, h => by
    simp only [List.foldlM_nil, Option.pure_def, Option.some.injEq] at h
    subst h
    simp
  | k :: ks, r, s, h => by
    rw [List.foldlM_cons] at h
    obtain ⟨r1, h1, h⟩ := Option.bind_eq_some_iff.1 h
    obtain ⟨i1, i2, i3, i4, i5⟩ := loadInstance_keeps ov ks r1 s h
    unfold loadInstance at h1
    split at h1
    · obtain ⟨t, -, h1⟩ := Option.bind_eq_some_iff.1 h1
      obtain ⟨u, -, rfl⟩ := Option.map_eq_some_iff.1 h1
      rw [i1, i2, i3, i4, i5]
      split
      · exact ⟨rfl, rfl, rfl, rfl, rfl⟩
      · split <;> exact ⟨rfl, rfl, rfl, rfl, rfl⟩
    · rw [Option.some.injEq] at h1
      subst h1
      exact ⟨i1, i2, i3, i4, i5⟩

theorem loadScene_keeps (ov : Ov) (x : Option Node) (r s : DocLoaded) (h : loadSceneElem ov r x = some s) :
    s.ents = r.ents ∧ s.libAssets = r.libAssets ∧ s.libExtra = r.libExtra ∧ s.assets = r.assets ∧ s.extra = r.extra := by
  cases x with
  | none =>
    rw [loadSceneElem, Option.some.injEq] at h
    subst h
    simp
  | some n => exact loadInstance_keeps ov n.kids r s h

/-! ## The names of libraries -/

theorem entry_eq (n : Node) (k : Kind) (hk : k ≠ .unknown) : entry n = some k ↔ libKind n.name = some k := by
  unfold entry
  cases h : libKind n.name with
  | some j => simp
  | none =>
    by_cases he : n.name = text "extra" <;> simp [he, Ne.symm hk]

theorem lookup_mem {t : Text} {k : Kind} : ∀ l : List (Text × Kind), (l.map (·.1)).Nodup → (l.lookup t = some k ↔ (t, k) ∈ l)
  | [], _ => by simp
  | (a, b) :: l, h => by
    rw [List.map_cons, List.nodup_cons] at h
    rw [List.lookup_cons, List.mem_cons, Prod.mk.injEq]
    by_cases ha : t = a
    · subst ha
      simp only [beq_self_eq_true, Option.some.injEq, true_and]
      constructor
      · rintro rfl; exact Or.inl rfl
      · rintro (rfl | hm)
        · rfl
        · exact absurd (List.mem_map.2 ⟨_, hm, rfl⟩) h.1
    · rw [show (t == a) = false from by simpa using ha]
      simp [ha, lookup_mem l h.2]

theorem libKind_iff (t : Text) (k : Kind) : libKind t = some k ↔ (t, k) ∈ libNames := lookup_mem libNames (by decide)

theorem libElems_eq (n : Node) (k : Kind) (hk : k ≠ .unknown) (hk' : k ≠ .emitter) : (n.kids.filter fun x => decide (entry x = some k)) = libElems n k := by
  have h : ∀ p : Node → Bool, (∀ x : Node, (x.name, k) ∈ libNames ↔ p x = true) → (n.kids.filter fun x => decide (entry x = some k)) = n.kids.filter p := by
    intro p hp
    refine List.filter_congr fun x _ => ?_
    rw [Bool.eq_iff_iff, decide_eq_true_eq, entry_eq x k hk, libKind_iff, hp]
  cases k <;> first
    | exact absurd rfl hk
    | exact absurd rfl hk'
    | (refine h _ fun x => ?_
       simp [libNames])

theorem no_emitters (ks : List Node) : (ks.filter fun x => decide (entry x = some .emitter)) = [] := by
  rw [List.filter_eq_nil_iff]
  intro x _
  rw [decide_eq_true_eq, entry_eq x _ (by decide), libKind_iff]
  simp [libNames]

end Verif.FArc
