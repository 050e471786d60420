import Verif.ArcDocLemmas
import Verif.ArcSceneLemmas

/-! # Lemmas on the libraries of a document: a saved document -/

namespace Verif.FArc

open Verif.FEff (Text text)
open Verif.FConv (Ov)

theorem writeExtra_elem {e : FExtra.Extra} {n : Node} (h : n ∈ writeExtra e) : n.name = text "extra" ∧ ∃ t ∈ e, n.attrs = if t.name = [] then [] else [(text "type", t.name)] := by
  unfold writeExtra at h
  split at h
  · obtain ⟨t, ht, h⟩ := List.mem_filterMap.1 h
    unfold writeType at h
    split at h
    · cases h
    · rw [Option.some.injEq] at h
      subst h
      exact ⟨rfl, t, ht, rfl⟩
  · cases h

theorem extra_type {e : FExtra.Extra} (hp : ∀ t ∈ e, Plain t.name) (hl : ∀ t ∈ e, t.name ≠ text "libraries") {n : Node} (h : n ∈ writeExtra e) :
    ∃ t, prop (some n) (text "type") = some t ∧ t ≠ text "libraries" := by
  obtain ⟨-, t, ht, ha⟩ := writeExtra_elem h
  refine ⟨t.name, ?_, hl t ht⟩
  obtain ⟨nm, as, c, ks⟩ := n
  simp only [Node.attrs] at ha
  subst ha
  unfold prop
  by_cases hn : t.name = []
  · simp [hn, Node.raw, Node.attrs]
  · simp only [hn, if_false, Option.bind_some, raw_cons, if_true]
    exact decode_plain (hp t ht)

theorem gatherExtra_user : ∀ (xs : List Node) (l : List (Kind × Node)) (e : FExtra.Extra), (∀ n ∈ xs, ∃ t, prop (some n) (text "type") = some t ∧ t ≠ text "libraries") →
    xs.foldlM gatherExtra (l, e) = (loadExtras e xs).map fun e' => (l, e')
  | [], l, e, _ => rfl
  | x :: xs, l, e, h => by
    obtain ⟨t, h1, h2⟩ := h x List.mem_cons_self
    unfold loadExtras
    rw [List.foldlM_cons, List.foldlM_cons]
    unfold gatherExtra
    rw [h1, Option.bind_some, if_neg h2]
    cases he : loadExtra e x with
    | none => simp
    | some e1 =>
      simp only [Option.map_some, Option.bind_eq_bind, Option.bind_some]
      exact gatherExtra_user xs l e1 fun n hn => h n (List.mem_cons_of_mem _ hn)

theorem extra_back {e : FExtra.Extra} (h : e = FExtra.newExtra ∨ Saveable e ∧ FExtra.hasContent e = true) : loadExtras FExtra.newExtra (writeExtra e) = some e := by
  rcases h with rfl | ⟨h1, h2⟩
  · rfl
  · exact extra_roundtrip_partial e h1 h2

/-! ## Elements of libraries -/

/-- The library of emitters. -/
def emitterElem (d : DocParts) : List Node := if (d.libs .emitter).ents ≠ [] then [.elem (text "library_emitters") [] [] (writeLib (d.libs .emitter))] else []

/-- The elements written for the library of a kind. -/
def written (d : DocParts) (k : Kind) : List Node :=
  if k = .animation then exportAnimations d else if k = .emitter then emitterElem d else (exported.filter fun x => decide (x.1 = k)).flatMap (exportLib d)

theorem exportLib_mem {d : DocParts} {x : Kind × Text} {n : Node} (h : n ∈ exportLib d x) : n.name = x.2 := by
  unfold exportLib at h
  split at h
  · rw [List.mem_singleton] at h
    subst h
    rfl
  · cases h

theorem exports_filter (d : DocParts) (k : Kind) (hk : k ≠ .unknown) : ∀ L : List (Kind × Text), (∀ x ∈ L, libKind x.2 = some x.1) →
    (L.flatMap (exportLib d)).filter (fun n => decide (entry n = some k)) = (L.filter fun x => decide (x.1 = k)).flatMap (exportLib d)
  | [], _ => rfl
  | x :: L, h => by
    have ih := exports_filter d k hk L fun y hy => h y (List.mem_cons_of_mem _ hy)
    have hx := h x List.mem_cons_self
    rw [List.flatMap_cons, List.filter_append, ih]
    by_cases hxk : x.1 = k
    · rw [List.filter_cons_of_pos (by simpa using hxk), List.flatMap_cons]
      congr 1
      refine List.filter_eq_self.2 fun n hn => ?_
      rw [decide_eq_true_eq, entry_eq n k hk, exportLib_mem hn, hx, hxk]
    · rw [List.filter_cons_of_neg (by simpa using hxk)]
      have : (exportLib d x).filter (fun n => decide (entry n = some k)) = [] := by
        refine List.filter_eq_nil_iff.2 fun n hn => ?_
        rw [decide_eq_true_eq, entry_eq n k hk, exportLib_mem hn, hx]
        simpa using hxk
      rw [this, List.nil_append]

theorem exports_name (d : DocParts) (t : Text) (ht : t ∉ exported.map (·.2)) : (exported.flatMap (exportLib d)).filter (fun n => decide (n.name = t)) = [] := by
  refine List.filter_eq_nil_iff.2 fun n hn => ?_
  obtain ⟨x, hx, hn⟩ := List.mem_flatMap.1 hn
  rw [decide_eq_true_eq, exportLib_mem hn]
  rintro rfl
  exact ht (List.mem_map.2 ⟨x, hx, rfl⟩)

theorem written_kept {d : DocParts} {k : Kind} (h : d.kept k) (hk : k ≠ .unknown) : ∃ nm, written d k = [.elem nm [] [] (writeLib (d.libs k))] := by
  unfold DocParts.kept at h
  have hlib : ∀ t, k ≠ .animation → k ≠ .emitter → (exported.filter fun x => decide (x.1 = k)) = [(k, t)] → ∃ nm, written d k = [.elem nm [] [] (writeLib (d.libs k))] := by
    intro t ha he ht
    unfold written
    rw [if_neg ha, if_neg he, ht]
    have hc : (d.libs k).ents ≠ [] ∨ FExtra.hasContent (d.libs k).extra = true := by
      rcases h with h | h
      · exact Or.inl h
      · exact Or.inr h.2.2.2
    simp [exportLib, hc]
  cases k
  case animation =>
    have h' : (d.libs .animation).ents ≠ [] := by simpa using h
    exact ⟨_, by simp only [written, exportAnimations, if_pos h', if_true]; rfl⟩
  case emitter =>
    have h' : (d.libs .emitter).ents ≠ [] := by simpa using h
    exact ⟨_, by simp only [written, emitterElem, if_pos h', reduceCtorEq, if_false, if_true]; rfl⟩
  case unknown => exact absurd rfl hk
  all_goals exact hlib _ (by decide) (by decide) rfl

theorem written_lost {d : DocParts} {k : Kind} (h : ¬ d.kept k) : written d k = [] := by
  unfold DocParts.kept at h
  push Not at h
  obtain ⟨h1, h2⟩ := h
  unfold written
  by_cases ha : k = .animation
  · subst ha
    simp [exportAnimations, h1]
  · by_cases he : k = .emitter
    · subst he
      simp [emitterElem, h1]
    · rw [if_neg ha, if_neg he, List.flatMap_eq_nil_iff]
      intro x hx
      obtain ⟨hx1, hx2⟩ := List.mem_filter.1 hx
      rw [decide_eq_true_eq] at hx2
      subst hx2
      have hu : x.1 ≠ .unknown := by
        have : ∀ y ∈ exported, y.1 ≠ .unknown := by decide
        exact this x hx1
      unfold exportLib
      rw [if_neg]
      rintro (h | h)
      · exact h h1
      · exact absurd h (by simpa using h2 ha he hu)

theorem libNodes {ov : Ov} {d : DocParts} (h : GoodDoc ov d) (k : Kind) (nm : Text) (as : List (Text × Text)) (t : Text) :
    (Node.elem nm as t (writeLib (d.libs k))).kids.filter isEnt = (d.libs k).ents ∧
    ((Node.elem nm as t (writeLib (d.libs k))).kids.filter fun x => decide (x.name = text "asset")) = (d.libs k).asset.toList ∧
    ((Node.elem nm as t (writeLib (d.libs k))).kids.filter fun x => decide (x.name = text "extra")) = writeExtra (d.libs k).extra := by
  have a : ∀ n ∈ (d.libs k).asset.toList, n.name = text "asset" := by
    intro n hn
    exact h.libAsset k n (by simpa using hn)
  have e := h.ents k
  have x : ∀ n ∈ writeExtra (d.libs k).extra, n.name = text "extra" := fun n hn => (writeExtra_elem hn).1
  unfold writeLib Node.kids
  simp only [List.filter_append]
  refine ⟨?_, ?_, ?_⟩
  · rw [List.filter_eq_nil_iff.2 (fun n hn => by simp [isEnt, a n hn]), List.filter_eq_self.2 (fun n hn => by simp [isEnt, e n hn]),
      List.filter_eq_nil_iff.2 (fun n hn => by simp [isEnt, x n hn]), List.nil_append, List.append_nil]
  · rw [List.filter_eq_self.2 (fun n hn => by simp [a n hn]), List.filter_eq_nil_iff.2 (fun n hn => by simp [e n hn]),
      List.filter_eq_nil_iff.2 (fun n hn => by simp [x n hn, text_inj]), List.append_nil, List.append_nil]
  · rw [List.filter_eq_nil_iff.2 (fun n hn => by simp [a n hn, text_inj]), List.filter_eq_nil_iff.2 (fun n hn => by simp [e n hn]),
      List.filter_eq_self.2 (fun n hn => by simp [x n hn]), List.nil_append, List.nil_append]

/-! ## Addresses -/

theorem cleanUris_good (ov : Ov) (stack : List FUri.Uri) : ∀ us : List FUri.Uri, (∀ u ∈ us, ∃ t, FUri.parse ov (35 :: t) = some u ∧ t ≠ [] ∧ GoodLink t) →
    ∃ ts, cleanUris ov stack us = some ts ∧ List.Forall₂ (fun u t => Plain t ∧ FUri.parse ov t = some u ∧ u.fragment ≠ []) us ts
  | [], _ => ⟨[], rfl, .nil⟩
  | u :: us, h => by
    obtain ⟨ts, e1, e2⟩ := cleanUris_good ov stack us fun v hv => h v (List.mem_cons_of_mem _ hv)
    obtain ⟨t, hp, ht, hq, h63, h92⟩ := h u List.mem_cons_self
    obtain ⟨u', h1, h2, h3, -⟩ := parse_local ov h63 h92
    rw [hp, Option.some.injEq] at h1
    subst h1
    have hc : FPath.cleanUri ov stack false u = some (35 :: t) := by rw [FPath.cleanUri, if_pos h2, h3]
    refine ⟨(35 :: t) :: ts, by rw [cleanUris, hc, Option.bind_some, e1, Option.map_some], .cons ⟨plain_cons (by unfold FXml.IsChar; decide) hq, hp, by rw [h3]; exact ht⟩ e2⟩

theorem loadInstances (ov : Ov) (nm : Text) (hn : nm = text "instance_visual_scene" ∨ nm = text "instance_physics_scene") {u : FUri.Uri} {t : Text}
    (h : Plain t ∧ FUri.parse ov t = some u ∧ u.fragment ≠ []) (r : DocLoaded) :
    loadInstance ov r (.elem nm [(text "url", t)] [] []) = some (if nm = text "instance_visual_scene" then { r with scene := some u } else { r with physics := r.physics ++ [u] }) := by
  obtain ⟨h1, h2, h3⟩ := h
  have hp : prop (some (.elem nm [(text "url", t)] [] [])) (text "url") = some t := by
    unfold prop
    simp only [Option.bind_some, raw_cons, if_true]
    exact decode_plain h1
  unfold loadInstance
  rw [show (Node.elem nm [(text "url", t)] [] []).name = nm from rfl, if_pos hn, hp, Option.bind_some, h2, Option.map_some, if_neg h3]

theorem loadPhysics (ov : Ov) : ∀ (us : List FUri.Uri) (ts : List Text), List.Forall₂ (fun u t => Plain t ∧ FUri.parse ov t = some u ∧ u.fragment ≠ []) us ts → ∀ r : DocLoaded,
    (ts.map fun t => Node.elem (text "instance_physics_scene") [(text "url", t)] [] []).foldlM (loadInstance ov) r = some { r with physics := r.physics ++ us }
  | _, _, .nil, r => by simp
  | _, _, .cons (a := u) (b := t) (l₁ := us) (l₂ := ts) h hs, r => by
    rw [List.map_cons, List.foldlM_cons, loadInstances ov _ (Or.inr rfl) h, if_neg (by rw [text_inj]; decide)]
    simp only [Option.bind_eq_bind, Option.bind_some]
    rw [loadPhysics ov us ts hs]
    simp

end Verif.FArc
