import Verif.ArcMeshLemmas

/-! # Lemmas about the per-vertex sources and the set numbers of a mesh -/

namespace Verif.FArc

open Verif.FEff (Text text)
open Verif.FConv (Ov Formats shown)
open Verif.FPoly (Prim)
open Verif.Enum (GeometryInput)

/-! ## The sources after loading -/

/-- The sources with the types of those for which `u` holds. -/
def partSources (rnd : ℚ → ℚ) (M : GMesh) (u : Nat → Bool) : List GSource :=
  M.sources.mapIdx fun s src => { src with type := if u s then src.type else .unknown, data := src.data.map (shown rnd) }

theorem partSources_get (rnd : ℚ → ℚ) (M : GMesh) (u : Nat → Bool) (s : Nat) : (partSources rnd M u)[s]? =
    (M.sources[s]?).map fun src => { src with type := if u s then src.type else .unknown, data := src.data.map (shown rnd) } := by
  unfold partSources
  rw [List.getElem?_mapIdx]

theorem partSources_ids (rnd : ℚ → ℚ) (M : GMesh) (u : Nat → Bool) : (partSources rnd M u).map GSource.id = M.sources.map GSource.id := by
  apply List.ext_getElem?
  intro i
  rw [List.getElem?_map, List.getElem?_map, partSources_get]
  cases M.sources[i]? <;> rfl

theorem partSources_congr {rnd : ℚ → ℚ} {M : GMesh} {u v : Nat → Bool} (h : ∀ s, s < M.sources.length → u s = v s) : partSources rnd M u = partSources rnd M v := by
  apply List.ext_getElem?
  intro i
  rw [partSources_get, partSources_get]
  by_cases hi : i < M.sources.length
  · rw [h i hi]
  · rw [List.getElem?_eq_none (by omega)]; rfl

theorem setType_part (rnd : ℚ → ℚ) {M : GMesh} (u : Nat → Bool) {s : Nat} {src : GSource} (h : M.sources[s]? = some src) :
    setType (partSources rnd M u) s src.type = partSources rnd M fun k => u k || decide (k = s) := by
  unfold setType
  apply List.ext_getElem?
  intro i
  rw [List.getElem?_modify, partSources_get, partSources_get]
  by_cases hi : s = i
  · subst hi
    rw [h]
    simp
  · have : ¬ i = s := fun e => hi e.symm
    simp [hi, this]

theorem typed_part (rnd : ℚ → ℚ) {M : GMesh} {u : Nat → Bool} (hu : ∀ s ∈ M.vertex, u s = true) (ins : List GInput) :
    typed M ins (partSources rnd M u) = partSources rnd M fun s => u s || ins.any fun x => decide (x.source = some s) := by
  apply List.ext_getElem?
  intro i
  unfold typed
  rw [List.getElem?_mapIdx, partSources_get, partSources_get]
  cases h : M.sources[i]? with
  | none => rfl
  | some src =>
    simp only [Option.map_some, Option.some.injEq, Option.getD_some]
    by_cases hv : i ∈ M.vertex
    · have h1 := hu i hv
      rw [h1, Bool.true_or, if_pos rfl]
      split <;> rfl
    · have hany : (ins.any fun x => decide (x.source = some i) && !perVertex M x.source) = ins.any fun x => decide (x.source = some i) := by
        congr 1
        funext x
        by_cases hx : x.source = some i
        · rw [hx]
          simp [perVertex, hv]
        · simp [hx]
      rw [hany]
      by_cases ha : (ins.any fun x => decide (x.source = some i)) = true
      · rw [if_pos ha, ha, Bool.or_true, if_pos rfl]
      · rw [if_neg ha, Bool.not_eq_true _ |>.mp ha, Bool.or_false]

theorem positionCount_part (rnd : ℚ → ℚ) {M : GMesh} {u : Nat → Bool} {p : Nat} {src : GSource} (hp : M.sources[p]? = some src) (hone : ∀ q src, M.sources[q]? = some src → (src.type = .position ↔ q = p)) (hu : u p = true)
    (hs : 0 < src.stride) : positionCount (partSources rnd M u) = some (src.data.length / src.stride) := by
  unfold positionCount
  have hget : (partSources rnd M u)[p]? = some { src with data := src.data.map (shown rnd) } := by
    rw [partSources_get, hp, Option.map_some, hu]
    rfl
  have hty : src.type = .position := (hone p src hp).2 rfl
  cases hfind : (partSources rnd M u).find? fun s => decide (s.type = .position) with
  | none =>
    rw [List.find?_eq_none] at hfind
    have := hfind _ (List.mem_of_getElem? hget)
    exact absurd (decide_eq_true hty) this
  | some x =>
    have h1 : x.type = .position := by simpa using List.find?_some hfind
    obtain ⟨q, hq⟩ := List.mem_iff_getElem?.1 (List.mem_of_find?_eq_some hfind)
    have h2 := hq
    rw [partSources_get] at h2
    cases hs2 : M.sources[q]? with
    | none => rw [hs2] at h2; exact absurd h2 (by simp)
    | some src' =>
      rw [hs2, Option.map_some, Option.some.injEq] at h2
      have h3 : src'.type = .position := by
        rw [← h2] at h1
        simp only at h1
        split at h1
        · exact h1
        · exact absurd h1 (by decide)
      have : q = p := (hone q src' hs2).1 h3
      subst this
      rw [hget, Option.some.injEq] at hq
      rw [← hq, Option.bind_some]
      simp only [List.length_map]
      rw [if_neg (by omega)]

/-! ## The element of the vertices -/

/-- What the attributes of an input element without offset are read as. -/
theorem vertexNode_props (ov : Ov) {id sem : Text} {set : Int} (hid : Plain id) (hne : id ≠ []) (hsem : Plain sem) (hs : sem ≠ []) (h1 : -1 ≤ set) (h2 : set + 48 < 2 ^ 31) :
    ∃ n, inputNode id sem (-1) set = [n] ∧ n.name = text "input" ∧ prop n (text "source") = some (35 :: id) ∧ prop n (text "semantic") = some sem ∧
      (set ≠ -1 → ∃ t, prop n (text "set") = some t ∧ t ≠ [] ∧ readInt ov t = some set) := by
  refine ⟨_, if_neg (by simp [hne, hs]), rfl, ?_, ?_, ?_⟩
  · show decode (35 :: id) = _
    exact decode_plain (plain_cons ⟨⟨by decide, by decide, by decide⟩, by decide⟩ hid)
  · show decode sem = _
    exact decode_plain hsem
  · intro h0
    refine ⟨intText set, ?_, intText_ne_nil _, readInt_intText ov set (by omega)⟩
    unfold prop
    simp only [Option.bind_some]
    rw [List.append_assoc, List.cons_append, List.cons_append, List.nil_append, raw_cons, raw_cons, if_neg (by omega : ¬ (0 : Int) ≤ -1), List.nil_append, if_pos (by omega : 0 ≤ set), raw_cons]
    simp only [text_inj, String.reduceEq, if_false, if_true]
    exact decode_plain (intText_plain _)

theorem findSource_hash {ss : List GSource} (hn : (ss.map GSource.id).Nodup) {s : Nat} {src : GSource} (h : ss[s]? = some src) : findSource ss (35 :: src.id) = some s := by
  unfold findSource
  have : stripHash (35 :: src.id) = src.id := rfl
  rw [this]
  rw [List.findIdx?_eq_some_iff_getElem]
  obtain ⟨hs, hs2⟩ := List.getElem?_eq_some_iff.1 h
  refine ⟨hs, by simp [hs2], ?_⟩
  intro j hj
  simp only [Bool.not_eq_true, decide_eq_false_iff_not]
  intro he
  have h1 : (ss.map GSource.id)[j]'(by simp; omega) = (ss.map GSource.id)[s]'(by simpa using hs) := by simp [he, hs2]
  have := (List.Nodup.getElem_inj_iff hn).1 h1
  omega

theorem loadVertices_write (rnd : ℚ → ℚ) {M : GMesh} {sets : Nat → Int} {n0 : Nat} (hM : GoodMesh M sets n0) : ∀ (W done : List Nat) (p : Bool), M.vertex = done ++ W →
    loadVertices (W.flatMap (vertexNode M)) ⟨partSources rnd M fun s => decide (s ∈ done), done, p⟩ =
      some (⟨partSources rnd M fun s => decide (s ∈ done ++ W), done ++ W, p || W.any fun s => ((M.sources[s]?).map fun src => decide (src.type = .position)).getD false⟩, true)
  | [], done, p, _ => by simp [loadVertices]
  | s :: W, done, p, h => by
    have hs : s ∈ M.vertex := by rw [h]; simp
    obtain ⟨src, hsrc, hun⟩ := hM.vertex.2 s hs
    have hg := hM.sources src (List.mem_of_getElem? hsrc)
    obtain ⟨n, hn1, hn2, hn3, hn4, -⟩ := vertexNode_props .wrap (set := -1) hg.id.1 hg.id.2.1 (semantic_plain src.type) (semantic_ne_nil hun) (by omega) (by omega)
    have hvn : vertexNode M s = [n] := by
      unfold vertexNode
      rw [hsrc]
      exact hn1
    rw [List.flatMap_cons, hvn, List.singleton_append]
    unfold loadVertices
    rw [hn4, Option.bind_some, semanticOf_eq _ hun, if_neg hg.type.1, hn3, Option.bind_some]
    have hfind : findSource (partSources rnd M fun s => decide (s ∈ done)) (35 :: src.id) = some s := by
      have hget := partSources_get rnd M (fun s => decide (s ∈ done)) s
      rw [hsrc, Option.map_some] at hget
      have := findSource_hash (by rw [partSources_ids]; exact hM.ids) hget
      exact this
    simp only [hfind]
    rw [setType_part rnd _ hsrc]
    have hnot : s ∉ done := by
      have := hM.vertex.1
      rw [h, List.nodup_append] at this
      intro hd
      exact this.2.2 s hd s (by simp) rfl
    have hadd : addVertexSource done s = done ++ [s] := if_neg hnot
    have hpart : (partSources rnd M fun k => decide (k ∈ done) || decide (k = s)) = partSources rnd M fun k => decide (k ∈ done ++ [s]) := by
      congr 1
      funext k
      simp
    rw [hadd, hpart, loadVertices_write rnd hM W (done ++ [s]) _ (by simpa using h)]
    simp only [List.append_assoc, List.singleton_append, List.any_cons, hsrc, Option.map_some, Option.getD_some, Bool.or_assoc]

/-! ## The set numbers -/

theorem views_source (ins : List GInput) : (views ins).map (·.1) = ins.map GInput.source := by
  apply List.ext_getElem?
  intro i
  unfold views
  rw [List.getElem?_map, List.getElem?_map, List.getElem?_mapIdx]
  cases ins[i]? <;> rfl

/-- A view with another set number if its source is `s`. -/
def putView (s : Nat) (c : Int) (v : View) : View := if v.1 = some s then (v.1, c, v.2.2) else v

theorem putView_source (s : Nat) (c : Int) (v : View) : (putView s c v).1 = v.1 := by unfold putView; split <;> rfl

theorem ownerOf_congr {ins ins' : List GInput} (h : ins'.map (fun x => (x.offset, x.indices)) = ins.map fun x => (x.offset, x.indices)) (i : Nat) : ownerOf ins' i = ownerOf ins i := by
  have hget : ∀ k : Nat, (ins'[k]?).map (fun x => (x.offset, x.indices)) = (ins[k]?).map fun x => (x.offset, x.indices) := by
    intro k
    rw [← List.getElem?_map, ← List.getElem?_map, h]
  have hfind : ∀ o, (ins'.findIdx? fun y => decide (y.offset = o) && y.owns) = ins.findIdx? fun y => decide (y.offset = o) && y.owns := by
    intro o
    have h1 : ∀ l : List GInput, (l.findIdx? fun y => decide (y.offset = o) && y.owns) = (l.map fun x => (x.offset, x.indices)).findIdx? fun y => decide (y.1 = o) && !y.2.isEmpty := by
      intro l
      rw [List.findIdx?_map]
      rfl
    rw [h1, h1, h]
  have hi := hget i
  unfold ownerOf
  cases h1 : ins'[i]? with
  | none =>
    cases h2 : ins[i]? with
    | none => rfl
    | some y => rw [h1, h2] at hi; simp at hi
  | some x =>
    cases h2 : ins[i]? with
    | none => rw [h1, h2] at hi; simp at hi
    | some y =>
      rw [h1, h2] at hi
      simp only [Option.map_some, Option.some.injEq, Prod.mk.injEq] at hi
      have ho : x.owns = y.owns := by unfold GInput.owns; rw [hi.2]
      simp only
      rw [ho, hi.1, hfind]

theorem indicesOf_congr {ins ins' : List GInput} (h : ins'.map (fun x => (x.offset, x.indices)) = ins.map fun x => (x.offset, x.indices)) (i : Nat) : indicesOf ins' i = indicesOf ins i := by
  unfold indicesOf
  rw [ownerOf_congr h]
  have : (ins'[ownerOf ins i]?).map (fun x => (x.offset, x.indices)) = (ins[ownerOf ins i]?).map fun x => (x.offset, x.indices) := by
    rw [← List.getElem?_map, ← List.getElem?_map, h]
  cases h1 : ins'[ownerOf ins i]? <;> cases h2 : ins[ownerOf ins i]? <;> rw [h1, h2] at this <;> simp at this ⊢
  exact this.2

/-- No two values of the list are `s`. -/
def Once (l : List (Option Nat)) (s : Nat) : Prop := ∀ i j : Nat, l[i]? = some (some s) → l[j]? = some (some s) → i = j

theorem views_putSet {P : GSet} {s : Nat} (c : Int) (h : Once (P.inputs.map GInput.source) s) : views (putSet s c P).inputs = (views P.inputs).map (putView s c) := by
  unfold putSet
  cases hf : findInput P.inputs s with
  | none =>
    simp only
    have hid : (views P.inputs).map (putView s c) = (views P.inputs).map id := by
      apply List.map_congr_left
      intro v hv
      unfold putView
      rw [if_neg]
      · rfl
      intro he
      unfold findInput at hf
      rw [List.findIdx?_eq_none_iff] at hf
      have : v.1 ∈ (views P.inputs).map (·.1) := List.mem_map_of_mem hv
      rw [views_source, he] at this
      obtain ⟨x, hx, hxs⟩ := List.mem_map.1 this
      have := hf x hx
      simp [hxs] at this
    rw [hid, List.map_id]
  | some i =>
    simp only
    have hcongr : (P.inputs.modify i fun x => { x with set := c }).map (fun x => (x.offset, x.indices)) = P.inputs.map fun x => (x.offset, x.indices) := by
      apply List.ext_getElem?
      intro k
      rw [List.getElem?_map, List.getElem?_map, List.getElem?_modify]
      cases P.inputs[k]? with
      | none => rfl
      | some x => by_cases hk : i = k <;> simp [hk]
    unfold findInput at hf
    obtain ⟨hi, hi2, -⟩ := List.findIdx?_eq_some_iff_getElem.1 hf
    simp only [decide_eq_true_eq] at hi2
    have huniq : ∀ (k : Nat) (x : GInput), P.inputs[k]? = some x → x.source = some s → k = i := by
      intro k x hk hx
      apply h
      · rw [List.getElem?_map, hk, Option.map_some, hx]
      · rw [List.getElem?_map, List.getElem?_eq_getElem hi, Option.map_some, hi2]
    apply List.ext_getElem?
    intro k
    rw [List.getElem?_map]
    unfold views
    rw [List.getElem?_mapIdx, List.getElem?_mapIdx, List.getElem?_modify]
    cases hk : P.inputs[k]? with
    | none => rfl
    | some x =>
      simp only [Option.map_some, Option.map_eq_map, Option.some.injEq]
      rw [indicesOf_congr hcongr]
      by_cases hik : i = k
      · subst hik
        have hx : x = P.inputs[i] := by rw [List.getElem?_eq_getElem hi, Option.some.injEq] at hk; exact hk.symm
        have hxs : x.source = some s := by rw [hx]; exact hi2
        simp [putView, hxs]
      · have hxs : x.source ≠ some s := fun e => hik (huniq k x hk e).symm
        simp [putView, hxs, hik]

end Verif.FArc
