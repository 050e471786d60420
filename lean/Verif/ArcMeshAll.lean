import Verif.ArcMeshAux

/-! # Lemmas about the polygon sets of a mesh -/

namespace Verif.FArc

open Verif.FEff (Text text)
open Verif.FConv (Ov Formats shown)
open Verif.FPoly (Prim Face faceSize)
open Verif.Enum (GeometryInput)

/-! ## Polygon sets without set numbers -/

/-- The input without set number if it is per-vertex. -/
def unsetInput (M : GMesh) (x : GInput) : GInput := if perVertex M x.source then { x with set := -1 } else x

/-- The view without set number if it is per-vertex. -/
def unsetView (M : GMesh) (v : View) : View := if perVertex M v.1 then (v.1, -1, v.2.2) else v

theorem unsetInput_source (M : GMesh) (x : GInput) : (unsetInput M x).source = x.source := by unfold unsetInput; split <;> rfl
theorem unsetInput_rest (M : GMesh) (x : GInput) : (unsetInput M x).offset = x.offset ∧ (unsetInput M x).indices = x.indices ∧ (unsetInput M x).owns = x.owns := by unfold unsetInput; split <;> exact ⟨rfl, rfl, rfl⟩
theorem unsetView_source (M : GMesh) (v : View) : (unsetView M v).1 = v.1 := by unfold unsetView; split <;> rfl

theorem unset_inputs (M : GMesh) (P : GSet) : (unset M P).inputs = P.inputs.map (unsetInput M) := rfl

theorem writeInputs_unset (M : GMesh) : ∀ (ins : List GInput) (f : Bool), writeInputs M f (ins.map (unsetInput M)) = writeInputs M f ins
  | [], _ => rfl
  | x :: xs, f => by
    rw [List.map_cons, writeInputs.eq_def, writeInputs.eq_def M f (x :: xs)]
    simp only
    rw [unsetInput_source, (unsetInput_rest M x).1]
    cases hx : x.source with
    | none => exact writeInputs_unset M xs f
    | some s =>
      simp only
      by_cases hv : s ∈ M.vertex
      · rw [if_pos hv, if_pos hv, writeInputs_unset M xs true]
      · have : unsetInput M x = x := by
          unfold unsetInput
          rw [hx]
          simp [perVertex, hv]
        rw [if_neg hv, if_neg hv, writeInputs_unset M xs f, this]

theorem indexColumns_unset (M : GMesh) (ins : List GInput) : indexColumns (ins.map (unsetInput M)) = indexColumns ins := by
  unfold indexColumns
  rw [List.foldl_map]
  congr 1
  funext os x
  obtain ⟨h1, h2, h3⟩ := unsetInput_rest M x
  rw [h1, h2, h3]

theorem faceNodes_unset (M : GMesh) (P : GSet) (os : List (Option (List Nat))) : ∀ n k off ho, faceNodes (unset M P) os n k off ho = faceNodes P os n k off ho
  | 0, _, _, _ => rfl
  | n + 1, k, off, ho => by
    have : (fun r : List Text × Nat => (faceNodes (unset M P) os n (k + 1) r.2 (ho + FPoly.holeCount P.polys k)).map (faceNode r.1 :: ·)) =
        fun r => (faceNodes P os n (k + 1) r.2 (ho + FPoly.holeCount P.polys k)).map (faceNode r.1 :: ·) := by
      funext r
      rw [faceNodes_unset M P os n]
    show (loopTexts os P.counts (FPoly.holeCount P.polys k + 1) (k + ho) off).bind (fun r => (faceNodes (unset M P) os n (k + 1) r.2 (ho + FPoly.holeCount P.polys k)).map (faceNode r.1 :: ·)) = _
    rw [this]
    rfl

theorem writeSet_unset (M : GMesh) (P : GSet) : writeSet M (unset M P) = writeSet M P := by
  have ht : tessNodes (unset M P) = tessNodes P := by
    unfold tessNodes
    rw [unset_inputs, indexColumns_unset]
    have h1 : ownFaces (unset M P) = ownFaces P := rfl
    have h2 : nPolys (unset M P) = nPolys P := rfl
    have h3 : (unset M P).polys = P.polys := rfl
    have h4 : (unset M P).counts = P.counts := rfl
    rw [h1, h2, h3, h4, faceNodes_unset]
  unfold writeSet
  rw [ht, unset_inputs, writeInputs_unset]
  rfl

theorem views_unset (M : GMesh) (P : GSet) : views (unset M P).inputs = (views P.inputs).map (unsetView M) := by
  have hc : (P.inputs.map (unsetInput M)).map (fun x => (x.offset, x.indices)) = P.inputs.map fun x => (x.offset, x.indices) := by
    rw [List.map_map]
    apply List.map_congr_left
    intro x _
    obtain ⟨h1, h2, -⟩ := unsetInput_rest M x
    simp [h1, h2]
  rw [unset_inputs]
  apply List.ext_getElem?
  intro k
  unfold views
  rw [List.getElem?_map, List.getElem?_mapIdx, List.getElem?_mapIdx, List.getElem?_map]
  cases P.inputs[k]? with
  | none => rfl
  | some x =>
    simp only [Option.map_some, Option.some.injEq]
    rw [indicesOf_congr hc]
    unfold unsetView unsetInput
    simp only
    by_cases hp : perVertex M x.source = true <;> simp [hp]

/-! ## The polygon sets of a mesh -/

/-- A polygon set and the one loaded, before the set numbers are put back. -/
def AlmostSame (M : GMesh) (P Q : GSet) : Prop :=
  Q.prim = P.prim ∧ Q.counts = P.counts ∧ Q.holes = P.holes ∧ Q.material = P.material ∧ Q.extra = keptExtra P.extra ∧
    views Q.inputs = (((views P.inputs).filter (fun v => perVertex M v.1)).map (unsetView M)) ++ (views P.inputs).filter (fun v => !perVertex M v.1)

theorem filter_unset (M : GMesh) (l : List View) (p : Option Nat → Bool) : (l.map (unsetView M)).filter (fun v => p v.1) = (l.filter fun v => p v.1).map (unsetView M) := by
  rw [List.filter_map]
  congr 1
  apply List.filter_congr
  intro v _
  simp [unsetView_source]

theorem polylist_iff {P : GSet} (h : setName P = text "polylist") : P.prim = .polygons ∧ P.holes = [] := by
  have hp : P.prim = .polygons := by
    unfold setName at h
    cases hp : P.prim <;> rw [hp] at h <;> first | rfl | (simp only [text_inj] at h; exact absurd h (by decide))
  refine ⟨hp, ?_⟩
  unfold setName at h
  rw [hp] at h
  simp only at h
  by_cases ho : ownFaces P = true
  · rw [if_pos ho, text_inj] at h
    exact absurd h (by decide)
  · unfold ownFaces at ho
    rw [hp] at ho
    simpa using ho

theorem loadSets_write (ov : Ov) (rnd : ℚ → ℚ) {M : GMesh} {sets : Nat → Int} {n0 : Nat} (hM : GoodMesh M sets n0) : ∀ (Ps : List GSet) (u : Nat → Bool), (∀ P ∈ Ps, P ∈ M.sets) → (∀ s ∈ M.vertex, u s = true) →
    ∃ ns, Ps.mapM (writeSet M) = some ns ∧ (∀ n ∈ ns, (primOf n.name).isSome = true) ∧
      ∀ st : MeshState, st.sources = partSources rnd M u → ∃ Qs e, ns.foldlM (loadChild ov M.vertex) st =
        some ⟨partSources rnd M fun s => u s || Ps.any fun P => P.inputs.any fun x => decide (x.source = some s), st.sets ++ Qs, st.status, e⟩ ∧ List.Forall₂ (AlmostSame M) Ps Qs ∧
          (e = true ↔ st.error = true ∨ ∃ P ∈ Ps, Reported P)
  | [], u, _, _ => by
    refine ⟨[], rfl, by simp, fun st h => ⟨[], st.error, ?_, .nil, by simp⟩⟩
    obtain ⟨a, b, c, d⟩ := st
    simp only at h
    simp [h]
  | P :: Ps, u, hin, hu => by
    have hPin := hin P (by simp)
    have hP := hM.polygons P hPin
    obtain ⟨p, hpv, hone, src, hsrc, hpos⟩ := hM.position
    have hvne : M.vertex ≠ [] := fun e => by rw [e] at hpv; simp at hpv
    have hG : GoodSources M := ⟨hM.plain, hM.ids, hvne⟩
    obtain ⟨fs, hfs⟩ := hP.faces
    have hT : typed M (unset M P).inputs (partSources rnd M u) = partSources rnd M fun s => u s || P.inputs.any fun x => decide (x.source = some s) := by
      rw [typed_part rnd hu]
      congr 1
      funext s
      rw [unset_inputs, List.any_map]
      congr 2
      funext x
      simp [unsetInput_source]
    have hgs := hM.sources src (List.mem_of_getElem? hsrc)
    obtain ⟨n, r, h1, h2, h3, h4, h5, h6, h7, h8, h9, h10, h11, h12⟩ := set_roundtrip_partial ov M (unset M P) hG hP (partSources rnd M u) (partSources_ids ..) fs hfs (by
      intro hn _
      have hn' : setName P = text "polylist" := hn
      obtain ⟨hp1, hp2⟩ := polylist_iff hn'
      refine ⟨n0, ?_, hM.corners P hPin hp1 hp2⟩
      rw [hT, positionCount_part rnd hsrc hone (by rw [hu p hpv, Bool.true_or]) hgs.stride.1, hpos])
    rw [writeSet_unset] at h1
    rw [hT] at h5
    obtain ⟨ns, hns, hnames, hload⟩ := loadSets_write ov rnd hM Ps (fun s => u s || P.inputs.any fun x => decide (x.source = some s)) (fun Q hQ => hin Q (by simp [hQ])) (fun s hs => by rw [hu s hs, Bool.true_or])
    refine ⟨n :: ns, by rw [List.mapM_cons, h1, hns]; rfl, ?_, ?_⟩
    · intro m hm
      rcases List.mem_cons.1 hm with rfl | hm
      · rw [h2]; rfl
      · exact hnames m hm
    · intro st hst
      have hchild : loadChild ov M.vertex st n = some ⟨r.sources, st.sets ++ [r.set], st.status && r.status, st.error || r.error⟩ := by
        unfold loadChild
        rw [h2]
        simp only
        have h3' : loadSet ov st.sources M.vertex (unset M P).prim (vertexInputs M.vertex) n = some r := by rw [hst]; exact h3
        rw [h3']
        rfl
      obtain ⟨Qs, e, hq1, hq2, hq3⟩ := hload ⟨r.sources, st.sets ++ [r.set], st.status && r.status, st.error || r.error⟩ h5
      refine ⟨r.set :: Qs, e, ?_, .cons ?_ hq2, ?_⟩
      · rw [List.foldlM_cons, hchild]
        show List.foldlM _ _ _ = _
        rw [hq1, h4]
        simp only [Option.some.injEq, MeshState.mk.injEq, Bool.and_true, List.append_assoc, List.singleton_append, and_true]
        congr 1
        funext s
        rw [List.any_cons, Bool.or_assoc]
      · refine ⟨h6, h7, h8, h9, h10, ?_⟩
        rw [h11, views_unset, filter_unset, filter_unset M _ (fun s => !perVertex M s)]
        congr 1
        have : ((views P.inputs).filter fun v => !perVertex M v.1).map (unsetView M) = ((views P.inputs).filter fun v => !perVertex M v.1).map id := by
          apply List.map_congr_left
          intro v hv
          have := (List.mem_filter.1 hv).2
          unfold unsetView
          simp only [Bool.not_eq_true'] at this
          simp [this]
        rw [this, List.map_id]
      · rw [hq3]
        have hrep : r.error = true ↔ Reported P := by
          rw [h12]
          unfold Reported
          constructor
          · rintro (h | ⟨h, f⟩)
            · exact Or.inl h
            · exact Or.inr ⟨h, fs, hfs, f⟩
          · rintro (h | ⟨h, fs', hfs', f⟩)
            · exact Or.inl h
            · obtain ⟨n', r', h1', -, h3', -, -, -, -, -, -, -, -, h12'⟩ := set_roundtrip_partial ov M (unset M P) hG hP (partSources rnd M u) (partSources_ids ..) fs' hfs' (by
                intro hn _
                have hn' : setName P = text "polylist" := hn
                obtain ⟨hp1, -⟩ := polylist_iff hn'
                exact absurd (h.symm.trans hp1) (by decide))
              rw [writeSet_unset, h1, Option.some.injEq] at h1'
              subst h1'
              rw [h3, Option.some.injEq] at h3'
              subst h3'
              exact h12.1 (h12'.2 (Or.inr ⟨h, f⟩))
        simp only [Bool.or_eq_true, hrep, List.mem_cons, exists_eq_or_imp, or_assoc]

/-! ## The set numbers -/

/-- The set numbers of the sources `W` are put back. -/
def putAll (sets : Nat → Int) (W : List Nat) (P : GSet) : GSet := W.foldl (fun P s => if sets s = -1 then P else putSet s (sets s) P) P

/-- The same for a view. -/
def putViews (sets : Nat → Int) (W : List Nat) (v : View) : View := W.foldl (fun v s => if sets s = -1 then v else putView s (sets s) v) v

theorem putSet_rest (s : Nat) (c : Int) (P : GSet) : (putSet s c P).prim = P.prim ∧ (putSet s c P).counts = P.counts ∧ (putSet s c P).holes = P.holes ∧ (putSet s c P).material = P.material ∧ (putSet s c P).extra = P.extra ∧
    (putSet s c P).inputs.map GInput.source = P.inputs.map GInput.source := by
  unfold putSet
  cases findInput P.inputs s with
  | none => exact ⟨rfl, rfl, rfl, rfl, rfl, rfl⟩
  | some i =>
    refine ⟨rfl, rfl, rfl, rfl, rfl, ?_⟩
    apply List.ext_getElem?
    intro k
    rw [List.getElem?_map, List.getElem?_map, List.getElem?_modify]
    cases P.inputs[k]? with
    | none => rfl
    | some x => by_cases hk : i = k <;> simp [hk]

theorem putAll_rest (sets : Nat → Int) : ∀ (W : List Nat) (P : GSet), (putAll sets W P).prim = P.prim ∧ (putAll sets W P).counts = P.counts ∧ (putAll sets W P).holes = P.holes ∧ (putAll sets W P).material = P.material ∧
    (putAll sets W P).extra = P.extra
  | [], P => ⟨rfl, rfl, rfl, rfl, rfl⟩
  | s :: W, P => by
    have : putAll sets (s :: W) P = putAll sets W (if sets s = -1 then P else putSet s (sets s) P) := rfl
    rw [this]
    have ih := putAll_rest sets W (if sets s = -1 then P else putSet s (sets s) P)
    split at ih
    · next h => rw [if_pos h]; exact ih
    · next h =>
      rw [if_neg h]
      obtain ⟨a, b, c, d, e, -⟩ := putSet_rest s (sets s) P
      rw [a, b, c, d, e] at ih
      exact ih

theorem views_putAll (sets : Nat → Int) : ∀ (W : List Nat) (P : GSet), (∀ s ∈ W, Once (P.inputs.map GInput.source) s) → views (putAll sets W P).inputs = (views P.inputs).map (putViews sets W)
  | [], P, _ => by
    have : putViews sets [] = id := rfl
    rw [this, List.map_id]
    rfl
  | s :: W, P, h => by
    have : putAll sets (s :: W) P = putAll sets W (if sets s = -1 then P else putSet s (sets s) P) := rfl
    rw [this]
    by_cases hs : sets s = -1
    · rw [if_pos hs, views_putAll sets W P fun x hx => h x (by simp [hx])]
      congr 1
      funext v
      show _ = putViews sets W (if sets s = -1 then v else putView s (sets s) v)
      rw [if_pos hs]
    · rw [if_neg hs, views_putAll sets W _ (fun x hx => by rw [(putSet_rest s (sets s) P).2.2.2.2.2]; exact h x (by simp [hx])), views_putSet _ (h s (by simp)), List.map_map]
      congr 1
      funext v
      show _ = putViews sets W (if sets s = -1 then v else putView s (sets s) v)
      rw [if_neg hs]
      rfl

theorem putViews_not (sets : Nat → Int) : ∀ (W : List Nat) (v : View), (∀ s ∈ W, v.1 ≠ some s) → putViews sets W v = v
  | [], v, _ => rfl
  | s :: W, v, h => by
    show putViews sets W (if sets s = -1 then v else putView s (sets s) v) = v
    have : putView s (sets s) v = v := if_neg (h s (by simp))
    rw [this, ite_self, putViews_not sets W v fun x hx => h x (by simp [hx])]

theorem putViews_in (sets : Nat → Int) {s : Nat} {rest : Nat × List Nat} : ∀ (W : List Nat) (c : Int), s ∈ W → (c = -1 ∨ c = sets s) → putViews sets W (some s, c, rest) = (some s, sets s, rest)
  | [], _, h, _ => absurd h (by simp)
  | a :: W, c, h, hc => by
    show putViews sets W (if sets a = -1 then (some s, c, rest) else putView a (sets a) (some s, c, rest)) = _
    by_cases ha : a = s
    · subst ha
      have hstep : (if sets a = -1 then (some a, c, rest) else putView a (sets a) (some a, c, rest)) = (some a, sets a, rest) := by
        split
        · next h1 => rcases hc with h2 | h2 <;> simp [h1, h2]
        · simp [putView]
      rw [hstep]
      by_cases hW : a ∈ W
      · exact putViews_in sets W _ hW (Or.inr rfl)
      · exact putViews_not sets W _ fun x hx e => hW (by simpa using (Option.some.inj e) ▸ hx)
    · have hstep : (if sets a = -1 then (some s, c, rest) else putView a (sets a) (some s, c, rest)) = (some s, c, rest) := by
        split
        · rfl
        · unfold putView
          rw [if_neg]
          simpa using fun e => ha e.symm
      rw [hstep]
      exact putViews_in sets W c ((List.mem_cons.1 h).resolve_left fun e => ha e.symm) hc

theorem unset_get {M : GMesh} {P : GSet} (hP : GoodSet M (unset M P)) {s : Nat} (hs : s ∈ M.vertex) : ∃ i x, findInput P.inputs s = some i ∧ P.inputs[i]? = some x ∧ x.source = some s := by
  have h1 : (some s, (-1 : Int), 0) ∈ M.vertex.map fun s => (some s, (-1 : Int), 0) := List.mem_map.2 ⟨s, hs, rfl⟩
  rw [← hP.perVertex] at h1
  obtain ⟨y, hy, hye⟩ := List.mem_map.1 h1
  have hy1 := (List.mem_filter.1 hy).1
  rw [unset_inputs] at hy1
  obtain ⟨x, hx, rfl⟩ := List.mem_map.1 hy1
  simp only [Prod.mk.injEq, unsetInput_source] at hye
  cases hf : findInput P.inputs s with
  | none =>
    unfold findInput at hf
    rw [List.findIdx?_eq_none_iff] at hf
    have := hf x hx
    simp [hye.1] at this
  | some i =>
    unfold findInput at hf
    obtain ⟨hi, hi2, -⟩ := List.findIdx?_eq_some_iff_getElem.1 hf
    exact ⟨i, P.inputs[i], rfl, List.getElem?_eq_getElem hi, by simpa using hi2⟩

theorem vertexSet_eq {M : GMesh} {sets : Nat → Int} {n0 : Nat} (hM : GoodMesh M sets n0) (hne : M.sets ≠ []) {s : Nat} (hs : s ∈ M.vertex) : vertexSet M s = if sets s = -1 then none else some (sets s) := by
  cases hP : M.sets with
  | nil => exact absurd hP hne
  | cons P Ps =>
    have hin : P ∈ M.sets := by rw [hP]; simp
    obtain ⟨i, x, h1, h2, h3⟩ := unset_get (hM.polygons P hin) hs
    unfold vertexSet
    rw [hP, List.head?_cons, Option.bind_some, h1, Option.bind_some, h2, Option.bind_some, hM.setNumbers P hin x (List.mem_of_getElem? h2) s hs h3]

theorem loadVertexSets_write (ov : Ov) {M : GMesh} {sets : Nat → Int} {n0 : Nat} (hM : GoodMesh M sets n0) (hne : M.sets ≠ []) {ss : List GSource} (hids : ss.map GSource.id = M.sources.map GSource.id) :
    ∀ (W : List Nat) (Qs : List GSet), (∀ s ∈ W, s ∈ M.vertex) → (W.flatMap (vertexSetNode M)).foldlM (loadVertexSet ov ss M.vertex) Qs = some (Qs.map (putAll sets W))
  | [], Qs, _ => by
    have : putAll sets [] = id := rfl
    rw [this, List.map_id]
    rfl
  | s :: W, Qs, h => by
    have hs := h s (by simp)
    obtain ⟨src, hsrc, hun⟩ := hM.vertex.2 s hs
    have hg := hM.sources src (List.mem_of_getElem? hsrc)
    have hset := hM.setNumber s hs
    rw [List.flatMap_cons]
    unfold vertexSetNode
    rw [hsrc, vertexSet_eq hM hne hs]
    have hput : putAll sets (s :: W) = fun P => putAll sets W (if sets s = -1 then P else putSet s (sets s) P) := rfl
    by_cases h1 : sets s = -1
    · rw [if_pos h1]
      simp only [List.nil_append]
      have := loadVertexSets_write ov hM hne hids W Qs fun x hx => h x (by simp [hx])
      rw [hput]
      simp only [if_pos h1]
      exact this
    · rw [if_neg h1]
      simp only
      obtain ⟨n, hn1, hn2, hn3, hn4, hn5⟩ := vertexNode_props ov hg.id.1 hg.id.2.1 (semantic_plain src.type) (semantic_ne_nil hun) hset.1 hset.2
      obtain ⟨t, ht1, ht2, ht3⟩ := hn5 h1
      rw [hn1, List.singleton_append, List.foldlM_cons]
      have hstep : loadVertexSet ov ss M.vertex Qs n = some (Qs.map (putSet s (sets s))) := by
        unfold loadVertexSet
        rw [hn3, Option.bind_some, if_neg (by simp), ht1, Option.bind_some, if_neg ht2, ht3, Option.map_some]
        have hgs : ∃ src', ss[s]? = some src' ∧ src'.id = src.id := by
          have : (ss.map GSource.id)[s]? = (M.sources.map GSource.id)[s]? := by rw [hids]
          rw [List.getElem?_map, List.getElem?_map, hsrc] at this
          cases hss : ss[s]? with
          | none => rw [hss] at this; simp at this
          | some src' => rw [hss] at this; exact ⟨src', rfl, by simpa using this⟩
        obtain ⟨src', hs1, hs2⟩ := hgs
        have hfs : findSource ss src'.id = some s := findSource_eq (by rw [hids]; exact hM.ids) hs1 (by rw [hs2]; exact hg.id.2.2)
        have hsh : stripHash (35 :: src.id) = src'.id := by rw [hs2]; rfl
        rw [hsh, hfs]
        simp only
        rw [if_pos hs]
      rw [hstep, Option.bind_eq_bind, Option.bind_some]
      have := loadVertexSets_write ov hM hne hids W (Qs.map (putSet s (sets s))) fun x hx => h x (by simp [hx])
      unfold vertexSetNode at this
      rw [this, List.map_map, hput]
      simp only [if_neg h1]
      rfl

/-- Putting the set numbers back gives the inputs of the saved set. -/
theorem putAll_same {M : GMesh} {sets : Nat → Int} {n0 : Nat} (hM : GoodMesh M sets n0) {P Q : GSet} (hP : P ∈ M.sets) (h : AlmostSame M P Q) : SameSet M P (putAll sets M.vertex Q) := by
  obtain ⟨h1, h2, h3, h4, h5, h6⟩ := h
  obtain ⟨a, b, c, d, e⟩ := putAll_rest sets M.vertex Q
  refine ⟨a.trans h1, b.trans h2, c.trans h3, d.trans h4, e.trans h5, ?_⟩
  have hpv : ((views P.inputs).filter fun v => perVertex M v.1).map (·.1) = M.vertex.map some := by
    have hg := (hM.polygons P hP).perVertex
    have h7 := congrArg (List.map fun t : Option Nat × Int × Nat => t.1) hg
    rw [List.map_map, List.map_map] at h7
    have h8 : ((views P.inputs).filter fun v => perVertex M v.1).map (·.1) = ((views P.inputs).map (·.1)).filter (perVertex M) := by
      rw [List.filter_map]
      rfl
    rw [h8, views_source]
    have h9 : (((unset M P).inputs.filter fun x => perVertex M x.source).map ((fun t : Option Nat × Int × Nat => t.1) ∘ fun x => (x.source, x.set, x.offset))) = ((unset M P).inputs.map GInput.source).filter (perVertex M) := by
      rw [List.filter_map]
      rfl
    rw [h9] at h7
    have h10 : (unset M P).inputs.map GInput.source = P.inputs.map GInput.source := by
      rw [unset_inputs, List.map_map]
      apply List.map_congr_left
      intro x _
      exact unsetInput_source M x
    rw [h10] at h7
    rw [h7]
    rfl
  have hsrc : Q.inputs.map GInput.source = M.vertex.map some ++ ((views P.inputs).filter fun v => !perVertex M v.1).map (·.1) := by
    rw [← views_source, h6, List.map_append, List.map_map, ← hpv]
    congr 1
    apply List.map_congr_left
    intro v _
    exact unsetView_source M v
  have honce : ∀ s ∈ M.vertex, Once (Q.inputs.map GInput.source) s := by
    intro s hs i j hi hj
    have key : ∀ k : Nat, (Q.inputs.map GInput.source)[k]? = some (some s) → M.vertex[k]? = some s := by
      intro k hk
      rw [hsrc] at hk
      by_cases hlt : k < M.vertex.length
      · rw [List.getElem?_append_left (by simpa using hlt), List.getElem?_map] at hk
        cases hv : M.vertex[k]? with
        | none => rw [hv] at hk; simp at hk
        | some y => rw [hv] at hk; simpa using hk
      · rw [List.getElem?_append_right (by simpa using hlt)] at hk
        have := List.mem_of_getElem? hk
        obtain ⟨v, hv, hve⟩ := List.mem_map.1 this
        have := (List.mem_filter.1 hv).2
        rw [hve] at this
        simp [perVertex, hs] at this
    have hi' := key i hi
    have hj' := key j hj
    obtain ⟨x1, x2⟩ := List.getElem?_eq_some_iff.1 hi'
    obtain ⟨y1, y2⟩ := List.getElem?_eq_some_iff.1 hj'
    exact (List.Nodup.getElem_inj_iff hM.vertex.1).1 (x2.trans y2.symm)
  rw [views_putAll sets M.vertex Q honce, h6, List.map_append, List.map_map]
  congr 1
  · have : ((views P.inputs).filter fun v => perVertex M v.1).map (putViews sets M.vertex ∘ unsetView M) = ((views P.inputs).filter fun v => perVertex M v.1).map id := by
      apply List.map_congr_left
      intro v hv
      obtain ⟨hv1, hv2⟩ := List.mem_filter.1 hv
      obtain ⟨vs, vset, vrest⟩ := v
      cases vs with
      | none => simp [perVertex] at hv2
      | some s =>
        have hs : s ∈ M.vertex := by simpa [perVertex] using hv2
        have hu : unsetView M (some s, vset, vrest) = (some s, -1, vrest) := by
          unfold unsetView
          rw [if_pos hv2]
        have hset : vset = sets s := by
          unfold views at hv1
          obtain ⟨i, hi⟩ := List.mem_iff_getElem?.1 hv1
          rw [List.getElem?_mapIdx] at hi
          cases hx : P.inputs[i]? with
          | none => rw [hx] at hi; simp at hi
          | some x =>
            rw [hx, Option.map_some, Option.some.injEq] at hi
            simp only [Prod.mk.injEq] at hi
            rw [← hi.2.1]
            exact hM.setNumbers P hP x (List.mem_of_getElem? hx) s hs hi.1
        rw [Function.comp_apply, hu, putViews_in sets M.vertex (-1) hs (Or.inl rfl), hset]
        rfl
    rw [this, List.map_id]
  · have : ((views P.inputs).filter fun v => !perVertex M v.1).map (putViews sets M.vertex) = ((views P.inputs).filter fun v => !perVertex M v.1).map id := by
      apply List.map_congr_left
      intro v hv
      have hv2 := (List.mem_filter.1 hv).2
      rw [putViews_not]
      · rfl
      · intro s hs e
        rw [e] at hv2
        simp [perVertex, hs] at hv2
    rw [this, List.map_id]

end Verif.FArc
