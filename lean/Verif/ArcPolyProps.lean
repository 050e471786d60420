import Verif.ArcPolyAll

/-! # Saving and loading of polygon sets (C146) -/

namespace Verif.FArc

open Verif.FEff (Text text)
open Verif.FConv (Ov)
open Verif.FPoly (Prim Face toCounts toHoles faceSize)

/-- **C146.** A polygon set that is saved and loaded again has the same kind of primitives, faces, holes, material and extra tree; the inputs of the per-vertex sources come first, and every input has its source, set, offset and
indices; the sources get their types back. The load succeeds; an error is reported only for a set without faces, not made of polygons, and for lines in several faces. -/
theorem set_roundtrip_partial (ov : Ov) (M : GMesh) (P : GSet) (hM : GoodSources M) (hP : GoodSet M P) (ss : List GSource) (hids : ss.map GSource.id = M.sources.map GSource.id) (fs : List Face) (hf : FPoly.Repr P.polys fs)
    (hpos : setName P = text "polylist" → P.counts ≠ [] → ∃ n, positionCount (typed M P.inputs ss) = some n ∧ ∀ c ∈ P.counts, c ≤ n) :
    ∃ n r, writeSet M P = some n ∧ primOf n.name = some P.prim ∧ loadSet ov ss M.vertex P.prim (vertexInputs M.vertex) n = some r ∧ r.status = true ∧ r.sources = typed M P.inputs ss ∧
      r.set.prim = P.prim ∧ r.set.counts = P.counts ∧ r.set.holes = P.holes ∧ r.set.material = P.material ∧ r.set.extra = keptExtra P.extra ∧
      views r.set.inputs = (views P.inputs).filter (fun v => perVertex M v.1) ++ (views P.inputs).filter (fun v => !perVertex M v.1) ∧
      (r.error = true ↔ (P.prim ≠ .polygons ∧ P.counts = []) ∨ (P.prim = .lines ∧ ∃ f ∈ fs.tail, 2 ≤ faceSize f)) := by
  have hv0 : ∀ x ∈ P.inputs, perVertex M x.source = true → x.offset = 0 := by
    intro x hx hp
    have : (x.source, x.set, x.offset) ∈ M.vertex.map fun s => (some s, (-1 : Int), 0) := by
      rw [← hP.perVertex]
      exact List.mem_map.2 ⟨x, List.mem_filter.2 ⟨hx, hp⟩, rfl⟩
    obtain ⟨s, -, hs⟩ := List.mem_map.1 this
    simp only [Prod.mk.injEq] at hs
    exact hs.2.2.symm
  obtain ⟨st, hhead, hinv⟩ := loadHead_inputs ov hM hids P.inputs [] _ hv0 (by simp) hP.others (headInv_nil M ss FExtra.newExtra)
  simp only [List.any_nil, List.nil_append] at hhead hinv
  have hR := reading_of hM hP hinv
  have hvw := loaded_views hM hP hinv
  have hvert : st.hasVertex = true := by
    rw [hinv.vertex, List.any_eq_true]
    have h1 : (P.inputs.filter fun x => perVertex M x.source) ≠ [] := by
      intro h
      have := hP.perVertex
      rw [h] at this
      exact hM.some (by simpa using this.symm)
    obtain ⟨x, hx⟩ := List.exists_mem_of_ne_nil _ h1
    exact ⟨x, (List.mem_filter.1 hx).1, (List.mem_filter.1 hx).2⟩
  have hcounts : P.counts = toCounts fs := hf.1
  obtain ⟨k, hk⟩ : ∃ k, k = (if P.prim = .lines then ((fs.head?.map fun f => faceSize f / 2).getD 0) else fs.length) := ⟨_, rfl⟩
  have hprim : primCount P = some k := by rw [hk]; exact primCount_eq hf
  have hk32 : k < 2 ^ 32 := by
    have h1 := hP.small.1
    have h2 := hP.small.2
    rw [hcounts, FPoly.toCounts_length] at h1
    rw [hcounts, FPoly.toCounts_sum] at h2
    rw [hk]
    split
    · cases fs with
      | nil => decide
      | cons f fs => simp only [List.map_cons, List.sum_cons, List.head?_cons, Option.map_some, Option.getD_some] at h2 ⊢; omega
    · omega
  have hdiff : ∀ k', loadedCount P = some k' → (k ≠ k' ↔ P.prim = .lines ∧ ∃ f ∈ fs.tail, 2 ≤ faceSize f) := by
    intro k' hk'
    rw [loadedCount_eq hf, Option.some.injEq] at hk'
    rw [hk, ← hk']
    exact count_differs P fs
  have hlc : ∀ ins e, loadedCount (⟨P.prim, ins, P.counts, P.holes, P.material, e⟩ : GSet) = loadedCount P := fun _ _ => rfl
  have hzero : st.inputs = lent st.inputs st.owners fun o => (shownAt P.inputs o).take 0 := (lent_zero hR.fresh _).symm
  have hex := extra_kept hP.extra
  have hext := hinv.extra
  have hws : ∀ ts, tessNodes P = some ts → writeSet M P = some (setElem P k (writeInputs M false P.inputs ++ ts ++ writeExtra P.extra)) := by
    intro ts ht
    unfold writeSet
    rw [ht, Option.bind_some, hprim]
    rfl
  have hname : ∀ kids, primOf (setElem P k kids).name = some P.prim := fun kids => primOf_setName P
  by_cases hown : ownFaces P = true
  · have hway : wayOf P.prim (setName P) = some .polygons := by
      unfold wayOf
      by_cases hp : P.prim = .polygons
      · rw [if_pos hp, if_pos]
        unfold setName
        rw [hp]
        simp [hown]
      · rw [if_neg hp]
    obtain ⟨ns, hn1, hn2, hn3, off1, c1, ho1, hn4⟩ := loadTess_faces hR FExtra.newExtra (P := P) fs [] (by simpa using hf) rfl 0 0 (by omega)
    have htess : tessNodes P = some ns := by
      unfold tessNodes
      rw [if_pos hown, FPoly.repr_faceCount hf]
      exact hn1
    have hkids : ∀ rest, loadHead ov M.vertex (writeInputs M false P.inputs ++ ns ++ writeExtra P.extra) rest = loadHead ov M.vertex (writeInputs M false P.inputs ++ (ns ++ writeExtra P.extra)) rest := by
      intro rest; rw [List.append_assoc]
    cases fs with
    | nil =>
      have : ns = [] := by simpa using hn3
      subst this
      have hc0 : P.counts = [] := by rw [hcounts]; rfl
      have hh0 : P.holes = [] := hf.2
      have hnp : P.prim ≠ .polygons := by
        intro hp
        unfold ownFaces at hown
        rw [hp, hh0] at hown
        simp at hown
      have hL : loadHead ov M.vertex (writeInputs M false P.inputs ++ [] ++ writeExtra P.extra) ⟨ss, vertexInputs M.vertex, [], false, FExtra.newExtra⟩ = some ({ st with extra := keptExtra P.extra }, []) := by
        rw [hkids, hhead, List.nil_append, loadHead_extras ov _ _ _ (fun n hn => writeExtra_name hn), hext, hex]
        rfl
      refine ⟨_, _, hws _ htess, hname _, loadSet_empty ov hP.material hk32 hway hL, rfl, hinv.sources, rfl, hc0.symm, hh0.symm, rfl, rfl, ?_, ?_⟩
      · simp only
        rw [← hvw, hc0, List.sum_nil, ← hzero]
      · simp [hnp, hc0]
    | cons f fs =>
      cases ns with
      | nil => simp at hn3
      | cons n ns =>
        have hL : loadHead ov M.vertex (writeInputs M false P.inputs ++ (n :: ns) ++ writeExtra P.extra) ⟨ss, vertexInputs M.vertex, [], false, FExtra.newExtra⟩ = some (st, n :: ns ++ writeExtra P.extra) := by
          rw [hkids, hhead, List.cons_append, loadHead_tess ov _ (by rcases hn2 n (by simp) with h | h <;> simp [h])]
        have hc : loadCounts st.sources .polygons k (setElem P k (writeInputs M false P.inputs ++ (n :: ns) ++ writeExtra P.extra)) = some (.ok []) := by
          unfold loadCounts
          split
          · rfl
          · rw [setElem_none]
            intro m hm
            rcases List.mem_append.1 hm with hm | hm
            · rcases List.mem_append.1 hm with hm | hm
              · rw [writeInputs_name M _ _ _ hm, Ne, text_inj]; decide
              · rcases hn2 m hm with h | h <;> (rw [h, Ne, text_inj]; decide)
            · rw [writeExtra_name hm, Ne, text_inj]; decide
        have hbody : (n :: ns ++ writeExtra P.extra).foldlM (loadTess st.owners .polygons) ⟨st.inputs, [], [], st.owners.map fun o => o.map fun _ => [], st.extra⟩ =
            some ⟨lent st.inputs st.owners fun o => (shownAt P.inputs o).take P.counts.sum, P.counts, P.holes, slices st.owners (shownAt P.inputs) off1 c1, keptExtra P.extra⟩ := by
          rw [List.foldlM_append, slices_none st.owners (shownAt P.inputs), hext]
          simp only [List.map_nil, List.sum_nil] at hn4
          rw [← hzero] at hn4
          have hn4' : (n :: ns).foldlM (loadTess st.owners .polygons) ⟨st.inputs, [], [], slices st.owners (shownAt P.inputs) 0 0, FExtra.newExtra⟩ = _ := hn4
          rw [hn4']
          show (writeExtra P.extra).foldlM (loadTess st.owners .polygons) _ = _
          rw [loadTess_extras _ _ _ _ (fun n hn => writeExtra_name hn), hex]
          rfl
        obtain ⟨k', hk'⟩ : ∃ k', loadedCount P = some k' := ⟨_, loadedCount_eq hf⟩
        have hbd := loadBody_eq (P0 := ⟨P.prim, st.inputs, [], [], P.material, st.extra⟩) (k := k) (k' := k') hbody (by rw [hlc]; exact hk')
        refine ⟨_, _, hws _ htess, hname _, (loadSet_ok ov hP.material hk32 hway hL hvert (by simp) hc).trans hbd, rfl, hinv.sources, rfl, rfl, rfl, rfl, rfl, hvw, ?_⟩
        have hc0 : P.counts ≠ [] := by rw [hcounts, toCounts_cons]; simp
        simp only [decide_eq_true_eq]
        rw [hdiff k' hk']
        simp [hc0]
  · have hp : P.prim = .polygons := by
      have := hP.prim
      unfold ownFaces at hown
      cases hp : P.prim <;> rw [hp] at hown this <;> simp at hown this ⊢
    have hh0 : P.holes = [] := by
      unfold ownFaces at hown
      rw [hp] at hown
      simpa using hown
    have hlen := noHoles hf hh0
    have hk0 : k = P.counts.length := by rw [hk, hp, ← hlen]; rfl
    obtain ⟨ts, ht1, -, ht3⟩ := loopTexts_eq hR P.counts P.counts 0 0 (fun k _ => by rw [Nat.zero_add]) (by omega)
    rw [Nat.zero_add] at ht1
    have hface := fun way counts => loadFace_eq hR way (off := 0) (c := P.counts.sum) (off0 := 0) (c0 := 0) (by omega) (by omega) counts [] FExtra.newExtra
    rw [← hzero] at hface
    rw [Nat.zero_add] at hface
    have hbody : ∀ way pre cs, (∀ n ∈ pre, n.name = text "vcount") → (pre ++ [Node.elem (text "p") [] ts.flatten.dropLast []] ++ writeExtra P.extra).foldlM (loadTess st.owners way) ⟨st.inputs, cs, [], st.owners.map fun o => o.map fun _ => [], st.extra⟩ =
        some ⟨lent st.inputs st.owners fun o => (shownAt P.inputs o).take P.counts.sum, countWay way P.counts.sum cs, [], slices st.owners (shownAt P.inputs) 0 P.counts.sum, keptExtra P.extra⟩ := by
      intro way pre cs hpre
      have hpre' : ∀ (l : List Node) (t : TessState), (∀ n ∈ l, n.name = text "vcount") → l.foldlM (loadTess st.owners way) t = some t := by
        intro l
        induction l with
        | nil => intro t _; rfl
        | cons a l ih =>
          intro t h
          have ha := h a (by simp)
          have : loadTess st.owners way t a = some t := by
            unfold loadTess
            rw [if_neg (by rw [ha, text_inj]; decide), if_neg (by rw [ha, text_inj]; decide), if_neg (by rw [ha, text_inj]; decide)]
          rw [List.foldlM_cons, this]
          exact ih t fun n hn => h n (by simp [hn])
      rw [List.foldlM_append, List.foldlM_append, hpre' pre _ hpre, slices_none st.owners (shownAt P.inputs), hext]
      rw [Option.bind_eq_bind, Option.bind_some, List.foldlM_cons, loadTess_p, ht3, hface]
      show (writeExtra P.extra).foldlM (loadTess st.owners way) _ = _
      rw [loadTess_extras _ _ _ _ (fun n hn => writeExtra_name hn), hex]
      rfl
    obtain ⟨k', hk'⟩ : ∃ k', loadedCount P = some k' := ⟨_, loadedCount_eq hf⟩
    have hkk : k = k' := by
      by_contra h
      have := ((hdiff k' hk').1 h).1
      rw [hp] at this
      exact absurd this (by decide)
    by_cases hnp : nPolys P = true
    · have hsn : setName P = text "polylist" := by
        unfold setName
        rw [hp]
        simp [hown, hnp]
      have hway : wayOf P.prim (setName P) = some .polylist := by
        unfold wayOf
        rw [if_pos hp, hsn]
        simp only [text_inj, String.reduceEq, if_false, if_true]
      have htess : tessNodes P = some [.elem (text "vcount") [] (wordsText (P.counts.map natText)) [], .elem (text "p") [] ts.flatten.dropLast []] := by
        unfold tessNodes
        rw [if_neg hown, FPoly.repr_faceCount hf, hlen, ht1, if_pos hnp]
        rfl
      have hL : loadHead ov M.vertex (writeInputs M false P.inputs ++ [.elem (text "vcount") [] (wordsText (P.counts.map natText)) [], .elem (text "p") [] ts.flatten.dropLast []] ++ writeExtra P.extra)
          ⟨ss, vertexInputs M.vertex, [], false, FExtra.newExtra⟩ = some (st, [Node.elem (text "vcount") [] (wordsText (P.counts.map natText)) []] ++ [.elem (text "p") [] ts.flatten.dropLast []] ++ writeExtra P.extra) := by
        rw [List.append_assoc, hhead, List.cons_append, loadHead_tess ov _ (Or.inr (Or.inl (name_elem ..)))]
        rfl
      have hc : loadCounts st.sources .polylist k (setElem P k (writeInputs M false P.inputs ++ [.elem (text "vcount") [] (wordsText (P.counts.map natText)) [], .elem (text "p") [] ts.flatten.dropLast []] ++ writeExtra P.extra)) =
          some (.ok P.counts) := by
        unfold loadCounts
        by_cases hk00 : k = 0
        · rw [if_pos hk00]
          have : P.counts = [] := List.length_eq_zero_iff.1 (by omega)
          rw [this]
        · rw [if_neg hk00]
          have hch : (setElem P k (writeInputs M false P.inputs ++ [.elem (text "vcount") [] (wordsText (P.counts.map natText)) [], .elem (text "p") [] ts.flatten.dropLast []] ++ writeExtra P.extra)).child (text "vcount") =
              some (.elem (text "vcount") [] (wordsText (P.counts.map natText)) []) := by
            unfold setElem
            rw [List.append_assoc, child_append, List.cons_append, child_cons, if_pos (name_elem ..)]
            have : ((Node.elem (setName P) ((if P.material = [] then [] else [(text "material", P.material)]) ++ [(text "count", natText k)]) [] (writeInputs M false P.inputs)).child (text "vcount")) = none :=
              setElem_none P k fun n hn => by rw [writeInputs_name M _ _ _ hn, Ne, text_inj]; decide
            rw [this]
            rfl
          rw [hch]
          simp only
          obtain ⟨n, hn, hle⟩ := hpos hsn (fun h => hk00 (by rw [hk0, h]; rfl))
          have hd : (Node.elem (text "vcount") [] (wordsText (P.counts.map natText)) []).direct = wordsText (P.counts.map natText) := rfl
          have hlt : ∀ c ∈ P.counts, c < 2 ^ 32 := fun c hc => Nat.lt_of_le_of_lt (le_sum_of_mem hc) hP.small.2
          rw [hd, readNats P.counts hlt, Option.bind_some, hinv.sources, hn, Option.map_some, if_neg]
          simp only [List.any_eq_true, decide_eq_true_eq, not_exists, not_and, Nat.not_lt]
          exact hle
      have hbd := loadBody_eq (P0 := ⟨P.prim, st.inputs, [], [], P.material, st.extra⟩) (k := k) (k' := k') (hbody .polylist [.elem (text "vcount") [] (wordsText (P.counts.map natText)) []] P.counts (by simp))
        (by rw [← hk', ← hlc (lent st.inputs st.owners fun o => (shownAt P.inputs o).take P.counts.sum) (keptExtra P.extra), hh0]; rfl)
      refine ⟨_, _, hws _ htess, hname _, (loadSet_ok ov hP.material hk32 hway hL hvert (by simp) hc).trans hbd, rfl, hinv.sources, rfl, rfl, hh0.symm, rfl, rfl, hvw, ?_⟩
      simp [hkk, hp]
    · have hsn : setName P = text "triangles" := by
        unfold setName
        rw [hp]
        simp [hown, hnp]
      have hway : wayOf P.prim (setName P) = some .triangles := by
        unfold wayOf
        rw [if_pos hp, hsn]
        simp only [text_inj, String.reduceEq, if_false, if_true]
      have h3 : ∀ c ∈ P.counts, c = 3 := by
        unfold nPolys at hnp
        rw [hp, hh0] at hnp
        simp only [List.isEmpty_nil, Bool.not_true, Bool.false_or, Bool.not_eq_true', Bool.not_eq_false, allTriangles, Bool.and_eq_true, List.all_eq_true, decide_eq_true_eq] at hnp
        exact hnp.2
      have htess : tessNodes P = some [.elem (text "p") [] ts.flatten.dropLast []] := by
        unfold tessNodes
        rw [if_neg hown, FPoly.repr_faceCount hf, hlen, ht1, if_neg hnp]
        rfl
      have hL : loadHead ov M.vertex (writeInputs M false P.inputs ++ [.elem (text "p") [] ts.flatten.dropLast []] ++ writeExtra P.extra)
          ⟨ss, vertexInputs M.vertex, [], false, FExtra.newExtra⟩ = some (st, [] ++ [.elem (text "p") [] ts.flatten.dropLast []] ++ writeExtra P.extra) := by
        rw [List.append_assoc, hhead, List.cons_append, loadHead_tess ov _ (Or.inl (name_elem ..))]
        rfl
      have hc : loadCounts st.sources .triangles k (setElem P k (writeInputs M false P.inputs ++ [.elem (text "p") [] ts.flatten.dropLast []] ++ writeExtra P.extra)) = some (.ok []) := by
        unfold loadCounts
        split
        · rfl
        · rw [setElem_none]
          intro m hm
          rcases List.mem_append.1 hm with hm | hm
          · rcases List.mem_append.1 hm with hm | hm
            · rw [writeInputs_name M _ _ _ hm, Ne, text_inj]; decide
            · rw [List.mem_singleton.1 hm, name_elem, Ne, text_inj]; decide
          · rw [writeExtra_name hm, Ne, text_inj]; decide
      have hcw : countWay .triangles P.counts.sum [] = P.counts := by
        unfold countWay
        rw [List.nil_append, threes h3]
      have hb := hbody .triangles [] [] (by simp)
      rw [hcw] at hb
      have hbd := loadBody_eq (P0 := ⟨P.prim, st.inputs, [], [], P.material, st.extra⟩) (k := k) (k' := k') hb
        (by rw [← hk', ← hlc (lent st.inputs st.owners fun o => (shownAt P.inputs o).take P.counts.sum) (keptExtra P.extra), hh0])
      refine ⟨_, _, hws _ htess, hname _, (loadSet_ok ov hP.material hk32 hway hL hvert (by simp) hc).trans hbd, rfl, hinv.sources, rfl, rfl, hh0.symm, rfl, rfl, hvw, ?_⟩
      simp [hkk, hp]

/-- A mesh with three positions and a normal. -/
def witnessMesh : GMesh := ⟨text "g", [⟨text "p", [], .position, 3, [0, 0, 0, 1, 0, 0, 0, 1, 0], FExtra.newExtra⟩, ⟨text "n", [], .normal, 3, [0, 0, 1], FExtra.newExtra⟩], [0], [], false, []⟩

/-- What a program sees of a polygon set after loading it: the face-vertex counts, the holes, the inputs, the status and whether an error is reported. -/
structure Seen where
  counts : List Nat
  holes : List Nat
  inputs : List View
  status : Bool
  error : Bool
deriving DecidableEq

/-- What a program sees of a polygon set of the mesh after saving and loading it. -/
def seenAgain (ov : Ov) (M : GMesh) (P : GSet) : Option Seen :=
  (writeSet M P).bind fun n => (loadSet ov M.sources M.vertex P.prim (vertexInputs M.vertex) n).map fun r => ⟨r.set.counts, r.set.holes, views r.set.inputs, r.status, r.error⟩

/-- **C146, violated.** Points lose their faces and indices. If the per-vertex input is not at the offset 0, its indices are mixed with those of the input there, and loading is undefined if there is none. A face with more
corners than there are positions makes the load fail, and without a source of positions it is undefined. An input of an unknown type is lost, and so are all indices if there are no per-vertex sources. -/
theorem set_violated (ov : Ov) :
    seenAgain ov witnessMesh ⟨.points, [⟨some 0, -1, 0, [0, 1, 2]⟩], [3], [], [], FExtra.newExtra⟩ = some ⟨[], [], [(some 0, -1, 0, [])], true, true⟩ ∧
    seenAgain ov witnessMesh ⟨.polygons, [⟨some 0, -1, 1, [0, 1, 2]⟩, ⟨some 1, 0, 0, [2, 1, 0]⟩], [3], [], [], FExtra.newExtra⟩ =
      some ⟨[3], [], [(some 0, -1, 0, [2, 1, 0, 0, 1, 2]), (some 1, 0, 0, [2, 1, 0, 0, 1, 2])], true, false⟩ ∧
    seenAgain ov witnessMesh ⟨.polygons, [⟨some 0, -1, 1, [0, 1, 2]⟩], [3], [], [], FExtra.newExtra⟩ = none ∧
    seenAgain ov witnessMesh ⟨.polygons, [⟨some 0, -1, 0, [0, 1, 2, 0]⟩], [4], [], [], FExtra.newExtra⟩ = some ⟨[4], [], [(some 0, -1, 0, [])], false, true⟩ ∧
    seenAgain ov { witnessMesh with sources := witnessMesh.sources.map fun s => { s with type := .normal } } ⟨.polygons, [⟨some 0, -1, 0, [0, 1, 2, 0]⟩], [4], [], [], FExtra.newExtra⟩ = none ∧
    seenAgain ov { witnessMesh with sources := witnessMesh.sources.modify 1 fun s => { s with type := .unknown } } ⟨.polygons, [⟨some 0, -1, 0, [0, 1, 2]⟩, ⟨some 1, 0, 1, [0, 0, 0]⟩], [3], [], [], FExtra.newExtra⟩ =
      some ⟨[3], [], [(some 0, -1, 0, [0, 1, 2])], true, false⟩ ∧
    seenAgain ov { witnessMesh with vertex := [] } ⟨.polygons, [⟨some 0, -1, 0, [0, 1, 2]⟩], [3], [], [], FExtra.newExtra⟩ = some ⟨[], [], [(some 0, -1, 0, [])], true, true⟩ := by
  refine ⟨?_, ?_, ?_, ?_, ?_, ?_, ?_⟩ <;> (cases ov <;> decide +kernel)

/-- A polygon set with a square with a hole, and a triangle. -/
def sampleSet : GSet := ⟨.polygons, [⟨some 0, -1, 0, [0, 1, 2, 0, 2, 1, 0, 1, 2, 0]⟩, ⟨some 1, 0, 2, [0, 0, 0, 0, 0, 0, 0, 0, 0, 0]⟩], [4, 3, 3], [1], text "red", FExtra.newExtra⟩

example : GoodSources witnessMesh ∧ GoodSet witnessMesh sampleSet ∧ FPoly.Repr sampleSet.polys [(4, [3]), (3, [])] ∧ setName sampleSet ≠ text "polylist" := by
  have hpl : ∀ t : Text, (∀ c ∈ t, (1 ≤ c ∧ c ≤ 127) ∧ c ≠ 37) → Plain t := fun t h c hc =>
    ⟨⟨Int.le_trans (by decide) (h c hc).1.1, (h c hc).1.2, fun e => absurd (e ▸ (h c hc).1.1 : (1 : Int) ≤ 0) (by decide)⟩, (h c hc).2⟩
  have hr : FPoly.Repr sampleSet.polys [(4, [3]), (3, [])] := ⟨by decide, by decide⟩
  refine ⟨⟨hpl _ (by decide +kernel), by decide +kernel, by decide⟩, ⟨by decide, ⟨_, hr⟩, by decide +kernel, ?_, by decide +kernel, by decide +kernel, by decide, hpl _ (by decide +kernel), ?_⟩, hr, by decide +kernel⟩
  · intro x hx hp
    simp only [sampleSet, List.mem_cons, List.not_mem_nil, or_false] at hx
    rcases hx with rfl | rfl
    · exact absurd hp (by decide)
    · exact ⟨1, _, rfl, rfl, by decide, by decide, by decide +kernel, by decide +kernel, hpl _ (by decide +kernel), by decide, by decide, by decide⟩
  · refine ⟨⟨_, rfl, rfl⟩, by decide +kernel, fun t ht => ?_⟩
    simp only [sampleSet, FExtra.newExtra, List.mem_cons, List.not_mem_nil, or_false] at ht
    subst ht
    exact ⟨plain_nil, by simp, by simp⟩

end Verif.FArc
