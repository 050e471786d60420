import Verif.ArcPolyColumns
import Verif.ArcExtraProps

/-! # Lemmas for polygon sets: the extras and the counts -/

namespace Verif.FArc

open Verif.FEff (Text text)
open Verif.FConv (Ov)
open Verif.FPoly (Prim Face toCounts toHoles faceSize)

theorem writeExtra_name {e : FExtra.Extra} {n : Node} (h : n ∈ writeExtra e) : n.name = text "extra" := by
  unfold writeExtra at h
  split at h
  · obtain ⟨t, -, ht⟩ := List.mem_filterMap.1 h
    unfold writeType at ht
    split at ht
    · exact absurd ht (by simp)
    · rw [← Option.some.inj ht]
      exact name_elem ..
  · simp at h

theorem extra_kept {e : FExtra.Extra} (h : Saveable e) : loadExtras FExtra.newExtra (writeExtra e) = some (keptExtra e) := by
  unfold keptExtra
  cases hc : FExtra.hasContent e with
  | true => rw [if_pos rfl, extra_roundtrip_partial e h hc]
  | false => rw [if_neg (by simp), extra_empty e hc]; rfl

theorem loadHead_extras (ov : Ov) (V : List Nat) : ∀ (ns : List Node) (st : HeadState), (∀ n ∈ ns, n.name = text "extra") →
    loadHead ov V ns st = (loadExtras st.extra ns).map fun e => ({ st with extra := e }, [])
  | [], st, _ => rfl
  | n :: ns, st, h => by
    have hn := h n (by simp)
    rw [loadHead, if_neg (by rw [hn, text_inj]; decide), if_pos hn]
    unfold loadExtras
    rw [List.foldlM_cons]
    cases hl : loadExtra st.extra n with
    | none => rfl
    | some e =>
      rw [Option.bind_some, loadHead_extras ov V ns { st with extra := e } fun m hm => h m (by simp [hm])]
      rfl

theorem loadHead_tess (ov : Ov) (V : List Nat) {n : Node} (h : n.name = text "p" ∨ n.name = text "vcount" ∨ n.name = text "ph") (ns : List Node) (st : HeadState) : loadHead ov V (n :: ns) st = some (st, n :: ns) := by
  rw [loadHead]
  have ht : isTess n = true := by
    unfold isTess
    rcases h with h | h | h <;> simp [h]
  rcases h with h | h | h <;> rw [if_neg (by rw [h, text_inj]; decide), if_neg (by rw [h, text_inj]; decide), if_pos ht]

theorem loadTess_extras (owners : List (Option Nat)) (way : Way) : ∀ (ns : List Node) (st : TessState), (∀ n ∈ ns, n.name = text "extra") →
    ns.foldlM (loadTess owners way) st = (loadExtras st.extra ns).map fun e => { st with extra := e }
  | [], st, _ => rfl
  | n :: ns, st, h => by
    have hn := h n (by simp)
    have hL : loadTess owners way st n = (loadExtra st.extra n).map fun e => { st with extra := e } := by
      unfold loadTess
      rw [if_neg (by rw [hn, text_inj]; decide), if_neg (by rw [hn, text_inj]; decide), if_pos hn]
    unfold loadExtras
    rw [List.foldlM_cons, List.foldlM_cons, hL]
    cases hl : loadExtra st.extra n with
    | none => rfl
    | some e => exact loadTess_extras owners way ns { st with extra := e } fun m hm => h m (by simp [hm])

theorem inputNode_name {id sem : Text} {o s : Int} {n : Node} (h : n ∈ inputNode id sem o s) : n.name = text "input" := by
  unfold inputNode at h
  split at h
  · simp at h
  · rw [List.mem_singleton.1 h]; exact name_elem ..

theorem writeInputs_name (M : GMesh) : ∀ (xs : List GInput) (f : Bool) (n : Node), n ∈ writeInputs M f xs → n.name = text "input"
  | [], _, n, h => by simp [writeInputs] at h
  | x :: xs, f, n, h => by
    rw [writeInputs.eq_def] at h
    simp only at h
    split at h
    · exact writeInputs_name M xs f n h
    · split at h
      · rcases List.mem_append.1 h with h | h
        · split at h
          · simp at h
          · exact inputNode_name h
        · exact writeInputs_name M xs true n h
      · rcases List.mem_append.1 h with h | h
        · split at h
          · exact inputNode_name h
          · simp at h
        · exact writeInputs_name M xs f n h

/-- The number of primitives written. -/
theorem primCount_eq {P : GSet} {fs : List Face} (hf : FPoly.Repr P.polys fs) : primCount P = some (if P.prim = .lines then ((fs.head?.map fun f => faceSize f / 2).getD 0) else fs.length) := by
  unfold primCount
  rw [FPoly.repr_faceCount hf]
  by_cases hp : P.prim = .lines
  · rw [if_pos hp]
    cases fs with
    | nil => simp [hp]
    | cons f fs => rw [if_pos ⟨hp, by simp⟩, FPoly.repr_count hf (f := f) rfl]; rfl
  · rw [if_neg (by simp [hp]), if_neg hp]

/-- The number of primitives counted after loading. -/
theorem loadedCount_eq {P : GSet} {fs : List Face} (hf : FPoly.Repr P.polys fs) : loadedCount P = some (if P.prim = .lines then (fs.map fun f => faceSize f / 2).sum else fs.length) := by
  unfold loadedCount
  rw [FPoly.repr_faceCount hf]
  by_cases hp : P.prim = .lines
  · rw [if_pos hp, if_pos hp]
    have h1 : ∀ i, FPoly.faceVertexCount P.polys i = some (((fs[i]?).map faceSize).getD 0) := by
      intro i
      cases hi : fs[i]? with
      | some f => rw [FPoly.repr_count hf hi]; rfl
      | none =>
        unfold FPoly.faceVertexCount
        rw [FPoly.repr_faceCount hf, if_neg (by have := List.getElem?_eq_none_iff.1 hi; omega)]
        rfl
    have hle : fs.length ≤ P.counts.length := by
      have h1 : P.counts = toCounts fs := hf.1
      rw [h1, FPoly.toCounts_length]; omega
    have h2 : ∀ n, ((List.range n).mapM fun i => (FPoly.faceVertexCount P.polys i).map (· / 2)) = some ((List.range n).map fun i => ((fs[i]?).map faceSize).getD 0 / 2) := by
      intro n
      generalize List.range n = l
      induction l with
      | nil => rfl
      | cons a l ih => rw [List.mapM_cons, ih, h1]; rfl
    rw [h2, Option.map_some]
    congr 1
    obtain ⟨m, hm⟩ := Nat.exists_eq_add_of_le hle
    rw [hm, List.range_add, List.map_append, List.sum_append]
    have e1 : (List.range fs.length).map (fun i => ((fs[i]?).map faceSize).getD 0 / 2) = fs.map fun f => faceSize f / 2 := by
      apply List.ext_getElem
      · simp
      · intro i h1 h2
        have hi : i < fs.length := by simpa using h2
        simp [List.getElem?_eq_getElem hi]
    have e2 : ((List.range m).map (fs.length + ·)).map (fun i => ((fs[i]?).map faceSize).getD 0 / 2) = List.replicate m 0 := by
      apply List.ext_getElem
      · simp
      · intro i h1 h2
        simp
    rw [e1, e2]
    simp
  · rw [if_neg hp, if_neg hp]

theorem sum_zero_iff : ∀ l : List Nat, l.sum = 0 ↔ ∀ x ∈ l, x = 0
  | [] => by simp
  | a :: l => by rw [List.sum_cons, Nat.add_eq_zero_iff, sum_zero_iff l]; simp

/-- When the number written is not the number counted. -/
theorem count_differs (P : GSet) (fs : List Face) : (if P.prim = .lines then ((fs.head?.map fun f => faceSize f / 2).getD 0) else fs.length) ≠ (if P.prim = .lines then (fs.map fun f => faceSize f / 2).sum else fs.length) ↔
    P.prim = .lines ∧ ∃ f ∈ fs.tail, 2 ≤ faceSize f := by
  by_cases hp : P.prim = .lines
  · simp only [hp, if_true, true_and]
    cases fs with
    | nil => simp
    | cons f fs =>
      simp only [List.map_cons, List.sum_cons, List.tail_cons, List.head?_cons, Option.map_some, Option.getD_some]
      have := sum_zero_iff (fs.map fun f => faceSize f / 2)
      constructor
      · intro h
        have h0 : (fs.map fun f => faceSize f / 2).sum ≠ 0 := by omega
        rw [Ne, this] at h0
        push Not at h0
        obtain ⟨x, hx, h0⟩ := h0
        obtain ⟨g, hg, rfl⟩ := List.mem_map.1 hx
        exact ⟨g, hg, by omega⟩
      · rintro ⟨g, hg, h2⟩ h
        have h0 : (fs.map fun f => faceSize f / 2).sum = 0 := by omega
        have := this.1 h0 _ (List.mem_map.2 ⟨g, hg, rfl⟩)
        omega
  · simp [hp]

theorem le_sum_of_mem : ∀ {l : List Nat} {c : Nat}, c ∈ l → c ≤ l.sum
  | a :: l, c, h => by
    rw [List.sum_cons]
    rcases List.mem_cons.1 h with rfl | h
    · omega
    · have := le_sum_of_mem h; omega

/-- A polygon set with no holes. -/
theorem noHoles {P : GSet} {fs : List Face} (hf : FPoly.Repr P.polys fs) (hh : P.holes = []) : fs.length = P.counts.length := by
  have h1 : P.counts = toCounts fs := hf.1
  have h2 : P.holes = toHoles 0 fs := hf.2
  have h3 := FPoly.toHoles_length fs 0
  rw [← h2, hh] at h3
  rw [h1, FPoly.toCounts_length, ← h3]
  rfl

/-- The element of a polygon set. -/
def setElem (P : GSet) (k : Nat) (kids : List Node) : Node :=
  .elem (setName P) ((if P.material = [] then [] else [(text "material", P.material)]) ++ [(text "count", natText k)]) [] kids

theorem setElem_count (P : GSet) {k : Nat} (hk : k < 2 ^ 32) (kids : List Node) : countOf (setElem P k kids) = some k := by
  have : prop (setElem P k kids) (text "count") = some (natText k) := by
    unfold prop setElem
    simp only [Option.bind_some]
    by_cases hm : P.material = []
    · rw [if_pos hm, List.nil_append, raw_cons, if_pos rfl]
      exact decode_plain (natText_plain _)
    · rw [if_neg hm, List.singleton_append, raw_cons, if_neg (by rw [text_inj]; decide), raw_cons, if_pos rfl]
      exact decode_plain (natText_plain _)
  unfold countOf
  rw [this, Option.bind_some, readNat_natText _ hk]

theorem setElem_material (P : GSet) (hm : Plain P.material) (k : Nat) (kids : List Node) : prop (setElem P k kids) (text "material") = some P.material := by
  unfold prop setElem
  simp only [Option.bind_some]
  by_cases h : P.material = []
  · rw [if_pos h, List.nil_append, raw_cons, if_neg (by rw [text_inj]; decide)]
    rw [h]
    rfl
  · rw [if_neg h, List.singleton_append, raw_cons, if_pos rfl]
    exact decode_plain hm

theorem setElem_none (P : GSet) (k : Nat) {kids : List Node} (h : ∀ n ∈ kids, n.name ≠ text "vcount") : (setElem P k kids).child (text "vcount") = none := by
  unfold Node.child
  rw [List.find?_eq_none]
  intro n hn
  simpa using h n hn

theorem loadSet_ok (ov : Ov) {P : GSet} (hm : Plain P.material) {k : Nat} (hk : k < 2 ^ 32) {way : Way} (hw : wayOf P.prim (setName P) = some way) {ss : List GSource} {V : List Nat} {ins : List GInput} {kids rest : List Node}
    {st : HeadState} (hL : loadHead ov V kids ⟨ss, ins, [], false, FExtra.newExtra⟩ = some (st, rest)) (hv : st.hasVertex = true) (hr : rest ≠ []) {cs : List Nat}
    (hc : loadCounts st.sources way k (setElem P k kids) = some (.ok cs)) :
    loadSet ov ss V P.prim ins (setElem P k kids) = loadBody st rest ⟨P.prim, st.inputs, [], [], P.material, st.extra⟩ way k cs := by
  unfold loadSet
  rw [setElem_count P hk, Option.bind_some, show (setElem P k kids).name = setName P from name_elem .., hw]
  simp only
  rw [setElem_material P hm, Option.bind_some, show (setElem P k kids).kids = kids from rfl, hL, Option.bind_some]
  simp only
  rw [if_neg (by simp [hr, hv]), hc, Option.bind_some]

theorem loadSet_empty (ov : Ov) {P : GSet} (hm : Plain P.material) {k : Nat} (hk : k < 2 ^ 32) {way : Way} (hw : wayOf P.prim (setName P) = some way) {ss : List GSource} {V : List Nat} {ins : List GInput} {kids : List Node}
    {st : HeadState} (hL : loadHead ov V kids ⟨ss, ins, [], false, FExtra.newExtra⟩ = some (st, [])) :
    loadSet ov ss V P.prim ins (setElem P k kids) = some ⟨st.sources, ⟨P.prim, st.inputs, [], [], P.material, st.extra⟩, true, true⟩ := by
  unfold loadSet
  rw [setElem_count P hk, Option.bind_some, show (setElem P k kids).name = setName P from name_elem .., hw]
  simp only
  rw [setElem_material P hm, Option.bind_some, show (setElem P k kids).kids = kids from rfl, hL, Option.bind_some]
  simp only
  rw [if_pos (by simp)]

/-- The end of loading. -/
theorem loadBody_eq {st : HeadState} {rest : List Node} {P0 : GSet} {way : Way} {k k' : Nat} {cs : List Nat} {t : TessState} (ht : rest.foldlM (loadTess st.owners way) ⟨st.inputs, cs, [], st.owners.map fun o => o.map fun _ => [], st.extra⟩ = some t)
    (hk : loadedCount { P0 with inputs := t.inputs, counts := t.counts, holes := t.holes, extra := t.extra } = some k') :
    loadBody st rest P0 way k cs = some ⟨st.sources, { P0 with inputs := t.inputs, counts := t.counts, holes := t.holes, extra := t.extra }, true, decide (k ≠ k')⟩ := by
  unfold loadBody
  rw [ht, Option.bind_some]
  simp only
  rw [hk]
  rfl

theorem slices_none (owners : List (Option Nat)) (cols : Nat → List Nat) : (owners.map fun o => o.map fun _ => ([] : List Nat)) = slices owners cols 0 0 := by
  apply List.ext_getElem?
  intro k
  simp only [slices, List.getElem?_map, List.getElem?_mapIdx, List.take_zero]

theorem primOf_setName (P : GSet) : primOf (setName P) = some P.prim := by
  unfold setName
  cases P.prim <;> first | (unfold primOf; simp only [text_inj, String.reduceEq, if_false, if_true, or_self]; done) | skip
  simp only
  split
  · unfold primOf; simp
  · split <;> (unfold primOf; simp)

/-- The sum of counts that are all 3. -/
theorem threes {l : List Nat} (h : ∀ c ∈ l, c = 3) : List.replicate (l.sum / 3) 3 = l := by
  have e : l = List.replicate l.length 3 := List.eq_replicate_iff.2 ⟨rfl, h⟩
  rw [e]
  simp

end Verif.FArc
