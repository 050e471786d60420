import Verif.ArcPolyFaces
import Verif.ArcPolySpec

/-! # Lemmas for polygon sets: the inputs -/

namespace Verif.FArc

open Verif.FEff (Text text)
open Verif.FConv (Ov)
open Verif.Enum (GeometryInput)

theorem semanticOf_eq (t : GeometryInput) (h : t ≠ .unknown) : semanticOf (text t.toString) = t := by
  revert h
  cases t <;> first | (intro h; exact absurd rfl h) | (intro _; decide +kernel)

theorem intText_toSigned (n : Nat) (h : n < 2 ^ 31) : 0 ≤ toSigned n ∧ intText (toSigned n) = natText n := by
  have e : toSigned n = (n : Int) := if_pos h
  rw [e]
  refine ⟨by omega, ?_⟩
  unfold intText natText FBld.decimalInt
  rw [if_neg (by omega), Nat.mod_eq_of_lt (by omega)]
  rfl

theorem intText_ne_nil (i : Int) : intText i ≠ [] := (FConv.decimalInt_nonblank i).1

theorem natText_ne_nil (n : Nat) : natText n ≠ [] := FConv.decimal_ne_nil _

theorem semantic_plain (t : GeometryInput) : Plain (text t.toString) := by
  have h : ∀ c ∈ text t.toString, (1 ≤ c ∧ c ≤ 127) ∧ c ≠ 37 := by cases t <;> decide +kernel
  intro c hc
  obtain ⟨⟨h1, h2⟩, h3⟩ := h c hc
  exact ⟨⟨Int.le_trans (by decide) h1, h2, fun e => by subst e; exact absurd h1 (by decide)⟩, h3⟩

theorem semantic_ne_nil {t : GeometryInput} (h : t ≠ .unknown) : text t.toString ≠ [] := by
  cases t <;> first | (exact absurd rfl h) | decide +kernel

/-- What the attributes of an input element are read as. -/
theorem inputNode_props (ov : Ov) {id sem : Text} {offset : Nat} {set : Int} (hid : Plain id) (hne : id ≠ []) (hsem : Plain sem) (hs : sem ≠ []) (ho : offset < 2 ^ 31) (h1 : -1 ≤ set) (h2 : set + 48 < 2 ^ 31) :
    ∃ n, inputNode id sem (toSigned offset) set = [n] ∧ n.name = text "input" ∧ prop n (text "source") = some (35 :: id) ∧ prop n (text "offset") = some (natText offset) ∧
      readNat (natText offset) = some offset ∧
      ((prop n (text "set")).bind fun t => if t = [] then some (-1) else readInt ov t) = some set ∧ prop n (text "semantic") = some sem := by
  refine ⟨_, if_neg (by simp [hne, hs]), rfl, ?_, ?_, readNat_natText _ (by omega), ?_, ?_⟩
  · show decode (35 :: id) = _
    exact decode_plain (plain_cons ⟨⟨by decide, by decide, by decide⟩, by decide⟩ hid)
  · rw [if_pos (intText_toSigned offset ho).1, (intText_toSigned offset ho).2]
    unfold prop
    simp only [Option.bind_some]
    rw [List.append_assoc, List.cons_append, List.cons_append, List.nil_append, raw_cons, raw_cons, List.cons_append, raw_cons]
    simp only [text_inj, String.reduceEq, if_false, if_true]
    exact decode_plain (natText_plain _)
  · rw [if_pos (intText_toSigned offset ho).1]
    unfold prop
    simp only [Option.bind_some]
    rw [List.append_assoc, List.cons_append, List.cons_append, List.nil_append, raw_cons, raw_cons, List.cons_append, raw_cons]
    simp only [text_inj, String.reduceEq, if_false]
    by_cases hset : 0 ≤ set
    · rw [if_pos hset, List.nil_append, raw_cons, if_pos rfl]
      simp only
      rw [decode_plain (intText_plain _), Option.bind_some, if_neg (intText_ne_nil _), readInt_intText ov set (by omega)]
    · rw [if_neg hset]
      have : set = -1 := by omega
      subst this
      rfl
  · show decode sem = _
    exact decode_plain hsem

theorem findSource_eq {ss : List GSource} (hn : (ss.map GSource.id).Nodup) {s : Nat} {src : GSource} (h : ss[s]? = some src) (h35 : src.id.head? ≠ some 35) : findSource ss src.id = some s := by
  unfold findSource
  have e : stripHash src.id = src.id := by
    cases hi : src.id with
    | nil => rfl
    | cons c t => rw [hi] at h35; rw [stripHash, if_neg]; simpa using h35
  rw [e, List.findIdx?_eq_some_iff_getElem]
  obtain ⟨hlt, rfl⟩ := List.getElem?_eq_some_iff.1 h
  refine ⟨hlt, by simp, fun j hj => ?_⟩
  have := (List.nodup_iff_getElem?_ne_getElem?.1 hn) j s hj (by simpa using hlt)
  simp only [List.getElem?_map, List.getElem?_eq_getElem hlt, List.getElem?_eq_getElem (show j < ss.length by omega), Option.map_some, ne_eq, Option.some.injEq] at this
  simpa using this

theorem extend_get {α : Type} (l : List (Option α)) (n k : Nat) (a : α) : (extend l n)[k]? = some (some a) ↔ l[k]? = some (some a) := by
  unfold extend
  rcases Nat.lt_or_ge k l.length with h | h
  · rw [List.getElem?_append_left h]
  · rw [List.getElem?_append_right h, List.getElem?_eq_none h, List.getElem?_replicate]
    split <;> simp

theorem extend_length {α : Type} (l : List (Option α)) (n : Nat) : (extend l n).length = max l.length n := by
  simp [extend]; omega

theorem claim_length (os : List (Option Nat)) (o i : Nat) : (claimOffset os o i).length = os.length := by
  unfold claimOffset
  split <;> simp

/-- The owner of an offset is the first that claims it. -/
theorem claim_get (os : List (Option Nat)) {o i : Nat} (ho : o < os.length) (k j : Nat) :
    (claimOffset os o i)[k]? = some (some j) ↔ os[k]? = some (some j) ∨ (k = o ∧ j = i ∧ ∀ m, os[o]? ≠ some (some m)) := by
  unfold claimOffset
  have hj : (os[o]?).join = none ↔ ∀ m, os[o]? ≠ some (some m) := by
    rw [List.getElem?_eq_getElem ho]
    cases os[o] <;> simp
  split
  · rename_i h
    rw [hj] at h
    rw [List.getElem?_set]
    by_cases hk : o = k
    · subst hk
      rw [if_pos rfl, if_pos ho]
      constructor
      · intro e
        refine Or.inr ⟨rfl, ?_, h⟩
        simpa using e.symm
      · rintro (e | ⟨-, rfl, -⟩)
        · exact absurd e (h j)
        · rfl
    · rw [if_neg hk]
      constructor
      · exact Or.inl
      · rintro (e | ⟨e, -⟩)
        · exact e
        · exact absurd e.symm hk
  · rename_i h
    rw [hj] at h
    constructor
    · exact Or.inl
    · rintro (e | ⟨-, -, e⟩)
      · exact e
      · exact absurd e h

theorem findInput_vertex {V : List Nat} {s : Nat} (hs : s ∈ V) (rest : List GInput) : ∃ i, findInput (vertexInputs V ++ rest) s = some i ∧ (vertexInputs V ++ rest)[i]? = some (newInput s 0) := by
  unfold findInput
  rw [List.findIdx?_append]
  cases hf : (vertexInputs V).findIdx? (fun x => decide (x.source = some s)) with
  | none =>
    rw [List.findIdx?_eq_none_iff] at hf
    have := hf (newInput s 0) (List.mem_map.2 ⟨s, hs, rfl⟩)
    simp [newInput] at this
  | some i =>
    obtain ⟨hi, hp, -⟩ := List.findIdx?_eq_some_iff_getElem.1 hf
    refine ⟨i, rfl, ?_⟩
    rw [List.getElem?_append_left hi, List.getElem?_eq_getElem hi]
    simp only [vertexInputs, List.getElem_map, newInput, decide_eq_true_eq, Option.some.injEq] at hp ⊢
    simp [hp]

theorem modify_same {α : Type} {l : List α} {i : Nat} {f : α → α} (h : ∀ x, l[i]? = some x → f x = x) : l.modify i f = l := by
  apply List.ext_getElem?
  intro j
  rw [List.getElem?_modify]
  by_cases hij : i = j
  · subst hij
    cases hx : l[i]? with
    | none => rfl
    | some x => simp [h x hx]
  · cases hx : l[j]? <;> simp [hij]

/-- The loop over the per-vertex sources leaves the inputs, and gives the offset 0 an owner. -/
theorem vertex_loop {V : List Nat} {rest : List GInput} : ∀ (W : List Nat) (os : List (Option Nat)), (∀ s ∈ W, s ∈ V) → 0 < os.length → OwnInv (vertexInputs V ++ rest) os →
    ∃ os', W.foldl (loadVertexInput 0 (-1)) (vertexInputs V ++ rest, os) = (vertexInputs V ++ rest, os') ∧ os'.length = os.length ∧ OwnInv (vertexInputs V ++ rest) os' ∧
      (∀ k j : Nat, os[k]? = some (some j) → os'[k]? = some (some j)) ∧ (∀ k j : Nat, os'[k]? = some (some j) → os[k]? = some (some j) ∨ k = 0) ∧ (W ≠ [] → ∃ i, os'[0]? = some (some i))
  | [], os, _, _, hi => ⟨os, rfl, rfl, hi, fun _ _ h => h, fun _ _ h => Or.inl h, fun h => absurd rfl h⟩
  | s :: W, os, hW, h0, hi => by
    obtain ⟨i, hf, hx⟩ := findInput_vertex (hW s (by simp)) rest
    have hstep : loadVertexInput 0 (-1) (vertexInputs V ++ rest, os) s = (vertexInputs V ++ rest, claimOffset os 0 i) := by
      unfold loadVertexInput
      simp only [hf, Option.isSome_some, if_true, Option.getD_some]
      rw [modify_same]
      intro x hx'
      rw [hx] at hx'
      obtain rfl := Option.some.inj hx'
      rfl
    have hinv : OwnInv (vertexInputs V ++ rest) (claimOffset os 0 i) := by
      intro k j hkj
      rcases (claim_get os h0 k j).1 hkj with h | ⟨rfl, rfl, -⟩
      · exact hi k j h
      · exact ⟨_, hx, rfl⟩
    obtain ⟨os', h1, h2, h3, h4, h5, h6⟩ := vertex_loop W (claimOffset os 0 i) (fun x hx => hW x (by simp [hx])) (by rw [claim_length]; exact h0) hinv
    refine ⟨os', by rw [List.foldl_cons, hstep, h1], by rw [h2, claim_length], h3, fun k j h => h4 k j ((claim_get os h0 k j).2 (Or.inl h)), fun k j h => ?_, fun _ => ?_⟩
    · rcases h5 k j h with h | h
      · rcases (claim_get os h0 k j).1 h with h | h
        · exact Or.inl h
        · exact Or.inr h.1
      · exact Or.inr h
    · by_cases he : ∃ m, os[0]? = some (some m)
      · obtain ⟨m, hm⟩ := he
        exact ⟨m, h4 0 m ((claim_get os h0 0 m).2 (Or.inl hm))⟩
      · exact ⟨i, h4 0 i ((claim_get os h0 0 i).2 (Or.inr ⟨rfl, rfl, fun m hm => he ⟨m, hm⟩⟩))⟩

/-- The number of offsets in use. -/
def span : List GInput → Nat
  | [] => 0
  | x :: xs => max (x.offset + 1) (span xs)

theorem span_append (xs : List GInput) (x : GInput) : span (xs ++ [x]) = max (span xs) (x.offset + 1) := by
  induction xs with
  | nil => simp [span]
  | cons y xs ih => simp only [List.cons_append, span, ih]; omega

theorem span_mem {xs : List GInput} {x : GInput} (h : x ∈ xs) : x.offset < span xs := by
  induction xs with
  | nil => simp at h
  | cons y xs ih =>
    rcases List.mem_cons.1 h with rfl | h
    · simp only [span]; omega
    · have := ih h; simp only [span]; omega

/-- The input without its indices. -/
def cleared (x : GInput) : GInput := { x with indices := [] }

/-- The state after reading the inputs written for `done`. -/
structure HeadInv (M : GMesh) (ss : List GSource) (e : FExtra.Extra) (done : List GInput) (st : HeadState) : Prop where
  inputs : st.inputs = vertexInputs M.vertex ++ (done.filter fun x => !perVertex M x.source).map cleared
  sources : st.sources = typed M done ss
  own : OwnInv st.inputs st.owners
  cover : ∀ x ∈ done, ∃ i, st.owners[x.offset]? = some (some i)
  owned : ∀ k i : Nat, st.owners[k]? = some (some i) → ∃ x ∈ done, x.offset = k
  length : st.owners.length = span done
  vertex : st.hasVertex = done.any fun x => perVertex M x.source
  extra : st.extra = e

theorem typed_same {M : GMesh} {done : List GInput} {x : GInput} (ss : List GSource) (h : perVertex M x.source = true) : typed M (done ++ [x]) ss = typed M done ss := by
  unfold typed
  congr 1
  funext s src
  simp [h]

theorem typed_snoc {M : GMesh} {done : List GInput} {x : GInput} {ss : List GSource} {s : Nat} {src : GSource} (h : perVertex M x.source = false) (hs : x.source = some s) (hm : M.sources[s]? = some src) :
    typed M (done ++ [x]) ss = setType (typed M done ss) s src.type := by
  unfold typed setType
  apply List.ext_getElem?
  intro j
  rw [List.getElem?_modify, List.getElem?_mapIdx, List.getElem?_mapIdx]
  cases hj : ss[j]? with
  | none => rfl
  | some y =>
    simp only [Option.map_some, Option.map_eq_map, List.any_append, List.any_cons, List.any_nil, Bool.or_false, hs]
    rw [hs] at h
    by_cases hsj : s = j
    · subst hsj
      simp only [h, hm]
      simp
      split <;> exact ⟨rfl, rfl, rfl, rfl, rfl⟩
    · simp [hsj]

theorem typed_ids (M : GMesh) (done : List GInput) (ss : List GSource) : (typed M done ss).map GSource.id = ss.map GSource.id := by
  apply List.ext_getElem?
  intro j
  simp only [typed, List.getElem?_map, List.getElem?_mapIdx, Option.map_map]
  cases ss[j]? with
  | none => rfl
  | some y => simp only [Option.map_some, Function.comp]; split <;> rfl

theorem typed_nil (M : GMesh) (ss : List GSource) : typed M [] ss = ss := by
  apply List.ext_getElem?
  intro j
  simp only [typed, List.getElem?_mapIdx, List.any_nil]
  cases ss[j]? <;> rfl

theorem headInv_nil (M : GMesh) (ss : List GSource) (e : FExtra.Extra) : HeadInv M ss e [] ⟨ss, vertexInputs M.vertex, [], false, e⟩ :=
  ⟨by simp, (typed_nil M ss).symm, fun k j h => by simp at h, fun x hx => by simp at hx, fun k i h => by simp at h, rfl, rfl, rfl⟩

/-- Reading an input with a known source. -/
theorem loadInput_other (ov : Ov) {V : List Nat} {st : HeadState} {n : Node} {id : Text} {t : GeometryInput} {offset s : Nat} {set : Int} (h0 : t ≠ .unknown) (h1 : t ≠ .vertex)
    (hsrc : prop n (text "source") = some (35 :: id)) (hoff : prop n (text "offset") = some (natText offset)) (hr : readNat (natText offset) = some offset)
    (hset : ((prop n (text "set")).bind fun t => if t = [] then some (-1) else readInt ov t) = some set) (hsem : prop n (text "semantic") = some (text t.toString)) (hf : findSource st.sources id = some s) :
    loadInput ov V n st = some { st with sources := setType st.sources s t, inputs := st.inputs ++ [{ newInput s offset with set := set }], owners := claimOffset (extend st.owners (offset + 1)) offset st.inputs.length } := by
  unfold loadInput
  rw [hsrc, Option.bind_some, hoff, Option.bind_some, if_neg (natText_ne_nil _), hr, Option.bind_some]
  cases hp : prop n (text "set") with
  | none => rw [hp] at hset; exact absurd hset (by simp)
  | some tx =>
    rw [hp, Option.bind_some] at hset
    rw [Option.bind_some, hset, Option.bind_some, hsem, Option.bind_some, semanticOf_eq t h0]
    have hf' : findSource st.sources (stripHash (35 :: id)) = some s := by rw [stripHash, if_pos rfl]; exact hf
    cases t <;> first | exact absurd rfl h0 | exact absurd rfl h1 | (simp only; rw [hf'])

/-- Reading the first input with vertices. -/
theorem loadInput_vertex (ov : Ov) {V : List Nat} {st : HeadState} {n : Node} {id : Text} {offset : Nat} {set : Int}
    (hsrc : prop n (text "source") = some (35 :: id)) (hoff : prop n (text "offset") = some (natText offset)) (hr : readNat (natText offset) = some offset)
    (hset : ((prop n (text "set")).bind fun t => if t = [] then some (-1) else readInt ov t) = some set) (hsem : prop n (text "semantic") = some (text "VERTEX")) (hv : st.hasVertex = false) :
    loadInput ov V n st = some { st with inputs := (V.foldl (loadVertexInput offset set) (st.inputs, extend st.owners (offset + 1))).1,
                                         owners := (V.foldl (loadVertexInput offset set) (st.inputs, extend st.owners (offset + 1))).2, hasVertex := true } := by
  unfold loadInput
  rw [hsrc, Option.bind_some, hoff, Option.bind_some, if_neg (natText_ne_nil _), hr, Option.bind_some]
  cases hp : prop n (text "set") with
  | none => rw [hp] at hset; exact absurd hset (by simp)
  | some tx =>
    rw [hp, Option.bind_some] at hset
    rw [Option.bind_some, hset, Option.bind_some, hsem, Option.bind_some, show text "VERTEX" = text (GeometryInput.toString .vertex) from rfl, semanticOf_eq .vertex (by decide)]
    simp only [hv, if_neg (show ¬ (false = true) by decide)]

theorem loadHead_input (ov : Ov) (V : List Nat) {n : Node} (hn : n.name = text "input") (ns : List Node) (st : HeadState) : loadHead ov V (n :: ns) st = (loadInput ov V n st).bind (loadHead ov V ns) := by
  rw [loadHead, if_pos hn]

/-- Reading the inputs that were written. -/
theorem loadHead_inputs (ov : Ov) {M : GMesh} (hM : GoodSources M) {ss : List GSource} (hids : ss.map GSource.id = M.sources.map GSource.id) {e : FExtra.Extra} : ∀ (xs done : List GInput) (st : HeadState),
    (∀ x ∈ xs, perVertex M x.source = true → x.offset = 0) → (∀ x ∈ done, perVertex M x.source = true → x.offset = 0) →
    (∀ x ∈ xs, perVertex M x.source = false → GoodInput M x) → HeadInv M ss e done st →
    ∃ st', (∀ rest, loadHead ov M.vertex (writeInputs M (done.any fun x => perVertex M x.source) xs ++ rest) st = loadHead ov M.vertex rest st') ∧ HeadInv M ss e (done ++ xs) st'
  | [], done, st, _, _, _, hi => ⟨st, fun _ => rfl, by rw [List.append_nil]; exact hi⟩
  | x :: xs, done, st, h0, hd, ho, hi => by
    cases hpv : perVertex M x.source with
    | true =>
      obtain ⟨s, hs, hmem⟩ : ∃ s, x.source = some s ∧ s ∈ M.vertex := by
        cases hs : x.source with
        | none => rw [hs] at hpv; exact absurd hpv (by simp [perVertex])
        | some s => rw [hs] at hpv; exact ⟨s, rfl, by simpa [perVertex] using hpv⟩
      have hx0 := h0 x (by simp) hpv
      have hany : (done ++ [x]).any (fun x => perVertex M x.source) = true := by simp [hpv]
      have hd' : ∀ y ∈ done ++ [x], perVertex M y.source = true → y.offset = 0 := by
        intro y hy
        rcases List.mem_append.1 hy with hy | hy
        · exact hd y hy
        · rw [List.mem_singleton.1 hy]; exact fun _ => hx0
      have hw : writeInputs M (done.any fun x => perVertex M x.source) (x :: xs) =
          (if (done.any fun x => perVertex M x.source) then [] else inputNode (M.id ++ text "-vertices") (text "VERTEX") (toSigned x.offset) (-1)) ++ writeInputs M true xs := by
        rw [writeInputs, hs]; exact if_pos hmem
      rw [hw]
      have step : ∃ st1, (∀ r, loadHead ov M.vertex ((if (done.any fun x => perVertex M x.source) then [] else inputNode (M.id ++ text "-vertices") (text "VERTEX") (toSigned x.offset) (-1)) ++ r) st = loadHead ov M.vertex r st1) ∧
          HeadInv M ss e (done ++ [x]) st1 := by
        cases hf : done.any fun x => perVertex M x.source with
        | true =>
          obtain ⟨y, hy, hyp⟩ := List.any_eq_true.1 hf
          have hc0 := hi.cover y hy
          rw [hd y hy hyp] at hc0
          have hsp := span_mem hy
          refine ⟨st, fun r => rfl, ⟨?_, ?_, hi.own, ?_, ?_, ?_, ?_, hi.extra⟩⟩
          · rw [hi.inputs]; simp [hpv]
          · rw [hi.sources, typed_same ss hpv]
          · intro z hz
            rcases List.mem_append.1 hz with hz | hz
            · exact hi.cover z hz
            · rw [List.mem_singleton.1 hz, hx0]; exact hc0
          · intro k i hk
            obtain ⟨z, hz, hzk⟩ := hi.owned k i hk
            exact ⟨z, by simp [hz], hzk⟩
          · rw [hi.length, span_append, hx0]; omega
          · rw [hi.vertex, hf, hany]
        | false =>
          obtain ⟨n, hn, hname, hsrc, hoff, hr, hset, hsem⟩ := inputNode_props ov (id := M.id ++ text "-vertices") (sem := text "VERTEX") (offset := x.offset) (set := -1)
            (plain_append hM.plain (by
              have h : ∀ c ∈ text "-vertices", (1 ≤ c ∧ c ≤ 127) ∧ c ≠ 37 := by decide +kernel
              intro c hc
              obtain ⟨⟨h1, h2⟩, h3⟩ := h c hc
              exact ⟨⟨Int.le_trans (by decide) h1, h2, fun e => by subst e; exact absurd h1 (by decide)⟩, h3⟩))
            (by simp only [ne_eq, List.append_eq_nil_iff, not_and]; exact fun _ => by decide +kernel) (semantic_plain .vertex) (semantic_ne_nil (t := .vertex) (by decide)) (by omega) (by omega) (by omega)
          rw [if_neg (by simp), hn]
          have hL := loadInput_vertex ov (V := M.vertex) hsrc hoff hr hset hsem (st := st) (by rw [hi.vertex, hf])
          have hexl : (extend st.owners (x.offset + 1)).length = max (span done) (x.offset + 1) := by rw [extend_length, hi.length]
          have hexi : OwnInv st.inputs (extend st.owners (x.offset + 1)) := fun k j hk => hi.own k j ((extend_get _ _ _ _).1 hk)
          have hin := hi.inputs
          rw [hx0] at hL hexl hexi
          rw [hin] at hL hexi
          obtain ⟨os', h1, h2, h3, h4, h5, h6⟩ := vertex_loop (V := M.vertex) (rest := (done.filter fun x => !perVertex M x.source).map cleared) M.vertex (extend st.owners (0 + 1)) (fun _ h => h) (by rw [hexl]; omega) hexi
          rw [h1] at hL
          refine ⟨⟨st.sources, vertexInputs M.vertex ++ (done.filter fun x => !perVertex M x.source).map cleared, os', true, st.extra⟩, fun r => by rw [List.singleton_append, loadHead_input ov _ hname, hL, Option.bind_some], ⟨?_, ?_, h3, ?_, ?_, ?_, ?_, hi.extra⟩⟩
          · simp [hpv]
          · show st.sources = _
            rw [hi.sources, typed_same ss hpv]
          · intro z hz
            rcases List.mem_append.1 hz with hz | hz
            · obtain ⟨i, hzi⟩ := hi.cover z hz
              exact ⟨i, h4 _ _ ((extend_get _ _ _ _).2 hzi)⟩
            · rw [List.mem_singleton.1 hz, hx0]; exact h6 hM.some
          · intro k i hk
            rcases h5 k i hk with hk | rfl
            · obtain ⟨z, hz, hzk⟩ := hi.owned k i ((extend_get _ _ _ _).1 hk)
              exact ⟨z, by simp [hz], hzk⟩
            · exact ⟨x, by simp, hx0⟩
          · show os'.length = _
            rw [h2, hexl, span_append, hx0]
          · exact hany.symm
      obtain ⟨st1, hst1, hinv1⟩ := step
      obtain ⟨st', h1, h2⟩ := loadHead_inputs ov hM hids xs (done ++ [x]) st1 (fun y hy => h0 y (by simp [hy])) hd' (fun y hy => ho y (by simp [hy])) hinv1
      rw [hany] at h1
      refine ⟨st', fun rest => ?_, by simpa using h2⟩
      rw [List.append_assoc, hst1, h1]
    | false =>
      obtain ⟨s, src, hs, hsrc0, ht0, ht1, hne, h35, hpl, hs1, hs2, hof⟩ := ho x (by simp) hpv
      have hmem : s ∉ M.vertex := by rw [hs] at hpv; simpa [perVertex] using hpv
      have hany : (done ++ [x]).any (fun x => perVertex M x.source) = done.any fun x => perVertex M x.source := by simp [hpv]
      have hd' : ∀ y ∈ done ++ [x], perVertex M y.source = true → y.offset = 0 := by
        intro y hy
        rcases List.mem_append.1 hy with hy | hy
        · exact hd y hy
        · rw [List.mem_singleton.1 hy, hpv]; exact fun h => absurd h (by decide)
      obtain ⟨n, hn, hname, hsrc, hoff, hr, hset, hsem⟩ := inputNode_props ov (id := src.id) (sem := text src.type.toString) (offset := x.offset) (set := x.set) hpl hne (semantic_plain _) (semantic_ne_nil ht0) hof hs1 hs2
      have hw : writeInputs M (done.any fun x => perVertex M x.source) (x :: xs) = n :: writeInputs M ((done ++ [x]).any fun x => perVertex M x.source) xs := by
        rw [writeInputs, hs, hany]
        simp only
        rw [if_neg hmem, show M.source s = some src from hsrc0]
        simp only
        rw [hn]
        rfl
      obtain ⟨src', hsrc', hid'⟩ : ∃ src', st.sources[s]? = some src' ∧ src'.id = src.id := by
        have h1 : (st.sources.map GSource.id)[s]? = some src.id := by
          rw [hi.sources, typed_ids, hids, List.getElem?_map, hsrc0]; rfl
        rw [List.getElem?_map, Option.map_eq_some_iff] at h1
        exact h1
      have hf : findSource st.sources src.id = some s := by
        rw [← hid']
        exact findSource_eq (by rw [hi.sources, typed_ids, hids]; exact hM.ids) hsrc' (by rw [hid']; exact h35)
      have hL := loadInput_other ov (V := M.vertex) ht0 ht1 hsrc hoff hr hset hsem hf
      have hlt : x.offset < (extend st.owners (x.offset + 1)).length := by rw [extend_length]; omega
      have hcl : ({ newInput s x.offset with set := x.set } : GInput) = cleared x := by
        obtain ⟨a, b, c, d⟩ := x
        simp only at hs
        subst hs
        rfl
      have hinv1 : HeadInv M ss e (done ++ [x]) { st with sources := setType st.sources s src.type, inputs := st.inputs ++ [{ newInput s x.offset with set := x.set }], owners := claimOffset (extend st.owners (x.offset + 1)) x.offset st.inputs.length } := by
        refine ⟨?_, ?_, ?_, ?_, ?_, ?_, ?_, hi.extra⟩
        · simp only
          rw [hi.inputs, hcl]
          simp [hpv]
        · simp only
          rw [hi.sources, typed_snoc hpv hs hsrc0]
        · intro k j hk
          simp only at hk ⊢
          rcases (claim_get _ hlt k j).1 hk with hk | ⟨rfl, rfl, -⟩
          · obtain ⟨y, hy, hyk⟩ := hi.own k j ((extend_get _ _ _ _).1 hk)
            exact ⟨y, by rw [List.getElem?_append_left (List.getElem?_eq_some_iff.1 hy).1]; exact hy, hyk⟩
          · exact ⟨cleared x, by rw [hcl]; simp, rfl⟩
        · intro z hz
          simp only
          rcases List.mem_append.1 hz with hz | hz
          · obtain ⟨i, hzi⟩ := hi.cover z hz
            exact ⟨i, (claim_get _ hlt _ _).2 (Or.inl ((extend_get _ _ _ _).2 hzi))⟩
          · rw [List.mem_singleton.1 hz]
            by_cases hex : ∃ m, (extend st.owners (x.offset + 1))[x.offset]? = some (some m)
            · obtain ⟨m, hm⟩ := hex
              exact ⟨m, (claim_get _ hlt _ _).2 (Or.inl hm)⟩
            · exact ⟨_, (claim_get _ hlt _ _).2 (Or.inr ⟨rfl, rfl, fun m hm => hex ⟨m, hm⟩⟩)⟩
        · intro k i hk
          simp only at hk
          rcases (claim_get _ hlt k i).1 hk with hk | ⟨rfl, -, -⟩
          · obtain ⟨z, hz, hzk⟩ := hi.owned k i ((extend_get _ _ _ _).1 hk)
            exact ⟨z, by simp [hz], hzk⟩
          · exact ⟨x, by simp, rfl⟩
        · simp only
          rw [claim_length, extend_length, hi.length, span_append]
        · simp only
          rw [hi.vertex, hany]
      obtain ⟨st', h1, h2⟩ := loadHead_inputs ov hM hids xs (done ++ [x]) _ (fun y hy => h0 y (by simp [hy])) hd' (fun y hy => ho y (by simp [hy])) hinv1
      refine ⟨st', fun rest => ?_, by simpa using h2⟩
      rw [hw, List.cons_append, loadHead_input ov _ hname, hL, Option.bind_some, h1]

end Verif.FArc
