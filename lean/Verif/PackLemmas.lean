import Verif.PackSpec
import Verif.UnifyLemmas

/-!
# Vertex packing: lemmas
-/

namespace Verif.FPack

open Verif.FUnify (TMap Source eraseDups_snoc mem_eraseDups' nodup_eraseDups)

/-! ## The packing map -/

theorem distinct_snoc (l : List Nat) (v : Nat) : distinct (l ++ [v]) = if v ∈ l then distinct l else distinct l + 1 := by
  unfold distinct
  rw [eraseDups_snoc]
  split <;> simp

theorem distinct_le (l : List Nat) : distinct l ≤ l.length := by
  induction l using List.reverseRecOn with
  | nil => simp [distinct]
  | append_singleton l v ih =>
    rw [distinct_snoc]
    split <;> simp <;> omega

theorem number_snoc (l : List Nat) (v u : Nat) (hu : u ∈ l ∨ u = v) : number (l ++ [v]) u = if u ∈ l then number l u else distinct l := by
  unfold number distinct
  rw [eraseDups_snoc]
  by_cases h : u ∈ l
  · rw [if_pos h]
    split
    · rfl
    · rw [List.idxOf_append, if_pos ((mem_eraseDups' l u).2 h)]
  · obtain rfl : u = v := by tauto
    rw [if_neg h, if_neg h, List.idxOf_append, if_neg (fun hc => h ((mem_eraseDups' l u).1 hc))]
    simp

theorem number_lt {l : List Nat} {v : Nat} (h : v ∈ l) : number l v < distinct l := List.idxOf_lt_length_of_mem ((mem_eraseDups' l v).2 h)

/-- The state after the indices `l`. -/
structure Inv (maxIndex : Nat) (l : List Nat) (s : Packed) : Prop where
  nI : s.nIndices = l.length
  nV : s.nVertices = distinct l
  len : s.map.length = maxIndex + 1
  map : ∀ v, v ≤ maxIndex → s.map[v]? = some (if v ∈ l then number l v else invalid)
  out : s.out = l.map (number l)

theorem map_number_snoc (l : List Nat) (v : Nat) : l.map (number (l ++ [v])) = l.map (number l) :=
  List.map_congr_left fun u hu => by rw [number_snoc l v u (.inl hu), if_pos hu]

theorem inv_new {maxIndex : Nat} {l : List Nat} {s : Packed} (h : Inv maxIndex l s) {v : Nat} (hv : v ≤ maxIndex) (hn : v ∉ l) :
    Inv maxIndex (l ++ [v]) ⟨s.nIndices + 1, s.nVertices + 1, s.map.set v s.nVertices, s.out ++ [s.nVertices]⟩ where
  nI := by simp [h.nI]
  nV := by rw [distinct_snoc, if_neg hn, h.nV]
  len := by simp [h.len]
  map := by
    intro u hu
    by_cases e : u = v
    · subst e
      rw [List.getElem?_set_self (by rw [h.len]; omega), if_pos (by simp), number_snoc l u u (.inr rfl), if_neg hn, h.nV]
    · rw [List.getElem?_set_ne (fun h => e h.symm), h.map u hu]
      by_cases hm : u ∈ l
      · rw [if_pos hm, if_pos (by simp [hm]), number_snoc l v u (.inl hm), if_pos hm]
      · rw [if_neg hm, if_neg (by simp [hm, e])]
  out := by
    rw [List.map_append, map_number_snoc, h.out, List.map_singleton, number_snoc l v v (.inr rfl), if_neg hn, h.nV]

theorem inv_old {maxIndex : Nat} {l : List Nat} {s : Packed} (h : Inv maxIndex l s) {v : Nat} (hn : v ∈ l) :
    Inv maxIndex (l ++ [v]) ⟨s.nIndices + 1, s.nVertices, s.map, s.out ++ [number l v]⟩ where
  nI := by simp [h.nI]
  nV := by rw [distinct_snoc, if_pos hn, h.nV]
  len := h.len
  map := by
    intro u hu
    rw [h.map u hu]
    by_cases hm : u ∈ l
    · rw [if_pos hm, if_pos (by simp [hm]), number_snoc l v u (.inl hm), if_pos hm]
    · have e : u ≠ v := by rintro rfl; exact hm hn
      rw [if_neg hm, if_neg (by simp [hm, e])]
  out := by
    rw [List.map_append, map_number_snoc, h.out, List.map_singleton, number_snoc l v v (.inr rfl), if_pos hn]

theorem packLoop_stop (maxV : Nat) (ins : List Nat) (maxI : Nat) (s : Packed) (h : maxI ≤ s.nIndices) : packLoop maxV ins maxI s = some s := by
  cases ins <;> rw [packLoop, if_neg (by omega)]

theorem packLoop_ok {maxIndex maxV m : Nat} (hm : m < invalid) : ∀ (ins l : List Nat) (s : Packed), Inv maxIndex l s → (∀ v ∈ ins, v ≤ maxIndex) →
    l.length ≤ m → m ≤ l.length + ins.length → (∀ k, 1 ≤ k → k ≤ l.length → distinct (l.take k) < maxV) →
    ∃ n s', packLoop maxV ins m s = some s' ∧ l.length ≤ n ∧ n ≤ m ∧ Inv maxIndex ((l ++ ins).take n) s' ∧
      (∀ k, 1 ≤ k → k < n → distinct ((l ++ ins).take k) < maxV) ∧ (n = m ∨ 1 ≤ n ∧ maxV ≤ distinct ((l ++ ins).take n)) := by
  intro ins
  induction ins with
  | nil =>
    intro l s h _ h1 h2 h3
    have e : l.length = m := by simp at h2; omega
    refine ⟨m, s, packLoop_stop _ _ _ _ (by rw [h.nI]; omega), by omega, le_refl _, ?_, ?_, .inl rfl⟩
    · rw [List.append_nil, ← e, List.take_length]; exact h
    · intro k hk1 hk2
      rw [List.append_nil]
      exact h3 k hk1 (by omega)
  | cons v ins ih =>
    intro l s h hv h1 h2 h3
    have hv' := hv v (by simp)
    by_cases e : l.length = m
    · refine ⟨m, s, packLoop_stop _ _ _ _ (by rw [h.nI]; omega), by omega, le_refl _, ?_, ?_, .inl rfl⟩
      · rw [← e, List.take_left]; exact h
      · intro k hk1 hk2
        rw [List.take_append_of_le_length (by omega)]
        exact h3 k hk1 (by omega)
    have hlt : s.nIndices < m := by rw [h.nI]; omega
    have happ : l ++ v :: ins = (l ++ [v]) ++ ins := by simp
    have hlen : (l ++ [v]).length = l.length + 1 := by simp
    rw [packLoop, if_pos hlt, h.map v hv', Option.bind_some]
    by_cases hn : v ∈ l
    · have hne : number l v ≠ invalid := by
        have h1 := number_lt hn
        have h2 := distinct_le l
        omega
      rw [if_pos hn, if_neg hne]
      have hd : ∀ k, 1 ≤ k → k ≤ (l ++ [v]).length → distinct ((l ++ [v]).take k) < maxV := by
        intro k hk1 hk2
        rw [hlen] at hk2
        by_cases hk : k ≤ l.length
        · rw [List.take_append_of_le_length hk]
          exact h3 k hk1 hk
        · rw [List.take_of_length_le (by rw [hlen]; omega), distinct_snoc, if_pos hn]
          have := h3 l.length (List.length_pos_of_mem hn) (le_refl _)
          rwa [List.take_length] at this
      obtain ⟨n, s', e1, e2, e3, e4, e5, e6⟩ := ih (l ++ [v]) _ (inv_old h hn) (fun u hu => hv u (by simp [hu])) (by rw [hlen]; omega)
        (by rw [hlen]; simp at h2; omega) hd
      rw [← happ] at e4 e5 e6
      exact ⟨n, s', e1, by omega, e3, e4, e5, e6⟩
    · rw [if_neg hn, if_pos rfl]
      by_cases hV : s.nVertices + 1 ≥ maxV
      · rw [if_pos hV, packLoop_stop _ _ _ _ (by simp)]
        have htake : (l ++ v :: ins).take (l.length + 1) = l ++ [v] := by
          rw [happ, ← hlen, List.take_left]
        refine ⟨l.length + 1, _, rfl, by omega, by omega, by rw [htake]; exact inv_new h hv' hn, ?_, .inr ⟨by omega, ?_⟩⟩
        · intro k hk1 hk2
          rw [List.take_append_of_le_length (by omega)]
          exact h3 k hk1 (by omega)
        · rw [htake, distinct_snoc, if_neg hn, ← h.nV]
          exact hV
      · rw [if_neg hV]
        have hd : ∀ k, 1 ≤ k → k ≤ (l ++ [v]).length → distinct ((l ++ [v]).take k) < maxV := by
          intro k hk1 hk2
          rw [hlen] at hk2
          by_cases hk : k ≤ l.length
          · rw [List.take_append_of_le_length hk]
            exact h3 k hk1 hk
          · rw [List.take_of_length_le (by rw [hlen]; omega), distinct_snoc, if_neg hn, ← h.nV]
            omega
        obtain ⟨n, s', e1, e2, e3, e4, e5, e6⟩ := ih (l ++ [v]) _ (inv_new h hv' hn) (fun u hu => hv u (by simp [hu])) (by rw [hlen]; omega)
          (by rw [hlen]; simp at h2; omega) hd
        rw [← happ] at e4 e5 e6
        exact ⟨n, s', e1, by omega, e3, e4, e5, e6⟩

/-! ## Packing -/

theorem writeRow_some {α : Type} : ∀ (vals row : List α), vals.length ≤ row.length → writeRow some vals row = some (vals ++ row.drop vals.length) := by
  intro vals
  induction vals with
  | nil => intro row _; simp [writeRow]
  | cons v vals ih =>
    intro row h
    cases row with
    | nil => simp at h
    | cons r row =>
      rw [writeRow, Option.bind_some, ih row (by simpa using h)]
      simp

/-- What is written for the old index `o`. -/
def newRow {α : Type} (src : Source α) (vCount o : Nat) (row : List α) : List α := (src.data.drop (src.stride * o)).take vCount ++ row.drop vCount

theorem packNew_ok {α : Type} {src : Source α} {vCount : Nat} {map : List Nat} {o : Nat} : ∀ {news : List Nat} {dest : List (List α)},
    (∀ v ∈ news, ∃ k, map[v]? = some k ∧ (k ≠ invalid → src.stride * o + vCount ≤ src.data.length ∧ k < dest.length)) → (∀ row ∈ dest, vCount ≤ row.length) →
    ∃ dest', packNew some src vCount map o news dest = some dest' ∧ dest'.length = dest.length ∧
      ∀ k row, dest[k]? = some row → ∃ row', dest'[k]? = some row' ∧ row'.drop vCount = row.drop vCount ∧ vCount ≤ row'.length ∧
        ((∃ v ∈ news, map[v]? = some k ∧ k ≠ invalid) → row' = newRow src vCount o row) ∧ ((¬ ∃ v ∈ news, map[v]? = some k ∧ k ≠ invalid) → row' = row) := by
  intro news
  induction news with
  | nil =>
    intro dest _ hrow
    refine ⟨dest, rfl, rfl, fun k row hk => ⟨row, hk, rfl, hrow row (List.mem_of_getElem? hk), by simp, by simp⟩⟩
  | cons v news ih =>
    intro dest h hrow
    obtain ⟨k0, hk0, hb⟩ := h v (by simp)
    rw [packNew, hk0, Option.bind_some]
    by_cases e : k0 = invalid
    · rw [if_pos e]
      obtain ⟨dest', h1, h2, h3⟩ := ih (fun u hu => h u (by simp [hu])) hrow
      refine ⟨dest', h1, h2, fun k row hk => ?_⟩
      obtain ⟨row', r1, r2, r3, r4, r5⟩ := h3 k row hk
      have hiff : (∃ u ∈ v :: news, map[u]? = some k ∧ k ≠ invalid) ↔ ∃ u ∈ news, map[u]? = some k ∧ k ≠ invalid := by
        simp only [List.mem_cons, exists_eq_or_imp]
        constructor
        · rintro (⟨h1, h2⟩ | h)
          · rw [hk0] at h1
            exact absurd (Option.some.inj h1 ▸ e) h2
          · exact h
        · exact .inr
      rw [hiff]
      exact ⟨row', r1, r2, r3, r4, r5⟩
    · obtain ⟨hs, hk⟩ := hb e
      rw [if_neg e, if_pos hs, List.getElem?_eq_getElem hk, Option.bind_some]
      have hl : ((src.data.drop (src.stride * o)).take vCount).length = vCount := by simp; omega
      have hr0 := hrow _ (List.getElem_mem hk)
      rw [writeRow_some _ _ (by rw [hl]; exact hr0), Option.bind_some, hl]
      have hnewlen : ∀ row : List α, vCount ≤ (newRow src vCount o row).length := by
        intro row
        unfold newRow
        rw [List.length_append, hl]
        omega
      have hnewdrop : ∀ row : List α, (newRow src vCount o row).drop vCount = row.drop vCount := by
        intro row
        unfold newRow
        rw [List.drop_append, hl]
        simp
      have hrow' : ∀ row ∈ dest.set k0 (newRow src vCount o dest[k0]), vCount ≤ row.length := by
        intro row hm
        rcases List.mem_or_eq_of_mem_set hm with hm | rfl
        · exact hrow row hm
        · exact hnewlen _
      obtain ⟨dest', h1, h2, h3⟩ := ih (dest := dest.set k0 (newRow src vCount o dest[k0]))
        (fun u hu => by simpa using h u (by simp [hu])) hrow'
      refine ⟨dest', h1, by simpa using h2, fun k row hk' => ?_⟩
      by_cases ek : k = k0
      · subst ek
        have hrowe : row = dest[k] := by rw [List.getElem?_eq_getElem hk] at hk'; exact (Option.some.inj hk').symm
        obtain ⟨row', r1, r2, r3, r4, r5⟩ := h3 k (newRow src vCount o dest[k]) (by rw [List.getElem?_set_self hk])
        refine ⟨row', r1, by rw [r2, hnewdrop, hrowe], r3, fun _ => ?_, fun hc => absurd ⟨v, by simp, hk0, e⟩ hc⟩
        by_cases hx : ∃ u ∈ news, map[u]? = some k ∧ k ≠ invalid
        · rw [r4 hx, hrowe]
          show _ ++ (newRow src vCount o dest[k]).drop vCount = _
          rw [hnewdrop]
          rfl
        · rw [r5 hx, hrowe]
      · obtain ⟨row', r1, r2, r3, r4, r5⟩ := h3 k row (by rw [List.getElem?_set_ne (fun h => ek h.symm)]; exact hk')
        have hiff : (∃ u ∈ v :: news, map[u]? = some k ∧ k ≠ invalid) ↔ ∃ u ∈ news, map[u]? = some k ∧ k ≠ invalid := by
          simp only [List.mem_cons, exists_eq_or_imp]
          constructor
          · rintro (⟨h1, h2⟩ | h)
            · rw [hk0] at h1
              exact absurd (Option.some.inj h1).symm ek
            · exact h
          · exact .inr
        rw [hiff]
        exact ⟨row', r1, r2, r3, r4, r5⟩

theorem packAll_ok {α : Type} {src : Source α} {vCount : Nat} {map : List Nat} : ∀ {m : TMap} {dest : List (List α)},
    (∀ o v, Relates m o v → ∃ k, map[v]? = some k ∧ (k ≠ invalid → src.stride * o + vCount ≤ src.data.length ∧ k < dest.length)) → (∀ row ∈ dest, vCount ≤ row.length) →
    (∀ o o' v v' k, Relates m o v → Relates m o' v' → map[v]? = some k → map[v']? = some k → k ≠ invalid → o = o') →
    ∃ dest', packAll some src vCount map m dest = some dest' ∧ dest'.length = dest.length ∧
      ∀ k row, dest[k]? = some row → ∃ row', dest'[k]? = some row' ∧ row'.drop vCount = row.drop vCount ∧ vCount ≤ row'.length ∧
        (∀ o v, Relates m o v → map[v]? = some k → k ≠ invalid → row' = newRow src vCount o row) ∧
        ((¬ ∃ o v, Relates m o v ∧ map[v]? = some k ∧ k ≠ invalid) → row' = row) := by
  intro m
  induction m with
  | nil =>
    intro dest _ hrow _
    refine ⟨dest, rfl, rfl, fun k row hk => ⟨row, hk, rfl, hrow row (List.mem_of_getElem? hk), ?_, by simp⟩⟩
    rintro o v ⟨l, hl, _⟩
    simp at hl
  | cons p m ih =>
    intro dest h hrow hfun
    have hp : ∀ v ∈ p.2, Relates (p :: m) p.1 v := fun v hv => ⟨p.2, by simp, hv⟩
    have hm : ∀ o v, Relates m o v → Relates (p :: m) o v := by
      rintro o v ⟨l, hl, hv⟩
      exact ⟨l, by simp [hl], hv⟩
    have hcase : ∀ o v, Relates (p :: m) o v → (o = p.1 ∧ v ∈ p.2) ∨ Relates m o v := by
      rintro o v ⟨l, hl, hv⟩
      rcases List.mem_cons.1 hl with rfl | hl
      · exact .inl ⟨rfl, hv⟩
      · exact .inr ⟨l, hl, hv⟩
    obtain ⟨d1, e1, e2, e3⟩ := packNew_ok (src := src) (vCount := vCount) (map := map) (o := p.1) (news := p.2) (dest := dest) (fun v hv => h p.1 v (hp v hv)) hrow
    have hrow1 : ∀ row ∈ d1, vCount ≤ row.length := by
      intro row hr
      obtain ⟨k, hk⟩ := List.getElem?_of_mem hr
      have hlt : k < dest.length := by
        rw [← e2]
        exact (List.getElem?_eq_some_iff.1 hk).1
      obtain ⟨row', r1, _, r3, _⟩ := e3 k _ (List.getElem?_eq_getElem hlt)
      rw [hk] at r1
      rw [Option.some.inj r1]
      exact r3
    obtain ⟨d2, f1, f2, f3⟩ := ih (dest := d1) (fun o v hv => by rw [e2]; exact h o v (hm o v hv)) hrow1 (fun o o' v v' k h1 h2 => hfun o o' v v' k (hm _ _ h1) (hm _ _ h2))
    refine ⟨d2, by rw [packAll, e1, Option.bind_some, f1], by rw [f2, e2], fun k row hk => ?_⟩
    obtain ⟨row1, r1, r2, r3, r4, r5⟩ := e3 k row hk
    obtain ⟨row2, s1, s2, s3, s4, s5⟩ := f3 k row1 r1
    refine ⟨row2, s1, by rw [s2, r2], s3, ?_, ?_⟩
    · intro o v hv hk1 hk2
      have hnr : ∀ a b : List α, a.drop vCount = b.drop vCount → newRow src vCount o a = newRow src vCount o b := by
        intro a b hab
        unfold newRow
        rw [hab]
      by_cases hx : ∃ o' v', Relates m o' v' ∧ map[v']? = some k ∧ k ≠ invalid
      · obtain ⟨o', v', h1, h2, h3⟩ := hx
        have := hfun o o' v v' k hv (hm _ _ h1) hk1 h2 hk2
        subst this
        rw [s4 o v' h1 h2 h3]
        exact hnr _ _ r2
      · rcases hcase o v hv with ⟨rfl, hv'⟩ | hv'
        · rw [s5 hx]
          exact r4 ⟨v, hv', hk1, hk2⟩
        · exact absurd ⟨o, v, hv', hk1, hk2⟩ hx
    · intro hx
      rw [s5 (by rintro ⟨o, v, h1, h2⟩; exact hx ⟨o, v, hm _ _ h1, h2⟩)]
      exact r5 (by rintro ⟨v, h1, h2⟩; exact hx ⟨p.1, v, hp v h1, h2⟩)

end Verif.FPack
