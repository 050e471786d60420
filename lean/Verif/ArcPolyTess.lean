import Verif.ArcPolyAux

/-! # Lemmas for polygon sets: the tessellation -/

namespace Verif.FArc

open Verif.FEff (Text text)
open Verif.FPoly (Face toCounts toHoles faceSize)

/-- The inputs and owners with which the columns `os` of indices are read: `cols k` are the indices of the offset `k`. -/
structure Reading (ins : List GInput) (owners : List (Option Nat)) (cols : Nat → List Nat) (os : List (Option (List Nat))) (total : Nat) : Prop where
  own : OwnInv ins owners
  first : ∃ i, owners.head? = some (some i)
  fresh : ∀ x ∈ ins, x.indices = []
  len : 0 < total → os.length = owners.length
  col : 0 < total → ∀ k i : Nat, owners[k]? = some (some i) → os[k]? = some (some (cols k))
  colLen : ∀ k i : Nat, owners[k]? = some (some i) → (cols k).length = total
  osLen : ∀ l, some l ∈ os → l.length = total ∧ ∀ v ∈ l, v < 2 ^ 32

variable {ins : List GInput} {owners : List (Option Nat)} {cols : Nat → List Nat} {os : List (Option (List Nat))} {total : Nat}

theorem range_getD (l : List Nat) (off c : Nat) (h : off + c ≤ l.length) : (List.range' off c).map (fun i => l.getD i 0) = (l.drop off).take c := by
  apply List.ext_getElem
  · simp; omega
  · intro i h1 h2
    simp only [List.length_map, List.length_range'] at h1
    simp [List.getD_eq_getElem?_getD, List.getElem?_eq_getElem (show off + i < l.length by omega)]

theorem slices_head {i : Nat} (h : owners.head? = some (some i)) (cols : Nat → List Nat) (off c : Nat) : (slices owners cols off c).head? = some (some (((cols 0).drop off).take c)) := by
  cases owners with
  | nil => simp at h
  | cons o os => simp at h; subst h; simp [slices]

theorem masterSize_slices (h : Reading ins owners cols os total) {off c : Nat} (hc : off + c ≤ total) : masterSize (slices owners cols off c) = some c := by
  obtain ⟨i, hi⟩ := h.first
  have h0 := slices_head hi cols off c
  have hl : (cols 0).length = total := h.colLen 0 i (by rw [List.head?_eq_getElem?] at hi; exact hi)
  unfold masterSize
  cases hs : slices owners cols off c with
  | nil => rw [hs] at h0; simp at h0
  | cons a as =>
    rw [hs] at h0
    simp only [List.head?_cons, Option.some.injEq] at h0
    subst h0
    simp
    omega

theorem slices_read (h : Reading ins owners cols os total) {off c off0 c0 : Nat} (hc : off + c ≤ total) (hc0 : off0 + c0 ≤ total) :
    FConv.toInterleaved FConv.toUInt32 0 (wordsText (((List.range' off c).map (cornerRow os)).flatten.map natText) ++ [0]) (slices owners cols off0 c0) = some (slices owners cols off c) := by
  obtain ⟨i, hi⟩ := h.first
  have hl : (cols 0).length = total := h.colLen 0 i (by rw [List.head?_eq_getElem?] at hi; exact hi)
  rw [readRows _ _ _ (slices_head hi cols off0 c0)]
  · congr 1
    apply List.ext_getElem
    · simp [slices_length]
    intro k h1 h2
    have hk : k < owners.length := by simpa [slices_length] using h2
    simp only [List.getElem_mapIdx, slices]
    cases hw : owners[k] with
    | none => simp
    | some j =>
      simp only [Option.map_some, Option.some.injEq, List.map_map]
      have hk' : owners[k]? = some (some j) := by rw [List.getElem?_eq_getElem hk, hw]
      rw [← range_getD _ _ _ (by rw [h.colLen k j hk']; exact hc)]
      refine List.map_congr_left fun m hm => ?_
      have ht : 0 < total := by have := List.mem_range'_1.1 hm; omega
      have := h.col ht k j hk'
      simp [cornerRow, List.getD_eq_getElem?_getD, List.getElem?_map, this]
  · intro a ha l hl'
    obtain ⟨k, hk, rfl⟩ := List.mem_iff_getElem.1 ha
    have hk2 : k < owners.length := by simpa [slices_length] using hk
    simp only [slices, List.getElem_mapIdx, Option.mem_def, Option.map_eq_some_iff] at hl'
    obtain ⟨j, hj, rfl⟩ := hl'
    have := h.colLen k j (by rw [List.getElem?_eq_getElem hk2, hj])
    simp
    omega
  · intro r hr
    obtain ⟨m, hm, rfl⟩ := List.mem_map.1 hr
    have ht : 0 < total := by have := List.mem_range'_1.1 hm; omega
    refine ⟨by rw [slices_length, cornerRow, List.length_map, h.len ht], ?_⟩
    intro v hv
    obtain ⟨o, ho, rfl⟩ := List.mem_map.1 hv
    cases o with
    | none => simp
    | some l =>
      simp only [Option.map_some, Option.getD_some]
      have h2 := h.osLen l ho
      have hlt : m < l.length := by have := List.mem_range'_1.1 hm; omega
      rw [List.getD_eq_getElem?_getD, List.getElem?_eq_getElem hlt]
      exact h2.2 _ (List.getElem_mem hlt)

/-- The text of the corners `off` to `off + c`. -/
def corners (os : List (Option (List Nat))) (off c : Nat) : Text := wordsText (((List.range' off c).map (cornerRow os)).flatten.map natText)

theorem cornersText_corners (h : Reading ins owners cols os total) {off c : Nat} (hc : off + c ≤ total) : ∃ t, cornersText os off c = some t ∧ t.dropLast = corners os off c := by
  refine ⟨_, cornersText_eq os c off fun l hl => ?_, words_dropLast _⟩
  rw [(h.osLen l hl).1]
  exact hc

/-- The way a face of `n` corners is counted. -/
def countWay (way : Way) (n : Nat) (counts : List Nat) : List Nat := match way with
  | .triangles => counts ++ List.replicate (n / 3) 3
  | .polygons => counts ++ [n]
  | .polylist => counts

theorem loadFace_eq (h : Reading ins owners cols os total) (way : Way) {off c off0 c0 : Nat} (hc : off + c ≤ total) (hc0 : off0 + c0 ≤ total) (counts holes : List Nat) (e : FExtra.Extra) :
    loadFace owners way (corners os off c) ⟨lent ins owners fun o => (cols o).take off, counts, holes, slices owners cols off0 c0, e⟩ =
      some ⟨lent ins owners fun o => (cols o).take (off + c), countWay way c counts, holes, slices owners cols off c, e⟩ := by
  unfold loadFace corners
  simp only
  rw [slices_read h hc hc0, Option.bind_some, masterSize_slices h hc, Option.map_some, push_lent h.own]
  cases way <;> rfl

theorem insertHole_last : ∀ (l : List Nat) (i : Nat), (∀ x ∈ l, x < i) → FPoly.insertHole i l = l ++ [i]
  | [], _, _ => rfl
  | x :: l, i, h => by
    have := h x (by simp)
    rw [FPoly.insertHole, if_neg (by omega), insertHole_last l i fun y hy => h y (by simp [hy])]
    rfl

theorem loadHole_eq (h : Reading ins owners cols os total) {off c off0 c0 : Nat} (hc : off + c ≤ total) (hc0 : off0 + c0 ≤ total) (counts holes : List Nat) (hh : ∀ x ∈ holes, x < counts.length)
    (e : FExtra.Extra) (n : Node) (hn : n.direct = corners os off c) :
    loadHole owners ⟨lent ins owners fun o => (cols o).take off, counts, holes, slices owners cols off0 c0, e⟩ n =
      some ⟨lent ins owners fun o => (cols o).take (off + c), counts ++ [c], holes ++ [counts.length], slices owners cols off c, e⟩ := by
  unfold loadHole
  rw [hn]
  unfold corners
  simp only
  rw [slices_read h hc hc0, Option.bind_some, masterSize_slices h hc, Option.map_some, push_lent h.own, if_neg (fun hm => absurd (hh _ hm) (by omega)), insertHole_last _ _ hh]

/-- The texts of faces or holes with these numbers of corners, from `off`. -/
def loopsFrom (os : List (Option (List Nat))) : Nat → List Nat → List Text
  | _, [] => []
  | off, c :: cs => corners os off c :: loopsFrom os (off + c) cs

theorem loopTexts_eq (h : Reading ins owners cols os total) (counts : List Nat) : ∀ (cs : List Nat) (pos off : Nat), (∀ k, k < cs.length → counts[pos + k]? = cs[k]?) → off + cs.sum ≤ total →
    ∃ ts, loopTexts os counts cs.length pos off = some (ts, off + cs.sum) ∧ ts.map List.dropLast = loopsFrom os off cs ∧
      ts.flatten.dropLast = corners os off cs.sum
  | [], pos, off, _, _ => ⟨[], by simp [loopTexts], rfl, by simp [corners, wordsText]⟩
  | c :: cs, pos, off, hp, ho => by
    rw [List.sum_cons] at ho
    obtain ⟨t, ht, hd⟩ := cornersText_corners h (off := off) (c := c) (by omega)
    obtain ⟨ts, h1, h2, -⟩ := loopTexts_eq h counts cs (pos + 1) (off + c) (fun k hk => by
      have := hp (k + 1) (by simp; omega)
      rw [show pos + 1 + k = pos + (k + 1) by omega, this]; rfl) (by omega)
    refine ⟨t :: ts, ?_, ?_, ?_⟩
    · rw [List.length_cons, loopTexts]
      have h0 := hp 0 (by simp)
      simp only [Nat.add_zero, List.getElem?_cons_zero] at h0
      rw [h0, Option.bind_some, ht, Option.bind_some, h1, Option.map_some, List.sum_cons, Nat.add_assoc]
    · rw [List.map_cons, hd, h2]; rfl
    · have hall : ∀ (cs : List Nat) (pos off : Nat) (ts : List Text), off + cs.sum ≤ total → loopTexts os counts cs.length pos off = some (ts, off + cs.sum) →
          (∀ k, k < cs.length → counts[pos + k]? = cs[k]?) → cornersText os off cs.sum = some ts.flatten := by
        intro cs
        induction cs with
        | nil =>
          intro pos off ts _ e _
          simp [loopTexts] at e
          subst e
          rfl
        | cons c cs ih =>
          intro pos off ts hle e hpp
          rw [List.sum_cons] at hle
          obtain ⟨t', ht', -⟩ := cornersText_corners h (off := off) (c := c) (by omega)
          rw [List.length_cons, loopTexts] at e
          have h0 := hpp 0 (by simp)
          simp only [Nat.add_zero, List.getElem?_cons_zero] at h0
          rw [h0, Option.bind_some, ht', Option.bind_some] at e
          cases hl : loopTexts os counts cs.length (pos + 1) (off + c) with
          | none => rw [hl] at e; simp at e
          | some r =>
            rw [hl] at e
            simp only [Option.map_some, Option.some.injEq, Prod.mk.injEq] at e
            obtain ⟨e1, e2⟩ := e
            have hr : r = (r.1, off + c + cs.sum) := by
              rw [List.sum_cons] at e2
              exact Prod.ext rfl (by simp only; omega)
            have := ih (pos + 1) (off + c) r.1 (by omega) (by rw [hl, hr]) (fun k hk => by
              have := hpp (k + 1) (by simp; omega)
              rw [show pos + 1 + k = pos + (k + 1) by omega, this]; rfl)
            subst e1
            rw [List.flatten_cons, List.sum_cons]
            unfold cornersText at ht' this ⊢
            rw [← List.range'_append_1, List.mapM_append]
            cases ha : (List.range' off c).mapM (cornerText os) with
            | none => rw [ha] at ht'; simp at ht'
            | some a =>
              cases hb : (List.range' (off + c) cs.sum).mapM (cornerText os) with
              | none => rw [hb] at this; simp at this
              | some b =>
                rw [ha] at ht'
                rw [hb] at this
                simp only [Option.map_some, Option.some.injEq] at ht' this
                simp [← ht', ← this]
      have hx := hall (c :: cs) pos off (t :: ts) (by rw [List.sum_cons]; omega) (by
        rw [List.length_cons, loopTexts]
        have h0 := hp 0 (by simp)
        simp only [Nat.add_zero, List.getElem?_cons_zero] at h0
        rw [h0, Option.bind_some, ht, Option.bind_some, h1, Option.map_some, List.sum_cons, Nat.add_assoc]) hp
      obtain ⟨t', ht', hd'⟩ := cornersText_corners h (off := off) (c := (c :: cs).sum) (by rw [List.sum_cons]; omega)
      rw [hx] at ht'
      obtain rfl := Option.some.inj ht'
      exact hd'

end Verif.FArc
