import Verif.ArcPolyTess

/-! # Lemmas for polygon sets: the faces and their holes -/

namespace Verif.FArc

open Verif.FEff (Text text)
open Verif.FPoly (Face toCounts toHoles faceSize)

variable {ins : List GInput} {owners : List (Option Nat)} {cols : Nat → List Nat} {os : List (Option (List Nat))} {total : Nat}

theorem loadHoles_eq (h : Reading ins owners cols os total) (e : FExtra.Extra) : ∀ (hs : List Nat) (ns : List Node) (off off0 c0 : Nat) (counts holes : List Nat), off + hs.sum ≤ total → off0 + c0 ≤ total →
    (∀ x ∈ holes, x < counts.length) → ns.map Node.direct = loopsFrom os off hs →
    ∃ off1 c1, off1 + c1 ≤ total ∧ ns.foldlM (loadHole owners) ⟨lent ins owners fun o => (cols o).take off, counts, holes, slices owners cols off0 c0, e⟩ =
      some ⟨lent ins owners fun o => (cols o).take (off + hs.sum), counts ++ hs, holes ++ List.range' counts.length hs.length, slices owners cols off1 c1, e⟩
  | [], ns, off, off0, c0, counts, holes, _, h0, _, hn => by
    have : ns = [] := by simpa [loopsFrom] using hn
    subst this
    exact ⟨off0, c0, h0, by simp⟩
  | c :: hs, ns, off, off0, c0, counts, holes, hs1, h0, hh, hn => by
    rw [List.sum_cons] at hs1
    cases ns with
    | nil => simp [loopsFrom] at hn
    | cons n ns =>
      simp only [List.map_cons, loopsFrom, List.cons.injEq] at hn
      obtain ⟨off1, c1, h1, h2⟩ := loadHoles_eq h e hs ns (off + c) off c (counts ++ [c]) (holes ++ [counts.length]) (by omega) (by omega) (by
        intro x hx
        simp only [List.mem_append, List.mem_singleton] at hx
        simp only [List.length_append, List.length_singleton]
        rcases hx with hx | rfl
        · have := hh x hx; omega
        · omega) hn.2
      refine ⟨off1, c1, h1, ?_⟩
      rw [List.foldlM_cons, loadHole_eq h (by omega) h0 _ _ hh _ _ hn.1]
      show List.foldlM _ _ _ = _
      rw [h2]
      simp [List.range'_succ, Nat.add_assoc]

theorem loadTess_p (way : Way) (st : TessState) (t : Text) : loadTess owners way st (.elem (text "p") [] t []) = loadFace owners way t st := by
  unfold loadTess
  rw [if_pos (name_elem ..)]
  rfl

theorem faceNode_ph (t : Text) (u : Text) (us : List Text) : faceNode (t :: u :: us) =
    .elem (text "ph") [] [] (.elem (text "p") [] t.dropLast [] :: (u :: us).map fun h => .elem (text "h") [] h.dropLast []) := rfl

theorem holedFace_eq (t u : Text) (us : List Text) :
    holedFace (.elem (text "p") [] t [] :: (u :: us).map fun h => .elem (text "h") [] h.dropLast []) [] = (t, (u :: us).map fun h => .elem (text "h") [] h.dropLast []) := by
  rw [holedFace, if_pos (name_elem ..), List.map_cons, holedFace, if_neg (by rw [name_elem, text_inj]; decide), if_pos (name_elem ..)]
  rfl

/-- One face with its holes. -/
theorem loadTess_face (h : Reading ins owners cols os total) (e : FExtra.Extra) (f : Face) (ts : List Text) (off off0 c0 : Nat) (counts holes : List Nat) (hs : off + faceSize f ≤ total)
    (h0 : off0 + c0 ≤ total) (hh : ∀ x ∈ holes, x < counts.length) (ht : ts.map List.dropLast = loopsFrom os off (f.1 :: f.2)) :
    ∃ off1 c1, off1 + c1 ≤ total ∧ loadTess owners .polygons ⟨lent ins owners fun o => (cols o).take off, counts, holes, slices owners cols off0 c0, e⟩ (faceNode ts) =
      some ⟨lent ins owners fun o => (cols o).take (off + faceSize f), counts ++ f.1 :: f.2, holes ++ List.range' (counts.length + 1) f.2.length, slices owners cols off1 c1, e⟩ := by
  obtain ⟨c, hs'⟩ := f
  unfold faceSize at hs ⊢
  simp only at hs ht ⊢
  cases ts with
  | nil => simp [loopsFrom] at ht
  | cons t us =>
    simp only [List.map_cons, loopsFrom, List.cons.injEq] at ht
    cases us with
    | nil =>
      have : hs' = [] := by
        have := ht.2
        cases hs' with
        | nil => rfl
        | cons a b => simp [loopsFrom] at this
      subst this
      refine ⟨off, c, by simpa using hs, ?_⟩
      show loadTess _ _ _ (.elem (text "p") [] t.dropLast []) = _
      rw [loadTess_p, ht.1, loadFace_eq h _ (by simpa using hs) h0]
      simp [countWay]
    | cons u us =>
      rw [faceNode_ph]
      obtain ⟨off1, c1, h1, h2⟩ := loadHoles_eq h e hs' ((u :: us).map fun h => Node.elem (text "h") [] h.dropLast []) (off + c) off c (counts ++ [c]) holes (by omega) (by omega)
        (fun x hx => by have := hh x hx; simp; omega) (by rw [List.map_map]; exact ht.2)
      refine ⟨off1, c1, h1, ?_⟩
      unfold loadTess
      rw [if_neg (by rw [name_elem, text_inj]; decide), if_pos (name_elem ..), kids_elem, holedFace_eq]
      simp only
      rw [ht.1, loadFace_eq h _ (by omega) h0, Option.bind_some]
      show List.foldlM _ _ _ = _
      have : countWay .polygons c counts = counts ++ [c] := rfl
      rw [this, h2]
      simp [Nat.add_assoc]

theorem toCounts_cons (f : Face) (fs : List Face) : toCounts (f :: fs) = f.1 :: f.2 ++ toCounts fs := by simp [toCounts]

/-- The faces of a set, each written on its own. -/
theorem loadTess_faces (h : Reading ins owners cols os total) (e : FExtra.Extra) {P : GSet} : ∀ (bs as : List Face), FPoly.Repr P.polys (as ++ bs) → P.counts.sum = total →
    ∀ off0 c0, off0 + c0 ≤ total →
    ∃ ns, faceNodes P os bs.length as.length ((as.map faceSize).sum) (as.map fun f => f.2.length).sum = some ns ∧ (∀ n ∈ ns, n.name = text "p" ∨ n.name = text "ph") ∧
      ns.length = bs.length ∧
      ∃ off1 c1, off1 + c1 ≤ total ∧
      ns.foldlM (loadTess owners .polygons) ⟨lent ins owners fun o => (cols o).take ((as.map faceSize).sum), toCounts as, toHoles 0 as, slices owners cols off0 c0, e⟩ =
        some ⟨lent ins owners fun o => (cols o).take total, P.counts, P.holes, slices owners cols off1 c1, e⟩
  | [], as, hr, ht, off0, c0, h0 => by
    rw [List.append_nil] at hr
    refine ⟨[], rfl, by simp, rfl, off0, c0, h0, ?_⟩
    have : total = (as.map faceSize).sum := by rw [← ht, ← FPoly.toCounts_sum, ← hr.1]; rfl
    rw [List.foldlM_nil, this, ← show P.counts = _ from hr.1, ← show P.holes = _ from hr.2]
    rfl
  | f :: bs, as, hr, ht, off0, c0, h0 => by
    have hsum : (as.map faceSize).sum + faceSize f + (bs.map faceSize).sum = total := by
      rw [← ht, show P.counts = _ from hr.1, FPoly.toCounts_sum]
      simp
      omega
    have hk : FPoly.holeCount P.polys as.length = f.2.length := FPoly.repr_holeCount hr (by simp)
    obtain ⟨ts, t1, t2, -⟩ := loopTexts_eq h P.counts (f.1 :: f.2) (toCounts as).length ((as.map faceSize).sum) (by
      intro k hk
      rw [show P.counts = _ from hr.1, FPoly.toCounts_append, toCounts_cons, List.getElem?_append_right (by omega), List.getElem?_append_left (by simp at hk ⊢; omega)]
      congr 1
      omega) (by have : (f.1 :: f.2).sum = faceSize f := by simp [faceSize]
                 omega)
    have hsz : (f.1 :: f.2).sum = faceSize f := by simp [faceSize]
    obtain ⟨off2, c2, h2, h3⟩ := loadTess_face h e f ts ((as.map faceSize).sum) off0 c0 (toCounts as) (toHoles 0 as) (by omega) h0 (fun x hx => by
      have := FPoly.toHoles_lt as 0 x hx; omega) t2
    obtain ⟨ns, n1, n2, n3, off1, c1, n4, n5⟩ := loadTess_faces h e bs (as ++ [f]) (by simpa using hr) ht off2 c2 h2
    refine ⟨faceNode ts :: ns, ?_, ?_, by simp [n3], off1, c1, n4, ?_⟩
    · rw [List.length_cons, faceNodes, hk]
      have hl : as.length + (as.map fun f => f.2.length).sum = (toCounts as).length := by rw [FPoly.toCounts_length]; rfl
      rw [hl]
      rw [List.length_cons] at t1
      rw [t1, Option.bind_some, hsz]
      simp only
      have : (as ++ [f]).length = as.length + 1 := by simp
      rw [this] at n1
      have e1 : ((as ++ [f]).map faceSize).sum = (as.map faceSize).sum + faceSize f := by simp
      have e2 : ((as ++ [f]).map fun f => f.2.length).sum = (as.map fun f => f.2.length).sum + f.2.length := by simp
      rw [e1, e2] at n1
      rw [n1]
      rfl
    · intro n hn
      rcases List.mem_cons.1 hn with rfl | hn
      · cases ts with
        | nil => simp [loopsFrom] at t2
        | cons t us => cases us with
          | nil => exact Or.inl rfl
          | cons u us => exact Or.inr rfl
      · exact n2 n hn
    · rw [List.foldlM_cons, h3]
      show List.foldlM _ _ _ = _
      have e1 : ((as ++ [f]).map faceSize).sum = (as.map faceSize).sum + faceSize f := by simp
      have e3 : toCounts (as ++ [f]) = toCounts as ++ f.1 :: f.2 := by rw [FPoly.toCounts_append, toCounts_cons]; simp [toCounts]
      have e4 : toHoles 0 (as ++ [f]) = toHoles 0 as ++ List.range' ((toCounts as).length + 1) f.2.length := by
        rw [FPoly.toHoles_append, toHoles, toHoles, List.append_nil, Nat.zero_add]
      rw [e1, e3, e4] at n5
      exact n5

end Verif.FArc
