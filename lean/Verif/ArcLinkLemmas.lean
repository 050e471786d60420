import Verif.ArcLinkSpec
import Verif.ArcAnimPlan
import Verif.ConvTupleProps

/-! # Lemmas for the properties of the linking of animation channels -/

namespace Verif.FArc

open Verif.FStr (Ch)
open Verif.FEff (Text text)
open Verif.FConv (Ov Formats)

variable {C : Type}

mutual
theorem find_all (p : Text) : ∀ a : LAnim C, a.find p = a.all.filter fun ch => decide (ch.pointer = p)
  | .node chs kids => by rw [LAnim.find, LAnim.all, List.filter_append, findAll_all p kids]
theorem findAll_all (p : Text) : ∀ as : List (LAnim C), LAnim.findAll p as = (LAnim.allOf as).filter fun ch => decide (ch.pointer = p)
  | [] => rfl
  | a :: as => by rw [LAnim.findAll, LAnim.allOf, List.filter_append, find_all p a, findAll_all p as]
end

/-- The curves of a channel with the index of the float that drives them. -/
def drivenBy (ch : LChan C) : List (C × Int) := ch.curves.map fun c => (c, (ch.driver.map (·.2)).getD 0)

theorem flatMap_filter (p : LChan C → Bool) (chs : List (LChan C)) : chs.flatMap (fun ch => if p ch then ch.curves.map fun c => (c, (ch.driver.map (·.2)).getD 0) else []) = (chs.filter p).flatMap drivenBy := by
  induction chs with
  | nil => rfl
  | cons ch chs ih =>
    rw [List.flatMap_cons, ih, List.filter_cons]
    by_cases h : p ch = true
    · rw [if_pos h, if_pos h, List.flatMap_cons]; rfl
    · rw [if_neg h, if_neg h, List.nil_append]

mutual
theorem drive_all (p : Text) (n : Nat) : ∀ a : LAnim C, a.drive p n = (a.all.filter (isDriven p n)).flatMap drivenBy
  | .node chs kids => by rw [LAnim.drive, LAnim.all, List.filter_append, List.flatMap_append, driveAll_all p n kids, flatMap_filter]
theorem driveAll_all (p : Text) (n : Nat) : ∀ as : List (LAnim C), LAnim.driveAll p n as = ((LAnim.allOf as).filter (isDriven p n)).flatMap drivenBy
  | [] => rfl
  | a :: as => by rw [LAnim.driveAll, LAnim.allOf, List.filter_append, List.flatMap_append, drive_all p n a, driveAll_all p n as]
end

mutual
theorem reports_all (d : C → Bool) : ∀ a : LAnim C, a.reports d = a.all.filter fun ch => decide ((ch.driver.map (·.1)).getD [] ≠ []) && (ch.curves.head?).any d
  | .node chs kids => by rw [LAnim.reports, LAnim.all, List.filter_append, reportsAll_all d kids]
theorem reportsAll_all (d : C → Bool) : ∀ as : List (LAnim C), LAnim.reportsAll d as = (LAnim.allOf as).filter fun ch => decide ((ch.driver.map (·.1)).getD [] ≠ []) && (ch.curves.head?).any d
  | [] => rfl
  | a :: as => by rw [LAnim.reportsAll, LAnim.allOf, List.filter_append, reports_all d a, reportsAll_all d as]
end

theorem elem_parse (ov : Ov) {e : Int} (h : 0 ≤ e ∧ e + 48 < 2 ^ 31) {q : Text} (hq : 0 ∉ q) : FConv.parseQualifier ov (40 :: (intText e ++ [41]) ++ q ++ [0]) = some e := by
  obtain ⟨n, rfl⟩ := Int.eq_ofNat_of_zero_le h.1
  have ht : intText (n : Int) = FBld.decimal n := by
    unfold intText FBld.decimalInt
    rw [if_neg (by omega)]
    simp
  have := FConv.qualifier_index ov 40 41 (Or.inl rfl) (Or.inl rfl) n (by omega) q [] hq
  rw [ht]
  simpa using this

theorem find_nodup {qs : List Text} (h : qs.Nodup) {i : Nat} {q : Text} (hi : qs[i]? = some q) : qs.findIdx? (fun x => decide (x = q)) = some i := by
  induction qs generalizing i with
  | nil => simp at hi
  | cons x qs ih =>
    rw [List.findIdx?_cons]
    cases i with
    | zero =>
      rw [List.getElem?_cons_zero, Option.some.injEq] at hi
      simp [hi]
    | succ i =>
      rw [List.getElem?_cons_succ] at hi
      have hne : x ≠ q := fun e => (List.nodup_cons.1 h).1 (e ▸ List.mem_of_getElem? hi)
      rw [if_neg (by simpa using hne), ih (List.nodup_cons.1 h).2 hi]
      rfl

/-- A value with one more curve. -/
def addAt (a : FAnim.Anim C) (i : Nat) (c : C) : FAnim.Anim C := { a with curves := a.curves.modify i (· ++ [c]) }

theorem link_step (ov : Ov) (a : FAnim.Anim C) (hw : WellNamed a) (he : SameCount a) (l : Bool) {i : Nat} (hi : i < a.values.length) (c : C) (ch : LChan C) (hq : ch.qual = hook a i) (hc : ch.curves = [c]) :
    linkChannel ov (l, a) ch = some (true, addAt a i c) := by
  obtain ⟨h1, h2⟩ := he
  have hi' : i < a.qualifiers.length := by omega
  have hg : a.qualifiers[i]? = some a.qualifiers[i] := List.getElem?_eq_getElem hi'
  unfold linkChannel
  rw [hc]
  simp only
  have add : FAnim.addCurve a i c = (true, addAt a i c) := by unfold FAnim.addCurve addAt; rw [if_pos hi]
  have plain : a.qualifiers.length = 1 → some (([c].take a.qualifiers.length).zipIdx.foldl (fun s x => (true, (FAnim.addCurve s.2 x.2 x.1).2)) (l, a)) = some (true, addAt a i c) := by
    intro h
    have : i = 0 := by omega
    subst this
    rw [h, show ([c].take 1).zipIdx = [(c, 0)] from rfl, List.foldl_cons, List.foldl_nil]
    simp only [add]
  rcases hw with ⟨w1, w2, w3⟩ | ⟨w1, w2, w3⟩
  · have hk : ch.qual = a.qualifiers[i] := by rw [hq, hook, if_neg (by omega), hg]; rfl
    rcases w3 _ (List.getElem_mem hi') with h | h
    · rw [hk, if_pos h, if_neg (by simpa using w1)]
      unfold linkNamed
      simp only [find_nodup w2 hg, add]
    · by_cases h' : ch.qual = []
      · rw [if_neg (by simpa using h')]
        exact plain h
      · rw [if_pos h', if_neg (by simpa using w1)]
        unfold linkNamed
        rw [hk]
        simp only [find_nodup w2 hg, add]
  · have hk : ch.qual = 40 :: (intText a.elem ++ [41]) ++ a.qualifiers[i] := by rw [hq, hook, if_pos w1.1, hg]; rfl
    have h0 : i = 0 := by omega
    rw [hk, if_pos (by simp), if_pos (show a.elem ≠ -1 by omega), elem_parse ov w1 (w3 _ (List.getElem_mem hi')), Option.map_some, if_neg (by simp)]
    rw [← h0]
    simp only [add]

theorem wellNamed_add {a : FAnim.Anim C} {i : Nat} {c : C} : WellNamed (addAt a i c) ↔ WellNamed a := Iff.rfl

theorem sameCount_add {a : FAnim.Anim C} {i : Nat} {c : C} (h : SameCount a) : SameCount (addAt a i c) := ⟨h.1, by unfold addAt; simpa using h.2⟩

theorem hook_add (a : FAnim.Anim C) (i j : Nat) (c : C) : hook (addAt a i c) j = hook a j := rfl

theorem withCurves_nil (a : FAnim.Anim C) : withCurves a [] = a := by
  have : a.curves.mapIdx (fun i cs => cs ++ (([] : List (Nat × C)).filter fun x => decide (x.1 = i)).map (·.2)) = a.curves := by
    apply List.ext_getElem
    · simp
    · intro j h1 h2
      simp
  unfold withCurves
  rw [this]

theorem withCurves_cons (a : FAnim.Anim C) (i : Nat) (c : C) (xs : List (Nat × C)) : withCurves a ((i, c) :: xs) = withCurves (addAt a i c) xs := by
  unfold withCurves addAt
  congr 1
  apply List.ext_getElem
  · simp
  · intro j h1 h2
    simp only [List.getElem_mapIdx, List.getElem_modify, List.filter_cons]
    by_cases h : i = j
    · simp [h]
    · simp [h]

theorem link_all (ov : Ov) (pointer : Text) (xs : List (Nat × C × Option (Text × Int))) (a : FAnim.Anim C) (hw : WellNamed a) (he : SameCount a) (hx : ∀ x ∈ xs, x.1 < a.values.length) (l : Bool) :
    (xs.map fun x => ({ pointer := pointer, qual := hook a x.1, curves := [x.2.1], driver := x.2.2 } : LChan C)).foldlM (linkChannel ov) (l, a) =
      some (l || !xs.isEmpty, withCurves a (xs.map fun x => (x.1, x.2.1))) := by
  induction xs generalizing a l with
  | nil => rw [List.map_nil, List.map_nil, withCurves_nil]; simp
  | cons x xs ih =>
    rw [List.map_cons, List.foldlM_cons, link_step ov a hw he l (hx x List.mem_cons_self) x.2.1 _ rfl rfl, Option.bind_eq_bind, Option.bind_some]
    have := ih (addAt a x.1 x.2.1) hw (sameCount_add he) (fun y hy => hx y (List.mem_cons_of_mem _ hy)) true
    simp only [hook_add] at this
    rw [this, List.map_cons, withCurves_cons]
    simp

theorem link_other (ov : Ov) (s : Bool × FAnim.Anim C) {e : Int} (h : 0 ≤ e ∧ e + 48 < 2 ^ 31) (hs : s.2.elem ≠ -1) (hne : s.2.elem ≠ e) {q : Text} (hq : 0 ∉ q) (ch : LChan C) (hc : ch.qual = 40 :: (intText e ++ [41]) ++ q) :
    linkChannel ov s ch = some s := by
  unfold linkChannel
  split
  · rfl
  · rw [hc, if_pos (by simp), if_pos hs, elem_parse ov h hq, Option.map_some, if_pos hne]

theorem link_others (ov : Ov) (s : Bool × FAnim.Anim C) (chs : List (LChan C)) (h : ∀ ch ∈ chs, linkChannel ov s ch = some s) : chs.foldlM (linkChannel ov) s = some s := by
  induction chs with
  | nil => rfl
  | cons ch chs ih => rw [List.foldlM_cons, h ch List.mem_cons_self]; exact ih fun x hx => h x (List.mem_cons_of_mem _ hx)


/-! ## Values saved and loaded -/

/-- The channel that comes back for a curve. -/
def backChan (rnd : ℚ → ℚ) (p : Text) (c : APlaced) : AChan := { pointer := p, qual := fullQual c, curves := [⟨c.keys.map (shownKey rnd), c.pre, c.post⟩], driver := c.driver }

/-- The curves of a value with their places. -/
def spots (a : FAnim.Anim Driven) : List (Nat × Driven) := (a.curves.zipIdx).flatMap fun x => x.1.map fun c => (x.2, c)

theorem placed_spots (a : FAnim.Anim Driven) : placed a = (spots a).map fun s => { toACurve := s.2.1, elem := a.elem, qual := (a.qualifiers[s.1]?).getD [], driver := s.2.2 } := by
  unfold placed spots
  rw [List.map_flatMap]
  congr 1
  funext x
  rw [List.map_map]
  rfl

theorem spots_lt {a : FAnim.Anim Driven} (h : SameCount a) : ∀ s ∈ spots a, s.1 < a.values.length := by
  intro s hs
  obtain ⟨x, h1, h2⟩ := List.mem_flatMap.1 hs
  obtain ⟨c, -, rfl⟩ := List.mem_map.1 h2
  have := List.mem_zipIdx h1
  have h3 := h.2
  simp only
  omega

theorem spots_from (css : List (List Driven)) (k i : Nat) :
    (((css.zipIdx k).flatMap fun x => x.1.map fun c => (x.2, c)).filter fun s => decide (s.1 = k + i)).map (·.2) = (css[i]?).getD [] := by
  induction css generalizing k i with
  | nil => simp
  | cons cs css ih =>
    rw [List.zipIdx_cons, List.flatMap_cons, List.filter_append, List.map_append]
    cases i with
    | zero =>
      have h1 : (cs.map fun c => (k, c)).filter (fun s => decide (s.1 = k + 0)) = cs.map fun c => (k, c) := List.filter_eq_self.2 fun s hs => by
        obtain ⟨c, -, rfl⟩ := List.mem_map.1 hs
        simp
      have h2 : (((css.zipIdx (k + 1)).flatMap fun x => x.1.map fun c => (x.2, c)).filter fun s => decide (s.1 = k + 0)) = [] := by
        refine List.filter_eq_nil_iff.2 fun s hs => ?_
        obtain ⟨x, g1, g2⟩ := List.mem_flatMap.1 hs
        obtain ⟨c, -, rfl⟩ := List.mem_map.1 g2
        have := List.mem_zipIdx g1
        simp only [decide_eq_true_eq]
        omega
      rw [h1, h2]
      simp [Function.comp_def]
    | succ i =>
      have h1 : (cs.map fun c => (k, c)).filter (fun s => decide (s.1 = k + (i + 1))) = [] := List.filter_eq_nil_iff.2 fun s hs => by
        obtain ⟨c, -, rfl⟩ := List.mem_map.1 hs
        simp
      have := ih (k + 1) i
      rw [show k + 1 + i = k + (i + 1) by omega] at this
      rw [h1, this]
      simp

theorem withCurves_spots (f : Driven → ACurve) (a : FAnim.Anim Driven) :
    withCurves (blank a) ((spots a).map fun s => (s.1, f s.2)) = { (blank a : FAnim.Anim ACurve) with curves := a.curves.map fun cs => cs.map f } := by
  unfold withCurves blank
  congr 1
  apply List.ext_getElem
  · simp
  · intro i h1 h2
    have hi : i < a.curves.length := by simpa using h2
    have h := spots_from a.curves 0 i
    rw [Nat.zero_add, List.getElem?_eq_getElem hi, Option.getD_some] at h
    simp only [List.getElem_mapIdx, List.getElem_map, List.nil_append]
    rw [← h, spots, List.filter_map, List.map_map, List.map_map]
    rfl

theorem fullQual_hook (a : FAnim.Anim Driven) (s : Nat × Driven) :
    fullQual { toACurve := s.2.1, elem := a.elem, qual := (a.qualifiers[s.1]?).getD [], driver := s.2.2 } = hook (blank a : FAnim.Anim ACurve) s.1 := rfl

theorem link_saved (ov : Ov) (rnd : ℚ → ℚ) (vs : List (Text × FAnim.Anim Driven)) (hv : ∀ v ∈ vs, WellNamed v.2 ∧ SameCount v.2 ∧ ∀ c ∈ placed v.2, GoodCurve c) (hd : vs.Pairwise Distinct) (v : Text × FAnim.Anim Driven) (hm : v ∈ vs) :
    processChannels ov (blank v.2) ((((vs.map fun v => (v.1, placed v.2)).flatMap fun ch => ch.2.map (backChan rnd ch.1)).map AChan.link).filter fun ch => decide (ch.pointer = v.1)) =
      some (!(placed v.2).isEmpty, { (blank v.2 : FAnim.Anim ACurve) with curves := v.2.curves.map fun cs => cs.map fun c => shownCurve rnd c.1 }) := by
  obtain ⟨pre, post, rfl⟩ := List.append_of_mem hm
  have skip : ∀ (ws : List (Text × FAnim.Anim Driven)), (∀ w ∈ ws, w ∈ pre ++ v :: post ∧ (w.1 = v.1 → 0 ≤ w.2.elem ∧ 0 ≤ v.2.elem ∧ w.2.elem ≠ v.2.elem)) → ∀ s : Bool × FAnim.Anim ACurve, s.2.elem = v.2.elem →
      ((((ws.map fun v => (v.1, placed v.2)).flatMap fun ch => ch.2.map (backChan rnd ch.1)).map AChan.link).filter fun ch => decide (ch.pointer = v.1)).foldlM (linkChannel ov) s = some s := by
    intro ws hws s hs
    refine link_others ov s _ fun ch hc => ?_
    obtain ⟨h1, h2⟩ := List.mem_filter.1 hc
    obtain ⟨b, h3, rfl⟩ := List.mem_map.1 h1
    obtain ⟨x, h4, h5⟩ := List.mem_flatMap.1 h3
    obtain ⟨w, h6, rfl⟩ := List.mem_map.1 h4
    obtain ⟨c, h7, rfl⟩ := List.mem_map.1 h5
    obtain ⟨g1, g2⟩ := hws w h6
    obtain ⟨k1, k2, k3⟩ := g2 (of_decide_eq_true h2)
    obtain ⟨k4, -, k6⟩ := hv w g1
    have k7 : w.2.elem + 48 < 2 ^ 31 := by
      rcases k4 with h | h
      · exact absurd h.1 (by omega)
      · exact h.1.2
    have hce : c.elem = w.2.elem := by
      rw [placed_spots] at h7
      obtain ⟨s, -, rfl⟩ := List.mem_map.1 h7
      rfl
    refine link_other ov s (e := w.2.elem) ⟨k1, k7⟩ (by rw [hs]; omega) (by rw [hs]; exact fun e => k3 e.symm) (q := c.qual) ?_ _ ?_
    · exact fun h0 => absurd ((k6 c h7).qual.1 0 h0).1 (by unfold FXml.IsChar; decide)
    · show fullQual c = _
      unfold fullQual
      rw [hce, if_pos k1]
  unfold processChannels
  rw [List.map_append, List.map_cons, List.flatMap_append, List.flatMap_cons, List.map_append, List.map_append, List.filter_append, List.filter_append]
  have hpw := List.pairwise_append.1 hd
  obtain ⟨w1, w2, -⟩ := hv v hm
  refine foldlM_app (b := (false, blank v.2)) (skip pre (fun w hw => ⟨List.mem_append_left _ hw, fun e => hpw.2.2 w hw v List.mem_cons_self e⟩) _ rfl) ?_
  have own : ((placed v.2).map (backChan rnd v.1)).map AChan.link = (spots v.2).map fun s => ({ pointer := v.1, qual := hook (blank v.2 : FAnim.Anim ACurve) s.1, curves := [shownCurve rnd s.2.1], driver := s.2.2 } : LChan ACurve) := by
    rw [placed_spots, List.map_map, List.map_map]
    rfl
  have own' : ((((placed v.2).map (backChan rnd v.1)).map AChan.link).filter fun ch => decide (ch.pointer = v.1)) = ((placed v.2).map (backChan rnd v.1)).map AChan.link := by
    rw [own]
    refine List.filter_eq_self.2 fun ch hc => ?_
    obtain ⟨s, -, rfl⟩ := List.mem_map.1 hc
    simp
  have he : (placed v.2).isEmpty = (spots v.2).isEmpty := by rw [placed_spots]; simp
  refine foldlM_app (b := (!(placed v.2).isEmpty, { (blank v.2 : FAnim.Anim ACurve) with curves := v.2.curves.map fun cs => cs.map fun c => shownCurve rnd c.1 })) ?_
    (skip post (fun w hw => ⟨List.mem_append_right _ (List.mem_cons_of_mem _ hw), fun e => by have := (List.pairwise_cons.1 hpw.2.1).1 w hw e.symm; exact ⟨this.2.1, this.1, this.2.2.symm⟩⟩) _ rfl)
  rw [own', own]
  have := link_all ov v.1 ((spots v.2).map fun s => (s.1, shownCurve rnd s.2.1, s.2.2)) (blank v.2 : FAnim.Anim ACurve) w1 ⟨w2.1, by unfold blank; simpa using w2.2⟩ (by
    intro x hx
    obtain ⟨s, hs, rfl⟩ := List.mem_map.1 hx
    exact spots_lt w2 s hs) false
  rw [List.map_map, List.map_map] at this
  rw [he, ← withCurves_spots]
  refine Eq.trans this ?_
  simp only [List.isEmpty_map, Bool.false_or]
  rfl

end Verif.FArc
