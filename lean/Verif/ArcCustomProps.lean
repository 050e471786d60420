import Verif.ArcCustom
import Verif.ArcLinkProps

/-!
# C185: animations of extra elements

Wanted: the curves of all channels that point at an extra element are linked to it, those of one qualifier to the float of that name; and saving and loading keeps that.
-/

namespace Verif.FArc

open Verif.FEff (Text text)
open Verif.FConv (Ov)

variable {C : Type}

theorem customNames_named : ∀ (chs : List (LChan C)) (qs : List Text), (∀ ch ∈ chs, ch.qual ≠ [] ∧ ch.curves ≠ []) → customNames qs chs = qs ++ chs.map (·.qual)
  | [], qs, _ => by rw [List.map_nil, List.append_nil]; rfl
  | ch :: chs, qs, h => by
    unfold customNames
    rw [if_neg (h ch List.mem_cons_self).2, if_neg (h ch List.mem_cons_self).1, customNames_named chs _ fun x hx => h x (List.mem_cons_of_mem ch hx), List.map_cons, List.append_assoc]
    rfl

theorem resize_custom (dummy : Nat) (qs : List Text) (h : qs ≠ []) :
    FAnim.customResize (C := C) dummy (FAnim.custom dummy) qs false = ⟨List.replicate qs.length (some dummy), qs, List.replicate qs.length [], -1⟩ := by
  have h1 : 1 ≤ qs.length := List.length_pos_iff.2 h
  unfold FAnim.customResize FAnim.custom
  rw [if_pos (by simpa using h1)]
  obtain ⟨n, hn⟩ : ∃ n, qs.length = n + 1 := ⟨qs.length - 1, by omega⟩
  simp [hn, List.replicate_succ]

/-- The float that a name stands for. -/
def spotOf (qs : List Text) (q : Text) : Nat := (qs.findIdx? fun x => decide (x = q)).getD 0

theorem spot_find {qs : List Text} {q : Text} (h : q ∈ qs) : qs.findIdx? (fun x => decide (x = q)) = some (spotOf qs q) ∧ spotOf qs q < qs.length := by
  unfold spotOf
  cases e : qs.findIdx? (fun x => decide (x = q)) with
  | none =>
    rw [List.findIdx?_eq_none_iff] at e
    exact absurd rfl (of_decide_eq_false (e q h))
  | some i =>
    obtain ⟨hi, _⟩ := List.findIdx?_eq_some_iff_getElem.1 e
    exact ⟨rfl, hi⟩

theorem spot_iff {qs : List Text} {q p : Text} (hp : p ∈ qs) {i : Nat} (hi : qs[i]? = some q) : spotOf qs p = i ↔ p = q ∧ ∀ j < i, qs[j]? ≠ some q := by
  obtain ⟨e, hl⟩ := spot_find hp
  obtain ⟨h1, h2, h3⟩ := List.findIdx?_eq_some_iff_getElem.1 e
  obtain ⟨hi', hq⟩ := List.getElem?_eq_some_iff.1 hi
  constructor
  · rintro rfl
    have hpq : p = q := by rw [← hq]; exact (of_decide_eq_true h2).symm
    refine ⟨hpq, fun j hj hc => ?_⟩
    obtain ⟨hj', hjq⟩ := List.getElem?_eq_some_iff.1 hc
    have := h3 j hj
    rw [hjq, hpq] at this
    simp at this
  · rintro ⟨rfl, hf⟩
    rcases Nat.lt_trichotomy (spotOf qs p) i with hlt | he | hgt
    · refine absurd ?_ (hf _ hlt)
      rw [List.getElem?_eq_getElem hl, of_decide_eq_true h2]
    · exact he
    · have := h3 i hgt
      rw [hq] at this
      simp at this

/-- Named channels go to their floats. -/
theorem link_spots (ov : Ov) : ∀ (chs : List (LChan C)) (a : FAnim.Anim C) (l : Bool), a.elem = -1 → a.values.length = a.qualifiers.length → (∀ ch ∈ chs, ch.qual ≠ [] ∧ ch.qual ∈ a.qualifiers) →
    ∀ f : LChan C → C, (∀ ch ∈ chs, ch.curves = [f ch]) → chs.foldlM (linkChannel ov) (l, a) = some (l || !chs.isEmpty, withCurves a (chs.map fun ch => (spotOf a.qualifiers ch.qual, f ch)))
  | [], a, l, _, _, _, f, _ => by
    rw [List.map_nil, withCurves_nil]
    simp
  | ch :: chs, a, l, he, hv, hq, f, hc => by
    obtain ⟨e, hl⟩ := spot_find (hq ch List.mem_cons_self).2
    have s : linkChannel ov (l, a) ch = some (true, addAt a (spotOf a.qualifiers ch.qual) (f ch)) := by
      unfold linkChannel
      rw [hc ch List.mem_cons_self]
      simp only [if_pos (hq ch List.mem_cons_self).1, he, ne_eq, not_true_eq_false, if_false]
      unfold linkNamed
      simp only [e]
      unfold FAnim.addCurve
      rw [if_pos (by omega)]
      rfl
    rw [List.foldlM_cons, s]
    refine (link_spots ov chs (addAt a (spotOf a.qualifiers ch.qual) (f ch)) true he hv (fun x hx => hq x (List.mem_cons_of_mem ch hx)) f fun x hx => hc x (List.mem_cons_of_mem ch hx)).trans ?_
    rw [List.map_cons, withCurves_cons]
    simp
    rfl

/-- **C185, partial.** If each channel has a qualifier and one curve, the animated value of the extra element has a float for each channel, with its qualifier, and the first float of each qualifier has the curves of all channels of
that qualifier, in their order. Missing: channels without a qualifier (`custom_mixed_violated`, `custom_resave_violated`) and with more curves (`custom_second_violated`). -/
theorem custom_linked_partial (ov : Ov) (dummy : Nat) (chs : List (LChan C)) (h0 : chs ≠ []) (h : ∀ ch ∈ chs, ch.qual ≠ [] ∧ ∃ c, ch.curves = [c]) :
    ∃ a, linkCustom ov dummy chs = some (true, a) ∧ a.qualifiers = chs.map (·.qual) ∧ a.elem = -1 ∧ a.values = List.replicate chs.length (some dummy) ∧ a.curves.length = chs.length ∧
      ∀ (i : Nat) (ch : LChan C), chs[i]? = some ch → ((∀ j < i, ∀ x : LChan C, chs[j]? = some x → x.qual ≠ ch.qual) → a.curves[i]? = some ((chs.filter fun x => decide (x.qual = ch.qual)).flatMap (·.curves))) ∧
        ((∃ j < i, ∃ x : LChan C, chs[j]? = some x ∧ x.qual = ch.qual) → a.curves[i]? = some []) := by
  obtain ⟨c0, hc0⟩ : ∃ c : C, True := by
    cases chs with
    | nil => exact absurd rfl h0
    | cons x xs => obtain ⟨c, _⟩ := (h x List.mem_cons_self).2; exact ⟨c, trivial⟩
  have hf : ∀ ch ∈ chs, ch.curves = [(ch.curves.head?).getD c0] := by
    intro ch hch
    obtain ⟨c, hc⟩ := (h ch hch).2
    rw [hc]
    rfl
  have hq0 : chs.map (·.qual) ≠ [] := by simpa using h0
  have en : atLeastOne (customNames [] chs) = chs.map (·.qual) := by
    unfold atLeastOne
    rw [customNames_named chs [] fun ch hch => ⟨(h ch hch).1, by rw [hf ch hch]; simp⟩, List.nil_append, if_neg hq0]
  refine ⟨withCurves ⟨List.replicate chs.length (some dummy), chs.map (·.qual), List.replicate chs.length [], -1⟩ (chs.map fun ch => (spotOf (chs.map (·.qual)) ch.qual, (ch.curves.head?).getD c0)), ?_, rfl, rfl, rfl, ?_, ?_⟩
  · unfold linkCustom processChannels
    rw [en, resize_custom dummy _ hq0, List.length_map]
    refine (link_spots ov chs _ false rfl (by simp) (fun ch hch => ⟨(h ch hch).1, List.mem_map_of_mem hch⟩) (fun ch => (ch.curves.head?).getD c0) hf).trans ?_
    have : chs.isEmpty = false := by simpa using h0
    simp [this]
  · unfold withCurves
    simp
  · intro i ch hi
    have hil : i < chs.length := (List.getElem?_eq_some_iff.1 hi).1
    have hqi : (chs.map (·.qual))[i]? = some ch.qual := by rw [List.getElem?_map, hi]; rfl
    have ec : ∀ P : LChan C → Bool, (∀ x ∈ chs, decide (spotOf (chs.map (·.qual)) x.qual = i) = P x) →
        (withCurves (⟨List.replicate chs.length (some dummy), chs.map (·.qual), List.replicate chs.length [], -1⟩ : FAnim.Anim C) (chs.map fun ch => (spotOf (chs.map (·.qual)) ch.qual, (ch.curves.head?).getD c0))).curves[i]? =
          some ((chs.filter P).flatMap (·.curves)) := by
      intro P hP
      unfold withCurves
      simp only [List.getElem?_mapIdx, List.getElem?_replicate, if_pos hil, Option.map_some, List.nil_append, List.filter_map, List.map_map]
      congr 1
      have e1 : chs.filter ((fun x : Nat × C => decide (x.1 = i)) ∘ fun ch => (spotOf (chs.map (·.qual)) ch.qual, (ch.curves.head?).getD c0)) = chs.filter P := List.filter_congr hP
      rw [e1, List.flatMap_def]
      have e2 : (chs.filter P).map (·.curves) = (chs.filter P).map fun x => [(x.curves.head?).getD c0] := List.map_congr_left fun x hx => hf x (List.mem_filter.1 hx).1
      rw [show (List.map (fun x : LChan C => x.curves) (chs.filter P)) = _ from e2, ← List.flatMap_def, List.map_eq_flatMap]
      rfl
    constructor
    · intro hfirst
      refine ec _ fun x hx => decide_eq_decide.2 ?_
      rw [spot_iff (List.mem_map_of_mem hx) hqi]
      refine ⟨fun p => p.1, fun p => ⟨p, fun j hj hc => ?_⟩⟩
      rw [List.getElem?_map] at hc
      obtain ⟨y, hy, hyq⟩ := Option.map_eq_some_iff.1 hc
      exact hfirst j hj y hy hyq
    · rintro ⟨j, hj, x, hx, hxq⟩
      rw [ec (fun _ => false) ?_]
      · simp
      · intro y hy
        refine decide_eq_false fun hc => ?_
        refine ((spot_iff (List.mem_map_of_mem hy) hqi).1 hc).2 j hj ?_
        rw [List.getElem?_map, hx, ← hxq]
        rfl

/-- **C185.** No curve of a named channel is lost. -/
theorem custom_kept (ov : Ov) (dummy : Nat) (chs : List (LChan C)) (h : ∀ ch ∈ chs, ch.qual ≠ [] ∧ ∃ c, ch.curves = [c]) (ch : LChan C) (hch : ch ∈ chs) :
    ∃ (a : FAnim.Anim C) (i : Nat) (cs : List C), linkCustom ov dummy chs = some (true, a) ∧ a.qualifiers[i]? = some ch.qual ∧ a.curves[i]? = some cs ∧ ∀ c ∈ ch.curves, c ∈ cs := by
  obtain ⟨a, ha, hq, _, _, _, hc⟩ := custom_linked_partial ov dummy chs (List.ne_nil_of_mem hch) h
  obtain ⟨e, hl⟩ := spot_find (List.mem_map_of_mem hch : ch.qual ∈ chs.map (·.qual))
  obtain ⟨h1, h2, h3⟩ := List.findIdx?_eq_some_iff_getElem.1 e
  have hl' : spotOf (chs.map (·.qual)) ch.qual < chs.length := by simpa using hl
  have hx := List.getElem?_eq_getElem hl'
  have hxq : (chs[spotOf (chs.map (·.qual)) ch.qual]).qual = ch.qual := by
    have := of_decide_eq_true h2
    rwa [List.getElem_map] at this
  refine ⟨a, spotOf (chs.map (·.qual)) ch.qual, _, ha, ?_, (hc _ _ hx).1 ?_, ?_⟩
  · rw [hq, List.getElem?_map, hx, Option.map_some, hxq]
  · intro j hj x hxj hxe
    have := h3 j hj
    obtain ⟨hj', rfl⟩ := List.getElem?_eq_some_iff.1 hxj
    rw [List.getElem_map, hxe, hxq] at this
    simp at this
  · intro c hcc
    exact List.mem_flatMap.2 ⟨ch, List.mem_filter.2 ⟨hch, decide_eq_true hxq.symm⟩, hcc⟩

theorem modify_at {A : Type} (f : A → A) (x : A) (r : List A) : ∀ pre : List A, (pre ++ x :: r).modify pre.length f = pre ++ f x :: r
  | [] => rfl
  | y :: pre => congrArg (y :: ·) (modify_at f x r pre)

theorem link_rest (d : Int) : ∀ (cs : List C) (vs : List (Option Nat)) (qs : List Text) (pre : List (List C)) (l : Bool), pre.length + cs.length ≤ vs.length → cs ≠ [] →
    (cs.zipIdx pre.length).foldl (fun s x => (true, (FAnim.addCurve s.2 x.2 x.1).2)) (l, (⟨vs, qs, pre ++ List.replicate cs.length [], d⟩ : FAnim.Anim C)) = (true, ⟨vs, qs, pre ++ cs.map fun c => [c], d⟩)
  | [], _, _, _, _, _, h => absurd rfl h
  | c :: cs, vs, qs, pre, l, hl, _ => by
    rw [List.length_cons] at hl
    have e : (FAnim.addCurve (⟨vs, qs, pre ++ List.replicate (c :: cs).length [], d⟩ : FAnim.Anim C) pre.length c).2 = ⟨vs, qs, (pre ++ [[c]]) ++ List.replicate cs.length [], d⟩ := by
      unfold FAnim.addCurve
      rw [if_pos (show pre.length < vs.length by omega)]
      simp [List.replicate_succ, modify_at]
    rw [List.zipIdx_cons, List.foldl_cons, e]
    by_cases hcs : cs = []
    · subst hcs
      simp
    · have := link_rest d cs vs qs (pre ++ [[c]]) true (by simp; omega) hcs
      rw [List.length_append, List.length_singleton] at this
      rw [this]
      simp

theorem filter_key {l : List (LChan C)} {x : LChan C} (h : l.Pairwise fun x y => x.qual ≠ y.qual) (hx : x ∈ l) : l.filter (fun y => decide (y.qual = x.qual)) = [x] := by
  induction l with
  | nil => cases hx
  | cons y l ih =>
    obtain ⟨h1, h2⟩ := List.pairwise_cons.1 h
    rcases List.mem_cons.1 hx with rfl | hx
    · rw [List.filter_cons_of_pos (by simp), List.filter_eq_nil_iff.2]
      intro z hz hc
      exact h1 z hz (of_decide_eq_true hc).symm
    · rw [List.filter_cons_of_neg, ih h2 hx]
      intro hc
      exact h1 x hx (of_decide_eq_true hc)

/-- **C185.** A single channel without a qualifier gives the extra element a float for each of its curves. -/
theorem custom_whole (ov : Ov) (dummy : Nat) (p : Text) (cs : List C) (d : Option (Text × Int)) (h : cs ≠ []) :
    linkCustom ov dummy [⟨p, [], cs, d⟩] = some (true, ⟨List.replicate cs.length (some dummy), List.replicate cs.length [], cs.map fun c => [c], -1⟩) := by
  have hl : 1 ≤ cs.length := List.length_pos_iff.2 h
  have e : atLeastOne (customNames [] [(⟨p, [], cs, d⟩ : LChan C)]) = List.replicate cs.length [] := by
    unfold customNames resizeTexts atLeastOne
    rw [if_neg h, if_pos rfl]
    simp [h]
  unfold linkCustom processChannels
  rw [e, resize_custom dummy _ (by simpa using h), List.foldlM_cons, List.length_replicate]
  have s : linkChannel ov (false, (⟨List.replicate cs.length (some dummy), List.replicate cs.length [], List.replicate cs.length [], -1⟩ : FAnim.Anim C)) ⟨p, [], cs, d⟩ =
      some (true, ⟨List.replicate cs.length (some dummy), List.replicate cs.length [], cs.map fun c => [c], -1⟩) := by
    cases cs with
    | nil => exact absurd rfl h
    | cons c cs =>
      have := link_rest (-1) (c :: cs) (List.replicate (c :: cs).length (some dummy)) (List.replicate (c :: cs).length []) [] false (by simp) (by simp)
      unfold linkChannel
      simp only [ne_eq, not_true_eq_false, if_false, List.length_replicate, List.take_length]
      exact congrArg some this
  rw [s]
  rfl

/-- **C185, partial.** An animated extra element whose floats have different qualifiers and a curve each is the same after the channels that are saved for it (C157) are linked again. Missing: floats without a qualifier
(`custom_resave_violated`), without a curve (`custom_bare_violated`) or with more curves. -/
theorem custom_again_partial (ov : Ov) (dummy : Nat) (p : Text) (qs : List Text) (cs : List C) (h0 : qs ≠ []) (hl : qs.length = cs.length) (hn : qs.Nodup) (hq : ∀ q ∈ qs, q ≠ []) :
    linkCustom ov dummy ((List.range cs.length).zipWith (fun i c => (⟨p, hook (⟨List.replicate qs.length (some dummy), qs, cs.map fun c => [c], -1⟩ : FAnim.Anim C) i, [c], none⟩ : LChan C)) cs) =
      some (true, ⟨List.replicate qs.length (some dummy), qs, cs.map fun c => [c], -1⟩) := by
  have ez : (List.range cs.length).zipWith (fun i c => (⟨p, hook (⟨List.replicate qs.length (some dummy), qs, cs.map fun c => [c], -1⟩ : FAnim.Anim C) i, [c], none⟩ : LChan C)) cs =
      qs.zipWith (fun q c => (⟨p, q, [c], none⟩ : LChan C)) cs := by
    apply List.ext_getElem
    · simp [hl]
    · intro i h1 h2
      have hi : i < qs.length := by simp at h2; omega
      rw [List.getElem_zipWith, List.getElem_zipWith, List.getElem_range]
      unfold hook
      simp only [if_neg (show ¬ (0 : Int) ≤ -1 by omega), List.nil_append, List.getElem?_eq_getElem hi, Option.getD_some]
  rw [ez]
  have hlen : (qs.zipWith (fun q c => (⟨p, q, [c], none⟩ : LChan C)) cs).length = qs.length := by rw [List.length_zipWith]; omega
  have get : ∀ i (hi : i < qs.length), (qs.zipWith (fun q c => (⟨p, q, [c], none⟩ : LChan C)) cs)[i]? = some ⟨p, qs[i], [cs[i]'(by omega)], none⟩ := by
    intro i hi
    rw [List.getElem?_eq_getElem (by omega), List.getElem_zipWith]
  have em : (qs.zipWith (fun q c => (⟨p, q, [c], none⟩ : LChan C)) cs).map (·.qual) = qs := by
    apply List.ext_getElem
    · simp [hl]
    · intro i h1 h2
      rw [List.getElem_map, List.getElem_zipWith]
  obtain ⟨a, ha, h1, h2, h3, h4, h5⟩ := custom_linked_partial ov dummy (qs.zipWith (fun q c => (⟨p, q, [c], none⟩ : LChan C)) cs) (by
      intro hc
      rw [hc] at hlen
      exact h0 (List.length_eq_zero_iff.1 hlen.symm)) (by
      intro ch hch
      obtain ⟨i, hi, rfl⟩ := List.mem_iff_getElem.1 hch
      rw [List.getElem_zipWith]
      exact ⟨hq _ (List.getElem_mem _), _, rfl⟩)
  rw [ha]
  rw [em] at h1
  have hc : a.curves = cs.map fun c => [c] := by
    apply List.ext_getElem?
    intro i
    by_cases hi : i < qs.length
    · have e := (h5 i _ (get i hi)).1 (by
        intro j hj x hx hxq
        rw [get j (by omega)] at hx
        obtain rfl := Option.some.inj hx
        exact absurd ((List.Nodup.getElem_inj_iff hn).1 hxq) (by omega))
      rw [e, List.getElem?_map, List.getElem?_eq_getElem (by omega : i < cs.length), Option.map_some]
      congr 1
      have ef : (qs.zipWith (fun q c => (⟨p, q, [c], none⟩ : LChan C)) cs).filter (fun x => decide (x.qual = qs[i])) = [⟨p, qs[i], [cs[i]'(by omega)], none⟩] := by
        have hnd : (qs.zipWith (fun q c => (⟨p, q, [c], none⟩ : LChan C)) cs).Pairwise fun x y => x.qual ≠ y.qual := by
          rw [← List.pairwise_map (f := fun x : LChan C => x.qual), em]
          exact hn
        have hmem : (⟨p, qs[i], [cs[i]'(by omega)], none⟩ : LChan C) ∈ qs.zipWith (fun q c => (⟨p, q, [c], none⟩ : LChan C)) cs := List.mem_of_getElem? (get i hi)
        exact filter_key hnd hmem
      rw [ef]
      rfl
    · rw [List.getElem?_eq_none (by omega), List.getElem?_eq_none (by simp; omega)]
  rw [hlen] at h3
  rw [← h1, ← hc, h1, ← h3, ← h2]
  cases a
  cases h1
  rfl

/-! ## What does not hold -/

/-- **C185, violated.** If a channel without a qualifier follows channels with qualifiers and has fewer curves than these, curves are lost: that of ".Y" is not linked. -/
theorem custom_mixed_violated (p : Text) : (linkCustom .wrap 0 [⟨p, text ".X", [1], none⟩, ⟨p, text ".Y", [2], none⟩, ⟨p, [], [3], none⟩]).map (fun r => r.2.curves) = some [[1, 3]] ∧
    (linkCustom .wrap 0 [⟨p, [], [3], none⟩, ⟨p, text ".VALUE", [2], none⟩]).map (fun r => r.2.curves) = some [[3]] := by
  constructor <;> rfl

/-- **C185, violated.** Of a channel with a qualifier and several curves only the first curve is linked. -/
theorem custom_second_violated (ov : Ov) (dummy : Nat) (p : Text) (c d : C) : (linkCustom ov dummy [⟨p, text ".X", [c, d], none⟩]).map (fun r => r.2.curves) = some [[c]] := rfl

/-- **C185, violated.** The floats of an extra element that come from a channel without a qualifier have no names: the channels that are saved for them are all linked to the first float. -/
theorem custom_resave_violated (ov : Ov) (dummy : Nat) (p : Text) (c d : C) :
    (linkCustom ov dummy [⟨p, [], [c, d], none⟩]).map (fun r => (r.2.curves, (hook r.2 0, hook r.2 1))) = some ([[c], [d]], ([], [])) ∧
    (linkCustom ov dummy [⟨p, [], [c], none⟩, ⟨p, [], [d], none⟩]).map (fun r => r.2.curves) = some [[c, d]] := by
  constructor <;> rfl

/-- **C185, violated.** A float without a curve is not there after saving and loading: only the channels tell which floats there are. -/
theorem custom_bare_violated (ov : Ov) (dummy : Nat) (p : Text) (c : C) : (linkCustom ov dummy [⟨p, text ".Y", [c], none⟩]).map (fun r => r.2.qualifiers) = some [text ".Y"] := rfl

example : ∀ ch ∈ ([⟨text "n/v", text ".X", [1], none⟩, ⟨text "n/v", text ".Y", [2], none⟩, ⟨text "n/v", text ".X", [3], none⟩] : List (LChan Nat)), ch.qual ≠ [] ∧ ∃ c, ch.curves = [c] := by
  intro ch hch
  simp only [List.mem_cons, List.not_mem_nil, or_false] at hch
  rcases hch with rfl | rfl | rfl
  · exact ⟨by decide +kernel, _, rfl⟩
  · exact ⟨by decide +kernel, _, rfl⟩
  · exact ⟨by decide +kernel, _, rfl⟩

end Verif.FArc
