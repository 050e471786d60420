import Verif.BoundSpec
import Mathlib.Tactic.Linarith
import Mathlib.Algebra.Order.Field.Basic

/-!
# Lemmas about boxes
-/

namespace Verif.Geo

section Box
variable {K : Type} [Field K] [LinearOrder K]

theorem Box.isValid_iff (b : Box K) : b.isValid = true ↔ b.min.x ≤ b.max.x ∧ b.min.y ≤ b.max.y ∧ b.min.z ≤ b.max.z := by
  simp [Box.isValid, not_or, and_assoc]

theorem Box.contains_iff (b : Box K) (p : V3 K) : b.contains p = true ↔ b.Has p := by
  simp [Box.contains, Box.Has, and_assoc]

theorem Box.valid_iff_has (b : Box K) : b.isValid = true ↔ ∃ p, b.Has p := by
  rw [b.isValid_iff]
  constructor
  · rintro ⟨hx, hy, hz⟩
    exact ⟨b.min, ⟨le_rfl, hx⟩, ⟨le_rfl, hy⟩, ⟨le_rfl, hz⟩⟩
  · rintro ⟨p, hx, hy, hz⟩
    exact ⟨hx.1.trans hx.2, hy.1.trans hy.2, hz.1.trans hz.2⟩

/-- One coordinate of an item. -/
structure Range (K : Type) where
  point : Bool
  lo : K
  hi : K

def Range.Ok (r : Range K) : Prop := r.lo ≤ r.hi ∧ (r.point = true → r.lo = r.hi)

def step1 (s : K × K) (r : Range K) : K × K :=
  if r.point then include1 s.1 s.2 r.lo else (if r.lo < s.1 then r.lo else s.1, if r.hi > s.2 then r.hi else s.2)

def Item.range (f : V3 K → K) : Item K → Range K
  | .point p => ⟨true, f p, f p⟩
  | .box b => ⟨false, f b.min, f b.max⟩

theorem fold_x (is : List (Item K)) (b : Box K) :
    ((is.foldl Box.includeItem b).min.x, (is.foldl Box.includeItem b).max.x) = (is.map (Item.range V3.x)).foldl step1 (b.min.x, b.max.x) := by
  induction is generalizing b with
  | nil => rfl
  | cons i is ih => rw [List.foldl_cons, ih, List.map_cons, List.foldl_cons]; cases i <;> rfl

theorem fold_y (is : List (Item K)) (b : Box K) :
    ((is.foldl Box.includeItem b).min.y, (is.foldl Box.includeItem b).max.y) = (is.map (Item.range V3.y)).foldl step1 (b.min.y, b.max.y) := by
  induction is generalizing b with
  | nil => rfl
  | cons i is ih => rw [List.foldl_cons, ih, List.map_cons, List.foldl_cons]; cases i <;> rfl

theorem fold_z (is : List (Item K)) (b : Box K) :
    ((is.foldl Box.includeItem b).min.z, (is.foldl Box.includeItem b).max.z) = (is.map (Item.range V3.z)).foldl step1 (b.min.z, b.max.z) := by
  induction is generalizing b with
  | nil => rfl
  | cons i is ih => rw [List.foldl_cons, ih, List.map_cons, List.foldl_cons]; cases i <;> rfl

theorem step1_fst_le (s : K × K) (r : Range K) : (step1 s r).1 ≤ s.1 ∧ (step1 s r).1 ≤ r.lo := by
  unfold step1 include1
  split_ifs <;> simp_all <;> order

theorem step1_fst_eq (s : K × K) (r : Range K) : (step1 s r).1 = s.1 ∨ (step1 s r).1 = r.lo := by
  unfold step1 include1
  split_ifs <;> simp

theorem step1_snd_le (s : K × K) (r : Range K) : s.2 ≤ (step1 s r).2 := by
  unfold step1 include1
  split_ifs <;> simp_all <;> order

theorem step1_snd_eq (s : K × K) (r : Range K) (h : r.Ok) : (step1 s r).2 = s.2 ∨ (step1 s r).2 = r.hi := by
  unfold step1 include1
  obtain ⟨-, h⟩ := h
  split_ifs <;> simp_all

theorem step1_hi_le (s : K × K) (r : Range K) (h : r.Ok) (hs : s.1 ≤ r.hi) : r.hi ≤ (step1 s r).2 := by
  unfold step1 include1
  obtain ⟨h1, h⟩ := h
  split_ifs <;> simp_all <;> order

theorem fold1_fst_le (rs : List (Range K)) (s : K × K) : (rs.foldl step1 s).1 ≤ s.1 ∧ ∀ r ∈ rs, (rs.foldl step1 s).1 ≤ r.lo := by
  induction rs generalizing s with
  | nil => simp
  | cons r rs ih =>
    obtain ⟨a, c⟩ := ih (step1 s r)
    obtain ⟨d, e⟩ := step1_fst_le s r
    refine ⟨a.trans d, ?_⟩
    intro q hq
    rcases List.mem_cons.1 hq with rfl | hq
    · exact a.trans e
    · exact c q hq

theorem fold1_fst_eq (rs : List (Range K)) (s : K × K) : (rs.foldl step1 s).1 = s.1 ∨ ∃ r ∈ rs, (rs.foldl step1 s).1 = r.lo := by
  induction rs generalizing s with
  | nil => simp
  | cons r rs ih =>
    rcases ih (step1 s r) with h | ⟨q, hq, h⟩
    · rcases step1_fst_eq s r with e | e
      · exact Or.inl (h.trans e)
      · exact Or.inr ⟨r, by simp, h.trans e⟩
    · exact Or.inr ⟨q, by simp [hq], h⟩

theorem fold1_snd_le (rs : List (Range K)) (s : K × K) : s.2 ≤ (rs.foldl step1 s).2 := by
  induction rs generalizing s with
  | nil => simp
  | cons r rs ih => exact (step1_snd_le s r).trans (ih _)

theorem fold1_snd_eq (rs : List (Range K)) (s : K × K) (h : ∀ r ∈ rs, r.Ok) :
    (rs.foldl step1 s).2 = s.2 ∨ ∃ r ∈ rs, (rs.foldl step1 s).2 = r.hi := by
  induction rs generalizing s with
  | nil => simp
  | cons r rs ih =>
    rcases ih (step1 s r) (fun q hq => h q (by simp [hq])) with e | ⟨q, hq, e⟩
    · rcases step1_snd_eq s r (h r (by simp)) with g | g
      · exact Or.inl (e.trans g)
      · exact Or.inr ⟨r, by simp, e.trans g⟩
    · exact Or.inr ⟨q, by simp [hq], e⟩

theorem fold1_hi_le (rs : List (Range K)) (s : K × K) (h : ∀ r ∈ rs, r.Ok) (r : Range K) (hr : r ∈ rs) (hs : s.1 ≤ r.hi) :
    r.hi ≤ (rs.foldl step1 s).2 := by
  induction rs generalizing s with
  | nil => simp at hr
  | cons q rs ih =>
    rcases List.mem_cons.1 hr with rfl | hr
    · exact (step1_hi_le s r (h r (by simp)) hs).trans (fold1_snd_le rs _)
    · exact ih _ (fun q hq => h q (by simp [hq])) hr ((step1_fst_le s q).1.trans hs)

/-- The bounds hold for all points in `S` and are reached. -/
def AxisOk (f : V3 K → K) (lo hi : K) (S : V3 K → Prop) : Prop :=
  (∀ p, S p → lo ≤ f p ∧ f p ≤ hi) ∧ (∃ p, S p ∧ f p = lo) ∧ ∃ p, S p ∧ f p = hi

theorem smallest_of_axes (b : Box K) (S : V3 K → Prop) (hx : AxisOk V3.x b.min.x b.max.x S) (hy : AxisOk V3.y b.min.y b.max.y S)
    (hz : AxisOk V3.z b.min.z b.max.z S) : b.Smallest S := by
  refine ⟨fun p hp => ⟨hx.1 p hp, hy.1 p hp, hz.1 p hp⟩, ?_⟩
  intro c hc p hp
  obtain ⟨-, ⟨x1, hx1, ex1⟩, ⟨x2, hx2, ex2⟩⟩ := hx
  obtain ⟨-, ⟨y1, hy1, ey1⟩, ⟨y2, hy2, ey2⟩⟩ := hy
  obtain ⟨-, ⟨z1, hz1, ez1⟩, ⟨z2, hz2, ez2⟩⟩ := hz
  obtain ⟨px, py, pz⟩ := hp
  rw [← ex1, ← ex2] at px
  rw [← ey1, ← ey2] at py
  rw [← ez1, ← ez2] at pz
  exact ⟨⟨(hc _ hx1).1.1.trans px.1, px.2.trans (hc _ hx2).1.2⟩, ⟨(hc _ hy1).2.1.1.trans py.1, py.2.trans (hc _ hy2).2.1.2⟩,
    ⟨(hc _ hz1).2.2.1.trans pz.1, pz.2.trans (hc _ hz2).2.2.2⟩⟩

/-- The item has points. -/
def Item.Nonempty (i : Item K) : Prop := ∃ p, i.Has p

/-- Facts about one coordinate of an item that has points. -/
structure RangeOf (f : V3 K → K) (i : Item K) : Prop where
  ok : (i.range f).Ok
  has : ∀ p, i.Has p → (i.range f).lo ≤ f p ∧ f p ≤ (i.range f).hi
  lo : ∃ p, i.Has p ∧ f p = (i.range f).lo
  hi : ∃ p, i.Has p ∧ f p = (i.range f).hi

theorem rangeOf (f : V3 K → K) (hf : f = V3.x ∨ f = V3.y ∨ f = V3.z) (i : Item K) (h : i.Nonempty) : RangeOf f i := by
  cases i with
  | point p => exact ⟨⟨le_rfl, fun _ => rfl⟩, by rintro _ rfl; exact ⟨le_rfl, le_rfl⟩, ⟨p, rfl, rfl⟩, ⟨p, rfl, rfl⟩⟩
  | box b =>
    have hv := b.isValid_iff.1 (b.valid_iff_has.2 h)
    have hm : b.Has b.min := ⟨⟨le_rfl, hv.1⟩, ⟨le_rfl, hv.2.1⟩, ⟨le_rfl, hv.2.2⟩⟩
    have hM : b.Has b.max := ⟨⟨hv.1, le_rfl⟩, ⟨hv.2.1, le_rfl⟩, ⟨hv.2.2, le_rfl⟩⟩
    refine ⟨⟨?_, by simp [Item.range]⟩, ?_, ⟨b.min, hm, rfl⟩, ⟨b.max, hM, rfl⟩⟩
    · rcases hf with rfl | rfl | rfl
      · exact hv.1
      · exact hv.2.1
      · exact hv.2.2
    · intro p hp
      rcases hf with rfl | rfl | rfl
      · exact hp.1
      · exact hp.2.1
      · exact hp.2.2

theorem ranges_ok (f : V3 K → K) (hf : f = V3.x ∨ f = V3.y ∨ f = V3.z) (is : List (Item K)) (h : ∀ i ∈ is, i.Nonempty) :
    ∀ r ∈ is.map (Item.range f), r.Ok := by
  intro r hr
  obtain ⟨i, hi, rfl⟩ := List.mem_map.1 hr
  exact (rangeOf f hf i (h i hi)).ok

/-- One coordinate, starting with a range from `lo` to `hi` of points in `B`. -/
theorem axis_valid (f : V3 K → K) (hf : f = V3.x ∨ f = V3.y ∨ f = V3.z) (is : List (Item K)) (h : ∀ i ∈ is, i.Nonempty) (lo hi : K)
    (B : V3 K → Prop) (hB : AxisOk f lo hi B) :
    AxisOk f ((is.map (Item.range f)).foldl step1 (lo, hi)).1 ((is.map (Item.range f)).foldl step1 (lo, hi)).2
      (fun p => B p ∨ ∃ i ∈ is, i.Has p) := by
  have ok := ranges_ok f hf is h
  obtain ⟨b1, ⟨bl, hbl, ebl⟩, ⟨bh, hbh, ebh⟩⟩ := hB
  have lohi : lo ≤ hi := (b1 bl hbl).1.trans (b1 bl hbl).2
  obtain ⟨m1, m2⟩ := fold1_fst_le (is.map (Item.range f)) (lo, hi)
  have m3 := fold1_snd_le (is.map (Item.range f)) (lo, hi)
  refine ⟨?_, ?_, ?_⟩
  · rintro p (hp | ⟨i, hi', hp⟩)
    · exact ⟨m1.trans (b1 p hp).1, (b1 p hp).2.trans m3⟩
    · have q := rangeOf f hf i (h i hi')
      have mem : i.range f ∈ is.map (Item.range f) := List.mem_map_of_mem hi'
      refine ⟨(m2 _ mem).trans (q.has p hp).1, ?_⟩
      by_cases hl : lo ≤ (i.range f).hi
      · exact (q.has p hp).2.trans (fold1_hi_le _ (lo, hi) ok _ mem hl)
      · exact ((q.has p hp).2.trans (not_le.1 hl).le).trans (lohi.trans m3)
  · rcases fold1_fst_eq (is.map (Item.range f)) (lo, hi) with e | ⟨r, hr, e⟩
    · exact ⟨bl, Or.inl hbl, by rw [e]; exact ebl⟩
    · obtain ⟨i, hi', rfl⟩ := List.mem_map.1 hr
      obtain ⟨p, hp, ep⟩ := (rangeOf f hf i (h i hi')).lo
      exact ⟨p, Or.inr ⟨i, hi', hp⟩, by rw [e]; exact ep⟩
  · rcases fold1_snd_eq (is.map (Item.range f)) (lo, hi) ok with e | ⟨r, hr, e⟩
    · exact ⟨bh, Or.inl hbh, by rw [e]; exact ebh⟩
    · obtain ⟨i, hi', rfl⟩ := List.mem_map.1 hr
      obtain ⟨p, hp, ep⟩ := (rangeOf f hf i (h i hi')).hi
      exact ⟨p, Or.inr ⟨i, hi', hp⟩, by rw [e]; exact ep⟩

theorem box_axes (b : Box K) (hb : b.isValid = true) :
    AxisOk V3.x b.min.x b.max.x b.Has ∧ AxisOk V3.y b.min.y b.max.y b.Has ∧ AxisOk V3.z b.min.z b.max.z b.Has := by
  have hv := b.isValid_iff.1 hb
  have hm : b.Has b.min := ⟨⟨le_rfl, hv.1⟩, ⟨le_rfl, hv.2.1⟩, ⟨le_rfl, hv.2.2⟩⟩
  have hM : b.Has b.max := ⟨⟨hv.1, le_rfl⟩, ⟨hv.2.1, le_rfl⟩, ⟨hv.2.2, le_rfl⟩⟩
  exact ⟨⟨fun p hp => hp.1, ⟨_, hm, rfl⟩, ⟨_, hM, rfl⟩⟩, ⟨fun p hp => hp.2.1, ⟨_, hm, rfl⟩, ⟨_, hM, rfl⟩⟩,
    ⟨fun p hp => hp.2.2, ⟨_, hm, rfl⟩, ⟨_, hM, rfl⟩⟩⟩

/-- One coordinate, starting with a point. -/
theorem axis_reset (f : V3 K → K) (hf : f = V3.x ∨ f = V3.y ∨ f = V3.z) (p : V3 K) (is : List (Item K)) (h : ∀ i ∈ is, i.Nonempty) (nbig : K)
    (hq : ∃ q, (∃ i ∈ is, i.Has q) ∧ f p ≤ f q) (hbig : nbig < f p) :
    AxisOk f ((is.map (Item.range f)).foldl step1 (f p, nbig)).1 ((is.map (Item.range f)).foldl step1 (f p, nbig)).2
      (fun q => q = p ∨ ∃ i ∈ is, i.Has q) := by
  have ok := ranges_ok f hf is h
  obtain ⟨m1, m2⟩ := fold1_fst_le (is.map (Item.range f)) (f p, nbig)
  have key : ∀ i ∈ is, f p ≤ (i.range f).hi → (i.range f).hi ≤ ((is.map (Item.range f)).foldl step1 (f p, nbig)).2 := by
    intro i hi hl
    exact fold1_hi_le _ (f p, nbig) ok _ (List.mem_map_of_mem hi) hl
  have top : f p ≤ ((is.map (Item.range f)).foldl step1 (f p, nbig)).2 := by
    obtain ⟨q, ⟨i, hi, hq⟩, le⟩ := hq
    have l := le.trans ((rangeOf f hf i (h i hi)).has q hq).2
    exact l.trans (key i hi l)
  refine ⟨?_, ?_, ?_⟩
  · rintro q (rfl | ⟨i, hi', hp⟩)
    · exact ⟨m1, top⟩
    · have q' := rangeOf f hf i (h i hi')
      have mem : i.range f ∈ is.map (Item.range f) := List.mem_map_of_mem hi'
      refine ⟨(m2 _ mem).trans (q'.has _ hp).1, ?_⟩
      by_cases hl : f p ≤ (i.range f).hi
      · exact (q'.has _ hp).2.trans (key i hi' hl)
      · exact ((q'.has _ hp).2.trans (not_le.1 hl).le).trans top
  · rcases fold1_fst_eq (is.map (Item.range f)) (f p, nbig) with e | ⟨r, hr, e⟩
    · exact ⟨p, Or.inl rfl, by rw [e]⟩
    · obtain ⟨i, hi', rfl⟩ := List.mem_map.1 hr
      obtain ⟨q, hp, ep⟩ := (rangeOf f hf i (h i hi')).lo
      exact ⟨q, Or.inr ⟨i, hi', hp⟩, by rw [e]; exact ep⟩
  · rcases fold1_snd_eq (is.map (Item.range f)) (f p, nbig) ok with e | ⟨r, hr, e⟩
    · rw [e] at top; exact absurd hbig (not_lt.2 top)
    · obtain ⟨i, hi', rfl⟩ := List.mem_map.1 hr
      obtain ⟨q, hp, ep⟩ := (rangeOf f hf i (h i hi')).hi
      exact ⟨q, Or.inr ⟨i, hi', hp⟩, by rw [e]; exact ep⟩

/-- If the first point is above all others, it is lost. -/
theorem axis_reset_lost (f : V3 K → K) (hf : f = V3.x ∨ f = V3.y ∨ f = V3.z) (p : V3 K) (is : List (Item K)) (h : ∀ i ∈ is, i.Nonempty) (nbig : K)
    (hbig : nbig < f p) (top : f p ≤ ((is.map (Item.range f)).foldl step1 (f p, nbig)).2) : ∃ q, (∃ i ∈ is, i.Has q) ∧ f p ≤ f q := by
  rcases fold1_snd_eq (is.map (Item.range f)) (f p, nbig) (ranges_ok f hf is h) with e | ⟨r, hr, e⟩
  · rw [e] at top; exact absurd hbig (not_lt.2 top)
  · obtain ⟨i, hi', rfl⟩ := List.mem_map.1 hr
    obtain ⟨q, hp, ep⟩ := (rangeOf f hf i (h i hi')).hi
    exact ⟨q, ⟨i, hi', hp⟩, by rw [ep, ← e]; exact top⟩

theorem reset_box (big : K) (b : Box K) (h1 : Within big b.min) (h2 : Within big b.max) : (Box.reset big).includeBox b = b := by
  obtain ⟨x1, y1, z1⟩ := h1
  obtain ⟨x2, y2, z2⟩ := h2
  ext <;> simp [Box.includeBox, Box.reset, x1.2, y1.2, z1.2, x2.1, y2.1, z2.1]

theorem reset_point (big : K) (p : V3 K) (h : Within big p) : (Box.reset big).includePoint p = ⟨p, ⟨-big, -big, -big⟩⟩ := by
  obtain ⟨x1, y1, z1⟩ := h
  ext <;> simp [Box.includePoint, Box.reset, include1, x1.2, y1.2, z1.2]

theorem pair_eq {a b : K} {q : K × K} (h : (a, b) = q) : a = q.1 ∧ b = q.2 := by rw [← h]; exact ⟨rfl, rfl⟩

theorem items_valid (b : Box K) (hb : b.isValid = true) (is : List (Item K)) (h : ∀ i ∈ is, i.Nonempty) :
    (is.foldl Box.includeItem b).Smallest (fun p => b.Has p ∨ ∃ i ∈ is, i.Has p) := by
  obtain ⟨ax, ay, az⟩ := box_axes b hb
  obtain ⟨x1, x2⟩ := pair_eq (fold_x is b)
  obtain ⟨y1, y2⟩ := pair_eq (fold_y is b)
  obtain ⟨z1, z2⟩ := pair_eq (fold_z is b)
  apply smallest_of_axes
  · rw [x1, x2]; exact axis_valid V3.x (by simp) is h _ _ _ ax
  · rw [y1, y2]; exact axis_valid V3.y (by simp) is h _ _ _ ay
  · rw [z1, z2]; exact axis_valid V3.z (by simp) is h _ _ _ az

theorem items_point (big : K) (p : V3 K) (hp : Within big p) (is : List (Item K)) (h : ∀ i ∈ is, i.Nonempty)
    (hx : ∃ q, (∃ i ∈ is, i.Has q) ∧ p.x ≤ q.x) (hy : ∃ q, (∃ i ∈ is, i.Has q) ∧ p.y ≤ q.y) (hz : ∃ q, (∃ i ∈ is, i.Has q) ∧ p.z ≤ q.z) :
    (is.foldl Box.includeItem ((Box.reset big).includePoint p)).Smallest (fun q => q = p ∨ ∃ i ∈ is, i.Has q) := by
  rw [reset_point big p hp]
  obtain ⟨x1, x2⟩ := pair_eq (fold_x is ⟨p, ⟨-big, -big, -big⟩⟩)
  obtain ⟨y1, y2⟩ := pair_eq (fold_y is ⟨p, ⟨-big, -big, -big⟩⟩)
  obtain ⟨z1, z2⟩ := pair_eq (fold_z is ⟨p, ⟨-big, -big, -big⟩⟩)
  apply smallest_of_axes
  · rw [x1, x2]; exact axis_reset V3.x (by simp) p is h _ hx hp.1.1
  · rw [y1, y2]; exact axis_reset V3.y (by simp) p is h _ hy hp.2.1.1
  · rw [z1, z2]; exact axis_reset V3.z (by simp) p is h _ hz hp.2.2.1

theorem items_point_lost (big : K) (p : V3 K) (hp : Within big p) (is : List (Item K)) (h : ∀ i ∈ is, i.Nonempty)
    (hb : (is.foldl Box.includeItem ((Box.reset big).includePoint p)).Has p) :
    (∃ q, (∃ i ∈ is, i.Has q) ∧ p.x ≤ q.x) ∧ (∃ q, (∃ i ∈ is, i.Has q) ∧ p.y ≤ q.y) ∧ ∃ q, (∃ i ∈ is, i.Has q) ∧ p.z ≤ q.z := by
  rw [reset_point big p hp] at hb
  obtain ⟨x1, x2⟩ := pair_eq (fold_x is ⟨p, ⟨-big, -big, -big⟩⟩)
  obtain ⟨y1, y2⟩ := pair_eq (fold_y is ⟨p, ⟨-big, -big, -big⟩⟩)
  obtain ⟨z1, z2⟩ := pair_eq (fold_z is ⟨p, ⟨-big, -big, -big⟩⟩)
  refine ⟨axis_reset_lost V3.x (by simp) p is h _ hp.1.1 ?_, axis_reset_lost V3.y (by simp) p is h _ hp.2.1.1 ?_,
    axis_reset_lost V3.z (by simp) p is h _ hp.2.2.1 ?_⟩
  · have t := hb.1.2; rwa [x2] at t
  · have t := hb.2.1.2; rwa [y2] at t
  · have t := hb.2.2.2; rwa [z2] at t

end Box

section Ordered
variable {K : Type} [Field K] [LinearOrder K] [IsStrictOrderedRing K]

theorem affine_ge {lo a r x0 x1 x : K} (h0 : lo ≤ a * x0 + r) (h1 : lo ≤ a * x1 + r) (hx : x0 ≤ x ∧ x ≤ x1) : lo ≤ a * x + r := by
  rcases le_total 0 a with ha | ha
  · have := mul_le_mul_of_nonneg_left hx.1 ha; linarith
  · have := mul_le_mul_of_nonpos_left hx.2 ha; linarith

theorem affine_le {hi a r x0 x1 x : K} (h0 : a * x0 + r ≤ hi) (h1 : a * x1 + r ≤ hi) (hx : x0 ≤ x ∧ x ≤ x1) : a * x + r ≤ hi := by
  rcases le_total 0 a with ha | ha
  · have := mul_le_mul_of_nonneg_left hx.2 ha; linarith
  · have := mul_le_mul_of_nonpos_left hx.1 ha; linarith

/-- A linear function is bounded on a box by its bounds on the corners. -/
theorem affine_box (b : Box K) (A B C T lo hi : K) (h : ∀ c ∈ b.testPoints, lo ≤ A * c.x + B * c.y + C * c.z + T ∧ A * c.x + B * c.y + C * c.z + T ≤ hi)
    (p : V3 K) (hp : b.Has p) : lo ≤ A * p.x + B * p.y + C * p.z + T ∧ A * p.x + B * p.y + C * p.z + T ≤ hi := by
  simp only [Box.testPoints, List.mem_cons, List.not_mem_nil, or_false, forall_eq_or_imp, forall_eq] at h
  obtain ⟨h1, h2, h3, h4, h5, h6, h7, h8⟩ := h
  obtain ⟨hx, hy, hz⟩ := hp
  have e : ∀ x y z : K, A * x + B * y + C * z + T = A * x + (B * y + (C * z + T)) := fun x y z => by ring
  have e2 : ∀ x y z : K, A * x + B * y + C * z + T = B * y + (A * x + C * z + T) := fun x y z => by ring
  have e3 : ∀ x y z : K, A * x + B * y + C * z + T = C * z + (A * x + B * y + T) := fun x y z => by ring
  have go1 : ∀ y z, (lo ≤ A * b.min.x + B * y + C * z + T) → (lo ≤ A * b.max.x + B * y + C * z + T) → lo ≤ A * p.x + B * y + C * z + T := by
    intro y z u v; rw [e] at u v ⊢; exact affine_ge u v hx
  have go2 : ∀ x z, (lo ≤ A * x + B * b.min.y + C * z + T) → (lo ≤ A * x + B * b.max.y + C * z + T) → lo ≤ A * x + B * p.y + C * z + T := by
    intro x z u v; rw [e2] at u v ⊢; exact affine_ge u v hy
  have go3 : ∀ x y, (lo ≤ A * x + B * y + C * b.min.z + T) → (lo ≤ A * x + B * y + C * b.max.z + T) → lo ≤ A * x + B * y + C * p.z + T := by
    intro x y u v; rw [e3] at u v ⊢; exact affine_ge u v hz
  have gp1 : ∀ y z, (A * b.min.x + B * y + C * z + T ≤ hi) → (A * b.max.x + B * y + C * z + T ≤ hi) → A * p.x + B * y + C * z + T ≤ hi := by
    intro y z u v; rw [e] at u v ⊢; exact affine_le u v hx
  have gp2 : ∀ x z, (A * x + B * b.min.y + C * z + T ≤ hi) → (A * x + B * b.max.y + C * z + T ≤ hi) → A * x + B * p.y + C * z + T ≤ hi := by
    intro x z u v; rw [e2] at u v ⊢; exact affine_le u v hy
  have gp3 : ∀ x y, (A * x + B * y + C * b.min.z + T ≤ hi) → (A * x + B * y + C * b.max.z + T ≤ hi) → A * x + B * y + C * p.z + T ≤ hi := by
    intro x y u v; rw [e3] at u v ⊢; exact affine_le u v hz
  exact ⟨go3 _ _ (go2 _ _ (go1 _ _ h7.1 h5.1) (go1 _ _ h1.1 h3.1)) (go2 _ _ (go1 _ _ h4.1 h6.1) (go1 _ _ h2.1 h8.1)),
    gp3 _ _ (gp2 _ _ (gp1 _ _ h7.2 h5.2) (gp1 _ _ h1.2 h3.2)) (gp2 _ _ (gp1 _ _ h4.2 h6.2) (gp1 _ _ h2.2 h8.2))⟩

omit [IsStrictOrderedRing K] in
theorem fold_points (ps : List (V3 K)) (b : Box K) : ps.foldl Box.includePoint b = (ps.map Item.point).foldl Box.includeItem b := by
  induction ps generalizing b with
  | nil => rfl
  | cons p ps ih => simp only [List.foldl_cons, List.map_cons, ih]; rfl

omit [IsStrictOrderedRing K] in
theorem mem_points (ps : List (V3 K)) (p : V3 K) : (∃ i ∈ ps.map Item.point, i.Has p) ↔ p ∈ ps := by
  constructor
  · rintro ⟨i, hi, hp⟩
    obtain ⟨q, hq, rfl⟩ := List.mem_map.1 hi
    have : p = q := hp
    rwa [this]
  · intro h; exact ⟨.point p, List.mem_map_of_mem h, rfl⟩

omit [IsStrictOrderedRing K] in
theorem testPoints_has (b : Box K) (hb : b.isValid = true) (c : V3 K) (hc : c ∈ b.testPoints) : b.Has c := by
  obtain ⟨hx, hy, hz⟩ := b.isValid_iff.1 hb
  simp only [Box.testPoints, List.mem_cons, List.not_mem_nil, or_false] at hc
  rcases hc with rfl | rfl | rfl | rfl | rfl | rfl | rfl | rfl <;> simp [Box.Has, hx, hy, hz]

/-- The first corner is not above all others. -/
theorem first_corner (b : Box K) (hb : b.isValid = true) (A B C T : K) (h : 0 ≤ A ∨ B ≤ 0 ∨ 0 ≤ C) :
    ∃ c ∈ b.testPoints.tail, A * b.min.x + B * b.max.y + C * b.min.z + T ≤ A * c.x + B * c.y + C * c.z + T := by
  obtain ⟨hx, hy, hz⟩ := b.isValid_iff.1 hb
  rcases h with h | h | h
  · refine ⟨⟨b.max.x, b.max.y, b.min.z⟩, by simp [Box.testPoints], ?_⟩
    have := mul_le_mul_of_nonneg_left hx h
    dsimp only; linarith
  · refine ⟨b.min, by simp [Box.testPoints], ?_⟩
    have := mul_le_mul_of_nonpos_left hy h
    linarith
  · refine ⟨⟨b.min.x, b.max.y, b.max.z⟩, by simp [Box.testPoints], ?_⟩
    have := mul_le_mul_of_nonneg_left hz h
    dsimp only; linarith

theorem transform_smallest (big : K) (b : Box K) (hb : b.isValid = true) (hinf : b ≠ Box.infinity big) (m : M44 K)
    (hw : ∀ p, b.Has p → Within big (m.transformCoordinate p))
    (hx : 0 ≤ m.m00 ∨ m.m10 ≤ 0 ∨ 0 ≤ m.m20) (hy : 0 ≤ m.m01 ∨ m.m11 ≤ 0 ∨ 0 ≤ m.m21) (hz : 0 ≤ m.m02 ∨ m.m12 ≤ 0 ∨ 0 ≤ m.m22) :
    (b.transform big m).Smallest (fun q => ∃ p, b.Has p ∧ q = m.transformCoordinate p) := by
  have hne : b.equals (Box.infinity big) = false := by
    by_contra hc
    simp only [Bool.not_eq_false, Box.equals, Bool.and_eq_true, decide_eq_true_eq] at hc
    apply hinf
    ext
    exacts [hc.1.1.1.1.1, hc.1.1.1.2, hc.1.2, hc.1.1.1.1.2, hc.1.1.2, hc.2]
  have e : b.transform big m = (b.testPoints.map m.transformCoordinate).foldl Box.includePoint (Box.reset big) := by
    unfold Box.transform
    rw [hb, hne]
    rfl
  rw [e]
  have e2 : b.testPoints.map m.transformCoordinate
      = m.transformCoordinate ⟨b.min.x, b.max.y, b.min.z⟩ :: (b.testPoints.tail.map m.transformCoordinate) := rfl
  rw [e2, List.foldl_cons, fold_points]
  have main := items_point big (m.transformCoordinate ⟨b.min.x, b.max.y, b.min.z⟩)
    (hw _ (testPoints_has b hb _ (by simp [Box.testPoints])))
    ((b.testPoints.tail.map m.transformCoordinate).map Item.point)
    (by
      intro i hi
      obtain ⟨q, -, rfl⟩ := List.mem_map.1 hi
      exact ⟨q, rfl⟩)
    (by
      obtain ⟨c, hc, l⟩ := first_corner b hb m.m00 m.m10 m.m20 m.m30 hx
      exact ⟨m.transformCoordinate c, (mem_points _ _).2 (List.mem_map_of_mem hc), l⟩)
    (by
      obtain ⟨c, hc, l⟩ := first_corner b hb m.m01 m.m11 m.m21 m.m31 hy
      exact ⟨m.transformCoordinate c, (mem_points _ _).2 (List.mem_map_of_mem hc), l⟩)
    (by
      obtain ⟨c, hc, l⟩ := first_corner b hb m.m02 m.m12 m.m22 m.m32 hz
      exact ⟨m.transformCoordinate c, (mem_points _ _).2 (List.mem_map_of_mem hc), l⟩)
  have corner : ∀ c ∈ b.testPoints, (fun q => q = m.transformCoordinate ⟨b.min.x, b.max.y, b.min.z⟩ ∨
      ∃ i ∈ (b.testPoints.tail.map m.transformCoordinate).map Item.point, i.Has q) (m.transformCoordinate c) := by
    intro c hc
    rw [show b.testPoints = ⟨b.min.x, b.max.y, b.min.z⟩ :: b.testPoints.tail from rfl] at hc
    rcases List.mem_cons.1 hc with rfl | hc
    · exact Or.inl rfl
    · exact Or.inr ((mem_points _ _).2 (List.mem_map_of_mem hc))
  obtain ⟨m1, m2⟩ := main
  constructor
  · rintro q ⟨p, hp, rfl⟩
    refine ⟨affine_box b m.m00 m.m10 m.m20 m.m30 _ _ (fun c hc => ?_) p hp, affine_box b m.m01 m.m11 m.m21 m.m31 _ _ (fun c hc => ?_) p hp,
      affine_box b m.m02 m.m12 m.m22 m.m32 _ _ (fun c hc => ?_) p hp⟩
    · exact (m1 _ (corner c hc)).1
    · exact (m1 _ (corner c hc)).2.1
    · exact (m1 _ (corner c hc)).2.2
  · intro c hc p hp
    refine m2 c ?_ p hp
    rintro q (rfl | hq)
    · exact hc _ ⟨_, testPoints_has b hb _ (by simp [Box.testPoints]), rfl⟩
    · obtain ⟨t, ht, rfl⟩ := List.mem_map.1 ((mem_points _ _).1 hq)
      exact hc _ ⟨t, testPoints_has b hb t (List.mem_of_mem_tail ht), rfl⟩

theorem mid_between {a b c d : K} (h1 : a ≤ b) (h2 : c ≤ d) (h3 : a ≤ d) (h4 : c ≤ b) :
    (a ≤ (min b d + max a c) / 2 ∧ (min b d + max a c) / 2 ≤ b) ∧ c ≤ (min b d + max a c) / 2 ∧ (min b d + max a c) / 2 ≤ d := by
  have l : max a c ≤ min b d := le_min (max_le h1 h4) (max_le h3 h2)
  have p1 := le_max_left a c
  have p2 := le_max_right a c
  have p3 := min_le_left b d
  have p4 := min_le_right b d
  refine ⟨⟨?_, ?_⟩, ?_, ?_⟩ <;> linarith

theorem mid_reflect {a b c d x : K} (h1 : a ≤ x ∧ x ≤ b) (h2 : c ≤ x ∧ x ≤ d) :
    (a ≤ 2 * ((min b d + max a c) / 2) - x ∧ 2 * ((min b d + max a c) / 2) - x ≤ b) ∧
      c ≤ 2 * ((min b d + max a c) / 2) - x ∧ 2 * ((min b d + max a c) / 2) - x ≤ d := by
  have l : max a c ≤ x := max_le h1.1 h2.1
  have l2 : x ≤ min b d := le_min h1.2 h2.2
  have p1 := le_max_left a c
  have p2 := le_max_right a c
  have p3 := min_le_left b d
  have p4 := min_le_right b d
  refine ⟨⟨?_, ?_⟩, ?_, ?_⟩ <;> linarith

theorem overlaps_iff (a b : Box K) (ha : a.isValid = true) (hb : b.isValid = true) : a.overlaps b = true ↔ ∃ p, a.Has p ∧ b.Has p := by
  constructor
  · intro h
    simp only [Box.overlaps, Bool.and_eq_true, decide_eq_true_eq] at h
    obtain ⟨⟨⟨⟨⟨h1, h2⟩, h3⟩, h4⟩, h5⟩, h6⟩ := h
    obtain ⟨ax, ay, az⟩ := a.isValid_iff.1 ha
    obtain ⟨bx, by', bz⟩ := b.isValid_iff.1 hb
    have mx := mid_between ax bx h1 h2
    have my := mid_between ay by' h3 h4
    have mz := mid_between az bz h5 h6
    exact ⟨a.overlapCenter b, ⟨mx.1, my.1, mz.1⟩, ⟨mx.2, my.2, mz.2⟩⟩
  · rintro ⟨p, pa, pb⟩
    simp only [Box.overlaps, Bool.and_eq_true, decide_eq_true_eq]
    exact ⟨⟨⟨⟨⟨pa.1.1.trans pb.1.2, pb.1.1.trans pa.1.2⟩, pa.2.1.1.trans pb.2.1.2⟩, pb.2.1.1.trans pa.2.1.2⟩, pa.2.2.1.trans pb.2.2.2⟩,
      pb.2.2.1.trans pa.2.2.2⟩

theorem overlapCenter_has (a b : Box K) (ha : a.isValid = true) (hb : b.isValid = true) (h : a.overlaps b = true) :
    a.Has (a.overlapCenter b) ∧ b.Has (a.overlapCenter b) := by
  simp only [Box.overlaps, Bool.and_eq_true, decide_eq_true_eq] at h
  obtain ⟨⟨⟨⟨⟨h1, h2⟩, h3⟩, h4⟩, h5⟩, h6⟩ := h
  obtain ⟨ax, ay, az⟩ := a.isValid_iff.1 ha
  obtain ⟨bx, by', bz⟩ := b.isValid_iff.1 hb
  have mx := mid_between ax bx h1 h2
  have my := mid_between ay by' h3 h4
  have mz := mid_between az bz h5 h6
  exact ⟨⟨mx.1, my.1, mz.1⟩, ⟨mx.2, my.2, mz.2⟩⟩

end Ordered

end Verif.Geo
