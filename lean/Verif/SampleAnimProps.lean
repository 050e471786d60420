import Verif.SampleAnimSpec

/-!
# C187: the sample times of animated scene nodes
-/

namespace Verif.FSample

theorem near_iff (a b : ℚ) : near a b = true ↔ |a - b| < tol := by
  unfold near
  rw [decide_eq_true_iff, abs_lt]
  constructor
  · rintro ⟨h1, h2⟩; exact ⟨by linarith, h1⟩
  · rintro ⟨h1, h2⟩; exact ⟨h2, by linarith⟩

theorem merge_mem : ∀ (ss cs : List ℚ) (x : ℚ), x ∈ merge ss cs → x ∈ ss ∨ x ∈ cs
  | [], cs, x, h => by rw [merge] at h; exact .inr h
  | s :: ss, [], x, h => by rw [merge] at h; exact .inl h; simp
  | s :: ss, c :: cs, x, h => by
    rw [merge] at h
    split at h
    · rcases List.mem_cons.1 h with rfl | h
      · exact .inl List.mem_cons_self
      · rcases merge_mem ss cs x h with h | h
        · exact .inl (List.mem_cons_of_mem s h)
        · exact .inr (List.mem_cons_of_mem c h)
    · split at h
      · rcases List.mem_cons.1 h with rfl | h
        · exact .inl List.mem_cons_self
        · rcases merge_mem ss (c :: cs) x h with h | h
          · exact .inl (List.mem_cons_of_mem s h)
          · exact .inr h
      · rcases List.mem_cons.1 h with rfl | h
        · exact .inr List.mem_cons_self
        · rcases merge_mem (s :: ss) cs x h with h | h
          · exact .inl h
          · exact .inr (List.mem_cons_of_mem c h)
termination_by ss cs => ss.length + cs.length

theorem merge_kept : ∀ (ss cs : List ℚ) (x : ℚ), x ∈ ss → x ∈ merge ss cs
  | [], cs, x, h => by cases h
  | s :: ss, [], x, h => by rw [merge]; exact h; simp
  | s :: ss, c :: cs, x, h => by
    rw [merge]
    split
    · rcases List.mem_cons.1 h with rfl | h
      · exact List.mem_cons_self
      · exact List.mem_cons_of_mem s (merge_kept ss cs x h)
    · split
      · rcases List.mem_cons.1 h with rfl | h
        · exact List.mem_cons_self
        · exact List.mem_cons_of_mem s (merge_kept ss (c :: cs) x h)
      · exact List.mem_cons_of_mem c (merge_kept (s :: ss) cs x h)
termination_by ss cs => ss.length + cs.length

theorem tol_pos : 0 < tol := by unfold tol; norm_num

theorem sampled_self {t : ℚ} {s : List ℚ} (h : t ∈ s) : Sampled t s := ⟨t, h, by rw [sub_self, abs_zero]; exact tol_pos⟩

theorem sampled_cons {t x : ℚ} {s : List ℚ} (h : Sampled t s) : Sampled t (x :: s) := by
  obtain ⟨y, hy, h⟩ := h
  exact ⟨y, List.mem_cons_of_mem x hy, h⟩

theorem merge_sampled : ∀ (ss cs : List ℚ) (x : ℚ), x ∈ cs → Sampled x (merge ss cs)
  | [], cs, x, h => by rw [merge]; exact sampled_self h
  | s :: ss, [], x, h => by cases h
  | s :: ss, c :: cs, x, h => by
    rw [merge]
    split
    · next hn =>
      rcases List.mem_cons.1 h with rfl | h
      · exact ⟨s, List.mem_cons_self, (near_iff s x).1 hn⟩
      · exact sampled_cons (merge_sampled ss cs x h)
    · split
      · exact sampled_cons (merge_sampled ss (c :: cs) x h)
      · rcases List.mem_cons.1 h with rfl | h
        · exact sampled_self List.mem_cons_self
        · exact sampled_cons (merge_sampled (s :: ss) cs x h)
termination_by ss cs => ss.length + cs.length

theorem merge_increasing : ∀ (ss cs : List ℚ), Increasing ss → cs.Pairwise (fun a b => a + tol ≤ b) → Increasing (merge ss cs)
  | [], cs, _, h => by
    rw [merge]
    exact h.imp fun {a b} h => by have := tol_pos; show a < b; linarith
  | s :: ss, [], h, _ => by rw [merge]; exact h; simp
  | s :: ss, c :: cs, hs, hc => by
    obtain ⟨s1, s2⟩ := List.pairwise_cons.1 hs
    obtain ⟨c1, c2⟩ := List.pairwise_cons.1 hc
    have tp := tol_pos
    rw [merge]
    split
    · next hn =>
      have := (abs_lt.1 ((near_iff s c).1 hn)).2
      refine List.pairwise_cons.2 ⟨fun x hx => ?_, merge_increasing ss cs s2 c2⟩
      rcases merge_mem ss cs x hx with h | h
      · exact s1 x h
      · have := c1 x h
        linarith
    · split
      · next hlt =>
        refine List.pairwise_cons.2 ⟨fun x hx => ?_, merge_increasing ss (c :: cs) s2 hc⟩
        rcases merge_mem ss (c :: cs) x hx with h | h
        · exact s1 x h
        · rcases List.mem_cons.1 h with rfl | h
          · exact hlt
          · have := c1 x h
            linarith
      · next hn hlt =>
        have hne : c < s := by
          rcases lt_or_eq_of_le (not_lt.1 hlt) with h | h
          · exact h
          · exact absurd ((near_iff s c).2 (by rw [h, sub_self, abs_zero]; exact tp)) hn
        refine List.pairwise_cons.2 ⟨fun x hx => ?_, merge_increasing (s :: ss) cs hs c2⟩
        rcases merge_mem (s :: ss) cs x hx with h | h
        · rcases List.mem_cons.1 h with rfl | h
          · exact hne
          · exact hne.trans (s1 x h)
        · have := c1 x h
          linarith
termination_by ss cs => ss.length + cs.length

theorem insert_mem {t x : ℚ} : ∀ {s : List ℚ}, x ∈ insertTime t s → x = t ∨ x ∈ s
  | [], h => .inr h
  | y :: s, h => by
    unfold insertTime at h
    split at h
    · exact .inr h
    · split at h
      · rcases List.mem_cons.1 h with h | h
        · exact .inl h
        · exact .inr h
      · rcases List.mem_cons.1 h with rfl | h
        · exact .inr List.mem_cons_self
        · rcases insert_mem h with h | h
          · exact .inl h
          · exact .inr (List.mem_cons_of_mem y h)

theorem insert_kept {t x : ℚ} : ∀ {s : List ℚ}, x ∈ s → x ∈ insertTime t s
  | y :: s, h => by
    unfold insertTime
    split
    · exact h
    · split
      · exact List.mem_cons_of_mem t h
      · rcases List.mem_cons.1 h with rfl | h
        · exact List.mem_cons_self
        · exact List.mem_cons_of_mem y (insert_kept h)

theorem insert_increasing {t : ℚ} : ∀ {s : List ℚ}, Increasing s → Increasing (insertTime t s)
  | [], h => h
  | y :: s, h => by
    obtain ⟨h1, h2⟩ := List.pairwise_cons.1 h
    unfold insertTime
    split
    · exact h
    · next hn =>
      split
      · next hgt =>
        refine List.pairwise_cons.2 ⟨fun x hx => ?_, h⟩
        rcases List.mem_cons.1 hx with rfl | hx
        · exact hgt
        · exact lt_trans hgt (h1 x hx)
      · next hgt =>
        refine List.pairwise_cons.2 ⟨fun x hx => ?_, insert_increasing h2⟩
        rcases insert_mem hx with rfl | hx
        · rcases lt_or_eq_of_le (not_lt.1 hgt) with e | e
          · exact e
          · exact absurd ((near_iff y x).2 (by rw [e, sub_self, abs_zero]; exact tol_pos)) hn
        · exact h1 x hx

theorem insert_sampled {t : ℚ} : ∀ {s : List ℚ}, (∃ x ∈ s, t < x) → Sampled t (insertTime t s)
  | [], h => by obtain ⟨x, hx, _⟩ := h; cases hx
  | y :: s, h => by
    unfold insertTime
    split
    · next hn => exact ⟨y, List.mem_cons_self, (near_iff y t).1 hn⟩
    · split
      · exact sampled_self List.mem_cons_self
      · next hgt =>
        obtain ⟨x, hx, hlt⟩ := h
        rcases List.mem_cons.1 hx with rfl | hx
        · exact absurd hlt hgt
        · exact sampled_cons (insert_sampled ⟨x, hx, hlt⟩)

theorem inserts_kept {x : ℚ} : ∀ (ts : List ℚ) {s : List ℚ}, x ∈ s → x ∈ ts.foldl (fun s t => insertTime t s) s
  | [], _, h => h
  | _ :: ts, _, h => inserts_kept ts (insert_kept h)

theorem inserts_increasing : ∀ (ts : List ℚ) {s : List ℚ}, Increasing s → Increasing (ts.foldl (fun s t => insertTime t s) s)
  | [], _, h => h
  | _ :: ts, _, h => inserts_increasing ts (insert_increasing h)

theorem inserts_sampled {t : ℚ} : ∀ (ts : List ℚ) {s : List ℚ}, t ∈ ts → (∃ x ∈ s, t < x) → Sampled t (ts.foldl (fun s t => insertTime t s) s)
  | u :: ts, s, h, ⟨x, hx, hlt⟩ => by
    rcases List.mem_cons.1 h with rfl | h
    · obtain ⟨y, hy, hn⟩ := insert_sampled ⟨x, hx, hlt⟩
      exact ⟨y, inserts_kept ts hy, hn⟩
    · exact inserts_sampled ts h ⟨x, insert_kept hx, hlt⟩

theorem wraps_kept {x : ℚ} : ∀ (ks : List Key) {s : List ℚ}, x ∈ s → x ∈ addWraps ks s
  | [], _, h => by unfold addWraps; exact h
  | [_], _, h => by unfold addWraps; exact h
  | p :: c :: ks, s, h => by
    unfold addWraps
    exact wraps_kept (c :: ks) (inserts_kept _ h)

theorem wraps_increasing : ∀ (ks : List Key) {s : List ℚ}, Increasing s → Increasing (addWraps ks s)
  | [], _, h => by unfold addWraps; exact h
  | [_], _, h => by unfold addWraps; exact h
  | p :: c :: ks, s, h => by
    unfold addWraps
    exact wraps_increasing (c :: ks) (inserts_increasing _ h)

theorem curve_kept {x : ℚ} {i : Int} {s : List ℚ} (y : Option (List Key) × Nat) (h : x ∈ s) : x ∈ sampleCurve i s y := by
  unfold sampleCurve
  split
  · exact h
  · split
    · exact wraps_kept _ (merge_kept _ _ x h)
    · exact merge_kept _ _ x h

theorem curves_kept {x : ℚ} {i : Int} : ∀ (ys : List (Option (List Key) × Nat)) {s : List ℚ}, x ∈ s → x ∈ ys.foldl (sampleCurve i) s
  | [], _, h => h
  | y :: ys, _, h => curves_kept ys (curve_kept y h)

theorem animateds_kept {x : ℚ} : ∀ (as : List (Transf × Int)) {s : List ℚ}, x ∈ s → x ∈ as.foldl sampleAnimated s
  | [], _, h => h
  | a :: as, _, h => animateds_kept as (curves_kept a.1.curves.zipIdx h)

theorem collected_fst (ts : List Transf) : (collected ts).map (·.1) = ts.filter Transf.hasCurve := by
  unfold collected
  exact List.map_fst_zip (by rw [List.length_map]; exact List.length_filter_le _ _)

/-- What is sampled after one of the steps is sampled at the end. -/
theorem sampled_later {t : ℚ} {ts : List Transf} {a : Transf × Int} (ha : a ∈ collected ts) {y : Option (List Key) × Nat} (hy : y ∈ a.1.curves.zipIdx) (h : ∀ s, Sampled t (sampleCurve a.2 s y)) :
    Sampled t (sampleTimes ts) := by
  obtain ⟨l1, l2, e1⟩ := List.append_of_mem ha
  obtain ⟨m1, m2, e2⟩ := List.append_of_mem hy
  unfold sampleTimes
  rw [e1, List.foldl_append, List.foldl_cons]
  generalize List.foldl sampleAnimated [] l1 = s
  have : Sampled t (sampleAnimated s a) := by
    unfold sampleAnimated
    rw [e2, List.foldl_append, List.foldl_cons]
    obtain ⟨x, hx, hn⟩ := h (List.foldl (sampleCurve a.2) s m1)
    exact ⟨x, curves_kept m2 hx, hn⟩
  obtain ⟨x, hx, hn⟩ := this
  exact ⟨x, animateds_kept l2 hx, hn⟩

theorem has_collected {ts : List Transf} {t : Transf} {ks : List Key} (ht : t ∈ ts) (hk : t.Has ks) : ∃ a ∈ collected ts, a.1 = t ∧ ∃ i, (some ks, i) ∈ t.curves.zipIdx := by
  have hc : t.hasCurve = true := List.any_eq_true.2 ⟨some ks, hk, rfl⟩
  have : t ∈ (collected ts).map (·.1) := by rw [collected_fst]; exact List.mem_filter.2 ⟨ht, hc⟩
  obtain ⟨a, ha, e⟩ := List.mem_map.1 this
  obtain ⟨i, hi, e2⟩ := List.mem_iff_getElem.1 hk
  exact ⟨a, ha, e, i, List.mem_zipIdx_iff_getElem?.2 (by rw [List.getElem?_eq_getElem hi, e2])⟩

/-- **C187.** Each key of the curves of a node is sampled. -/
theorem keys_sampled (ts : List Transf) (t : Transf) (ht : t ∈ ts) (ks : List Key) (hk : t.Has ks) (k : Key) (hm : k ∈ ks) : Sampled k.1 (sampleTimes ts) := by
  obtain ⟨a, ha, rfl, i, hi⟩ := has_collected ht hk
  refine sampled_later ha hi fun s => ?_
  obtain ⟨x, hx, hn⟩ := merge_sampled s (ks.map (·.1)) k.1 (List.mem_map_of_mem hm)
  unfold sampleCurve
  simp only
  split
  · exact ⟨x, wraps_kept ks hx, hn⟩
  · exact ⟨x, hx, hn⟩

/-- **C187, partial.** The sample times are in order and different, if in each curve no two keys are equivalent. Missing: other curves (`close_keys_violated`). -/
theorem times_increasing_partial (ts : List Transf) (h : ∀ t ∈ ts, ∀ ks, t.Has ks → Apart ks) : Increasing (sampleTimes ts) := by
  have step : ∀ (i : Int) (ys : List (Option (List Key) × Nat)) (s : List ℚ), (∀ y ∈ ys, ∀ ks, y.1 = some ks → Apart ks) → Increasing s → Increasing (ys.foldl (sampleCurve i) s) := by
    intro i ys
    induction ys with
    | nil => intro s _ hs; exact hs
    | cons y ys ih =>
      intro s hy hs
      refine ih _ (fun z hz => hy z (List.mem_cons_of_mem y hz)) ?_
      unfold sampleCurve
      split
      · exact hs
      · next ks e =>
        have hm := merge_increasing s (ks.map (·.1)) hs (List.pairwise_map (f := fun k : Key => k.1) (R := fun a b => a + tol ≤ b).2 (hy y List.mem_cons_self ks e))
        split
        · exact wraps_increasing ks hm
        · exact hm
  have all : ∀ (as : List (Transf × Int)) (s : List ℚ), (∀ a ∈ as, a.1 ∈ ts) → Increasing s → Increasing (as.foldl sampleAnimated s) := by
    intro as
    induction as with
    | nil => intro s _ hs; exact hs
    | cons a as ih =>
      intro s ha hs
      refine ih _ (fun b hb => ha b (List.mem_cons_of_mem a hb)) ?_
      unfold sampleAnimated
      refine step _ _ _ (fun y hy ks e => h a.1 (ha a List.mem_cons_self) ks ?_) hs
      have := List.mem_zipIdx_iff_getElem?.1 hy
      rw [e] at this
      exact List.mem_of_getElem? this
  refine all _ _ (fun a ha => ?_) List.Pairwise.nil
  have : a.1 ∈ (collected ts).map (·.1) := List.mem_map_of_mem ha
  rw [collected_fst] at this
  exact (List.mem_filter.1 this).1

theorem inserts_mem {x : ℚ} : ∀ (ts : List ℚ) {s : List ℚ}, x ∈ ts.foldl (fun s t => insertTime t s) s → x ∈ ts ∨ x ∈ s
  | [], _, h => .inr h
  | t :: ts, _, h => by
    rcases inserts_mem ts h with h | h
    · exact .inl (List.mem_cons_of_mem t h)
    · rcases insert_mem h with rfl | h
      · exact .inl List.mem_cons_self
      · exact .inr h

theorem wraps_mem {x : ℚ} : ∀ (ks : List Key) {s : List ℚ}, x ∈ addWraps ks s → (∃ p c, Follow p c ks ∧ x ∈ wrapTimes p c) ∨ x ∈ s
  | [], _, h => by unfold addWraps at h; exact .inr h
  | [_], _, h => by unfold addWraps at h; exact .inr h
  | p :: c :: ks, s, h => by
    unfold addWraps at h
    rcases wraps_mem (c :: ks) h with ⟨p', c', ⟨a, b, e⟩, h⟩ | h
    · exact .inl ⟨p', c', ⟨p :: a, b, by rw [e]; rfl⟩, h⟩
    · rcases inserts_mem _ h with h | h
      · exact .inl ⟨p, c, ⟨[], ks, rfl⟩, h⟩
      · exact .inr h

/-- **C187.** Nothing else is sampled: each sample time is that of a key, or one of those that cut the time between two keys that follow each other. -/
theorem times_from_keys (ts : List Transf) (x : ℚ) (h : x ∈ sampleTimes ts) : ∃ t ∈ ts, ∃ ks, t.Has ks ∧ ((∃ k ∈ ks, x = k.1) ∨ ∃ p c, Follow p c ks ∧ x ∈ wrapTimes p c) := by
  have step : ∀ (i : Int) (t : Transf) (ys : List (Option (List Key) × Nat)) (s : List ℚ), (∀ y ∈ ys, y.1 ∈ t.curves) → x ∈ ys.foldl (sampleCurve i) s →
      x ∈ s ∨ ∃ ks, t.Has ks ∧ ((∃ k ∈ ks, x = k.1) ∨ ∃ p c, Follow p c ks ∧ x ∈ wrapTimes p c) := by
    intro i t ys
    induction ys with
    | nil => intro s _ hs; exact .inl hs
    | cons y ys ih =>
      intro s hy hs
      rcases ih _ (fun z hz => hy z (List.mem_cons_of_mem y hz)) hs with h | h
      · have hc := hy y List.mem_cons_self
        unfold sampleCurve at h
        split at h
        · exact .inl h
        · next ks e =>
          rw [e] at hc
          have hm : x ∈ merge s (ks.map (·.1)) → x ∈ s ∨ ∃ ks, t.Has ks ∧ ((∃ k ∈ ks, x = k.1) ∨ ∃ p c, Follow p c ks ∧ x ∈ wrapTimes p c) := by
            intro h
            rcases merge_mem _ _ x h with h | h
            · exact .inl h
            · obtain ⟨k, hk, e⟩ := List.mem_map.1 h
              exact .inr ⟨ks, hc, .inl ⟨k, hk, e.symm⟩⟩
          split at h
          · rcases wraps_mem ks h with h | h
            · exact .inr ⟨ks, hc, .inr h⟩
            · exact hm h
          · exact hm h
      · exact .inr h
  have all : ∀ (as : List (Transf × Int)) (s : List ℚ), (∀ a ∈ as, a.1 ∈ ts) → x ∈ as.foldl sampleAnimated s →
      x ∈ s ∨ ∃ t ∈ ts, ∃ ks, t.Has ks ∧ ((∃ k ∈ ks, x = k.1) ∨ ∃ p c, Follow p c ks ∧ x ∈ wrapTimes p c) := by
    intro as
    induction as with
    | nil => intro s _ hs; exact .inl hs
    | cons a as ih =>
      intro s ha hs
      rcases ih _ (fun b hb => ha b (List.mem_cons_of_mem a hb)) hs with h | h
      · rcases step a.2 a.1 _ _ (fun y hy => List.mem_of_getElem? (List.mem_zipIdx_iff_getElem?.1 hy)) h with h | h
        · exact .inl h
        · exact .inr ⟨a.1, ha a List.mem_cons_self, h⟩
      · exact .inr h
  have hin : ∀ a ∈ collected ts, a.1 ∈ ts := by
    intro a ha
    have : a.1 ∈ (collected ts).map (·.1) := List.mem_map_of_mem ha
    rw [collected_fst] at this
    exact (List.mem_filter.1 this).1
  exact (all _ _ hin h).resolve_left List.not_mem_nil

/-- **C187.** The times that are added between two keys of a rotation cut the time from one to the other into equal parts, and a steady rotation turns less than half a turn in each part. -/
theorem wrap_parts (p c : Key) (h : 180 ≤ |c.2 - p.2|) : ∃ n : Nat, 0 < n ∧ (wrapTimes p c).length = n ∧ (∀ i (hi : i < (wrapTimes p c).length), (wrapTimes p c)[i] = p.1 + (i + 1) * ((c.1 - p.1) / (n + 1))) ∧
    |(c.2 - p.2) / (n + 1)| < 180 := by
  have e : halfTurns p c = |c.2 - p.2| / 180 := by
    unfold halfTurns
    rw [abs_div]
    norm_num
  have h1 : 1 ≤ halfTurns p c := by rw [e]; linarith
  have hp : (0 : ℚ) < (⌊halfTurns p c⌋₊ : ℚ) + 1 := by positivity
  refine ⟨⌊halfTurns p c⌋₊, Nat.floor_pos.2 h1, ?_, ?_, ?_⟩
  · unfold wrapTimes
    rw [if_pos h1, List.length_map, List.length_range]
  · intro i hi
    unfold wrapTimes
    simp only [if_pos (show halfTurns p c ≥ 1 from h1), List.getElem_map, List.getElem_range]
    field_simp
    ring
  · rw [abs_div, abs_of_pos hp, div_lt_iff₀ hp]
    have := Nat.lt_floor_add_one (halfTurns p c)
    rw [e] at this ⊢
    linarith

/-- **C187, partial.** The times for large rotations are sampled, if all transforms have curves and the times are not closer than the tolerance. Missing: nodes with transforms without curves (`angle_shifted_violated`). -/
theorem wraps_sampled_partial (ts : List Transf) (hall : ∀ t ∈ ts, t.hasCurve = true) (t : Transf) (ht : t ∈ ts) (i : Nat) (hi : t.angle = i) (ks : List Key) (hk : t.curves[i]? = some (some ks)) (p c : Key) (hf : Follow p c ks)
    (hlen : tol * ((wrapTimes p c).length + 1) ≤ c.1 - p.1) (u : ℚ) (hu : u ∈ wrapTimes p c) : Sampled u (sampleTimes ts) := by
  have ec : collected ts = ts.map fun t => (t, t.angle) := by
    unfold collected
    rw [List.filter_eq_self.2 hall]
    clear hall ht
    induction ts with
    | nil => rfl
    | cons a ts ih => rw [List.map_cons, List.zip_cons_cons, ih, List.map_cons]
  have hm : (t, t.angle) ∈ collected ts := by rw [ec]; exact List.mem_map_of_mem ht
  refine sampled_later hm (y := (some ks, i)) (List.mem_zipIdx_iff_getElem?.2 hk) fun s => ?_
  unfold sampleCurve
  simp only [hi, if_true]
  obtain ⟨a, b, rfl⟩ := hf
  have hs : Sampled c.1 (merge s ((a ++ p :: c :: b).map (·.1))) := merge_sampled _ _ _ (List.mem_map_of_mem (by simp))
  generalize merge s ((a ++ p :: c :: b).map (·.1)) = l at hs
  have hlt : u + tol ≤ c.1 := by
    have h180 : 180 ≤ |c.2 - p.2| := by
      unfold wrapTimes at hu
      split at hu
      · next h =>
        unfold halfTurns at h
        rw [abs_div, abs_of_pos (show (0 : ℚ) < 180 by norm_num), ge_iff_le, le_div_iff₀ (by norm_num)] at h
        linarith
      · simp at hu
    obtain ⟨n, hn, hl, hg, -⟩ := wrap_parts p c h180
    obtain ⟨j, hj, rfl⟩ := List.mem_iff_getElem.1 hu
    rw [hg j hj]
    rw [hl] at hlen hj
    have hp : (0 : ℚ) < (n : ℚ) + 1 := by positivity
    have hq : tol ≤ (c.1 - p.1) / (n + 1) := by rw [le_div_iff₀ hp]; exact hlen
    have hjn : (j : ℚ) + 1 ≤ n := by exact_mod_cast hj
    have tp := tol_pos
    have e2 : c.1 = p.1 + (n + 1) * ((c.1 - p.1) / (n + 1)) := by field_simp; ring
    set q := (c.1 - p.1) / (n + 1) with hq'
    nlinarith
  have go : ∀ (a : List Key) (l : List ℚ), Sampled c.1 l → Sampled u (addWraps (a ++ p :: c :: b) l) := by
    intro a
    induction a with
    | nil =>
      intro l ⟨x, hx, hn⟩
      rw [List.nil_append]
      unfold addWraps
      have := (abs_lt.1 hn).1
      obtain ⟨y, hy, hyn⟩ := inserts_sampled (wrapTimes p c) hu ⟨x, hx, by linarith⟩
      exact ⟨y, wraps_kept _ hy, hyn⟩
    | cons z a ih =>
      intro l ⟨x, hx, hn⟩
      cases a with
      | nil =>
        rw [List.cons_append, List.nil_append]
        unfold addWraps
        exact ih _ ⟨x, inserts_kept _ hx, hn⟩
      | cons w a =>
        rw [List.cons_append, List.cons_append]
        unfold addWraps
        exact ih _ ⟨x, inserts_kept _ hx, hn⟩
  exact go a l hs

/-- **C187.** There is a matrix for each sample time: that of the node at this time, if the curves set all that changes. -/
theorem values_sampled {S M : Type} (eval : ℚ → S → S) (mat : S → M) (keys : List ℚ) (node : S) (h : ∀ t u s, eval t (eval u s) = eval t s) : (sampleValues eval mat keys node).2 = keys.map fun t => mat (eval t node) := by
  have go : ∀ (keys : List ℚ) (s : S) (ms : List M), (∀ t, eval t s = eval t node) → (keys.foldl (fun s t => (eval t s.1, s.2 ++ [mat (eval t s.1)])) (s, ms)).2 = ms ++ keys.map fun t => mat (eval t node) := by
    intro keys
    induction keys with
    | nil => intro s ms _; simp
    | cons k keys ih =>
      intro s ms hs
      rw [List.foldl_cons, ih _ _ fun t => by rw [h, hs], List.map_cons, hs, List.append_assoc]
      rfl
  exact go keys node [] fun _ => rfl

/-! ## What does not hold -/

/-- **C187, violated.** Sampling changes the node: it is left at the last sample time. -/
theorem node_moved_violated {S M : Type} (eval : ℚ → S → S) (mat : S → M) (keys : List ℚ) (t : ℚ) (node : S) (h : ∀ t u s, eval t (eval u s) = eval t s) : (sampleValues eval mat (keys ++ [t]) node).1 = eval t node := by
  have go : ∀ (keys : List ℚ) (s : S × List M), (∀ t, eval t s.1 = eval t node) → ∀ t, eval t (keys.foldl (fun s t => (eval t s.1, s.2 ++ [mat (eval t s.1)])) s).1 = eval t node := by
    intro keys
    induction keys with
    | nil => intro s hs; exact hs
    | cons k keys ih => intro s hs; exact ih _ fun t => by rw [h, hs]
  unfold sampleValues
  rw [List.foldl_append]
  exact go keys _ (fun _ => rfl) t

/-- A transform without curves, and a rotation whose angle goes from 0 to 720 degrees. -/
def still : Transf := ⟨[none, none, none], -1⟩
/-- See above. -/
def turning : Transf := ⟨[none, none, none, some [(0, 0), (1, 720)]], 3⟩

/-- **C187, violated.** A transform without curves in front of a rotation hides its large angles: the rotation alone is sampled between its keys, but not with the other transform. -/
theorem angle_shifted_violated : sampleTimes [turning] = [0, 1 / 5, 2 / 5, 3 / 5, 4 / 5, 1] ∧ sampleTimes [still, turning] = [0, 1] := by
  have hh : halfTurns (0, 0) (1, 720) = 4 := by unfold halfTurns; norm_num
  have hf : ⌊(4 : ℚ)⌋₊ = 4 := Nat.floor_ofNat 4
  have hw : wrapTimes (0, 0) (1, 720) = [1 / 5, 2 / 5, 3 / 5, 4 / 5] := by
    unfold wrapTimes
    rw [hh, hf, if_pos (by norm_num)]
    simp [List.range_succ]
    norm_num
  have hi : [1 / 5, 2 / 5, 3 / 5, 4 / 5].foldl (fun s t => insertTime t s) [0, 1] = [0, 1 / 5, 2 / 5, 3 / 5, 4 / 5, (1 : ℚ)] := by decide +kernel
  constructor
  · simp only [sampleTimes, collected, turning, Transf.hasCurve, sampleAnimated, sampleCurve, merge, addWraps, hw, hi, List.zipIdx, List.filter, List.any, Option.isSome, Bool.or_true, Bool.or_false, List.map, List.zip, List.zipWith, List.foldl]
    simp
  · simp [sampleTimes, collected, turning, still, Transf.hasCurve, sampleAnimated, sampleCurve, merge, List.zipIdx]

/-- **C187, violated.** If two keys of a curve are equivalent, the sample times need not be in order. -/
theorem close_keys_violated : merge [1] [1 - 9 / 100000, 1 - 5 / 100000] = [1, 1 - 5 / 100000] := by
  have : near 1 (1 - 9 / 100000) = true := by rw [near_iff]; unfold tol; norm_num [abs_lt]
  rw [merge, if_pos this, merge]

example : Apart [(0, 0), (1, 720)] ∧ turning.Has [(0, 0), (1, 720)] := by
  refine ⟨?_, by simp [Transf.Has, turning]⟩
  simp only [Apart, List.pairwise_cons, List.mem_singleton, forall_eq, List.not_mem_nil, false_implies, implies_true, List.Pairwise.nil, and_true]
  unfold tol
  norm_num

example : Increasing (sampleTimes [turning]) := by
  refine times_increasing_partial _ fun t ht ks hk => ?_
  rw [List.mem_singleton.1 ht] at hk
  simp only [Transf.Has, turning, List.mem_cons, reduceCtorEq, false_or, Option.some.injEq, List.not_mem_nil, or_false] at hk
  rw [hk]
  simp only [Apart, List.pairwise_cons, List.mem_singleton, forall_eq, List.not_mem_nil, false_implies, implies_true, List.Pairwise.nil, and_true]
  unfold tol
  norm_num

example : Sampled 1 (sampleTimes [still, turning]) := keys_sampled _ turning (by simp) [(0, 0), (1, 720)] (by simp [Transf.Has, turning]) (1, 720) (by simp)

example : ∀ u ∈ wrapTimes (0, 0) (1, 720), Sampled u (sampleTimes [turning]) := by
  refine wraps_sampled_partial _ (fun t ht => by rw [List.mem_singleton.1 ht]; rfl) turning (by simp) 3 rfl [(0, 0), (1, 720)] rfl _ _ ⟨[], [], rfl⟩ ?_
  have hh : halfTurns (0, 0) (1, 720) = 4 := by unfold halfTurns; norm_num
  have hf : ⌊(4 : ℚ)⌋₊ = 4 := Nat.floor_ofNat 4
  unfold wrapTimes tol
  rw [hh, hf, if_pos (by norm_num), List.length_map, List.length_range]
  norm_num

example : (sampleValues (fun t (_ : ℚ) => 2 * t) (fun s => s + 1) [0, 1] 7) = (2, [1, 3]) := by
  simp [sampleValues]
  norm_num

end Verif.FSample
