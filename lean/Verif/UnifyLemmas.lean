import Verif.UnifySpec
import Verif.PolyOps
import Mathlib.Data.List.Induction
import Mathlib.Data.List.Nodup

/-! # Lemmas about unique indices -/

namespace Verif.FUnify

open Verif.FPoly

/-! ## Numbering by first appearance -/

theorem eraseDups_snoc {β : Type} [BEq β] [LawfulBEq β] (l : List β) (x : β) : (l ++ [x]).eraseDups = if x ∈ l then l.eraseDups else l.eraseDups ++ [x] := by
  rw [List.eraseDups_append]
  split
  · rename_i h; simp [List.removeAll, h]
  · rename_i h; simp [List.removeAll, h, List.eraseDups_cons]

theorem mem_eraseDups' {β : Type} [BEq β] [LawfulBEq β] (l : List β) (x : β) : x ∈ l.eraseDups ↔ x ∈ l := List.mem_eraseDups

theorem nodup_eraseDups {β : Type} [BEq β] [LawfulBEq β] (l : List β) : l.eraseDups.Nodup := by
  induction l using List.reverseRecOn with
  | nil => simp
  | append_singleton l x ih =>
    rw [eraseDups_snoc]
    split
    · exact ih
    · rename_i h
      rw [List.nodup_append]
      refine ⟨ih, by simp, ?_⟩
      intro a ha b hb
      simp at hb
      subst hb
      intro e
      exact h ((mem_eraseDups' l _).mp (e ▸ ha))

theorem reps {β γ ι : Type} [BEq β] [LawfulBEq β] [BEq γ] [LawfulBEq γ] (f : ι → β) (g : ι → γ) : ∀ l : List ι, (∀ a ∈ l, ∀ b ∈ l, f a = f b ↔ g a = g b) →
    ∃ R : List ι, (∀ a ∈ R, a ∈ l) ∧ (l.map f).eraseDups = R.map f ∧ (l.map g).eraseDups = R.map g := by
  intro l
  induction l using List.reverseRecOn with
  | nil => intro _; exact ⟨[], by simp⟩
  | append_singleton l x ih =>
    intro h
    obtain ⟨R, r1, r2, r3⟩ := ih fun a ha b hb => h a (by simp [ha]) b (by simp [hb])
    have hiff : f x ∈ l.map f ↔ g x ∈ l.map g := by
      simp only [List.mem_map]
      constructor
      · rintro ⟨a, ha, e⟩; exact ⟨a, ha, (h a (by simp [ha]) x (by simp)).mp e⟩
      · rintro ⟨a, ha, e⟩; exact ⟨a, ha, (h a (by simp [ha]) x (by simp)).mpr e⟩
    rw [List.map_append, List.map_append, List.map_cons, List.map_cons, List.map_nil, List.map_nil, eraseDups_snoc, eraseDups_snoc]
    by_cases hx : f x ∈ l.map f
    · rw [if_pos hx, if_pos (hiff.mp hx)]
      exact ⟨R, fun a ha => by simp [r1 a ha], r2, r3⟩
    · rw [if_neg hx, if_neg (fun h' => hx (hiff.mpr h'))]
      refine ⟨R ++ [x], ?_, by simp [r2], by simp [r3]⟩
      intro a ha
      rcases List.mem_append.mp ha with ha | ha
      · simp [r1 a ha]
      · simp at ha; simp [ha]

theorem idxOf_map_congr {β γ ι : Type} [BEq β] [LawfulBEq β] [BEq γ] [LawfulBEq γ] (f : ι → β) (g : ι → γ) (x : ι) : ∀ R : List ι, (∀ a ∈ R, f a = f x ↔ g a = g x) →
    (R.map f).idxOf (f x) = (R.map g).idxOf (g x) := by
  intro R
  induction R with
  | nil => intro _; rfl
  | cons a R ih =>
    intro h
    have ha := h a (by simp)
    simp only [List.map_cons, List.idxOf_cons]
    by_cases e : f a = f x
    · have e' := ha.mp e
      simp [e, e']
    · have e' : ¬ g a = g x := fun h' => e (ha.mpr h')
      have e1 : (f a == f x) = false := by simpa using e
      have e2 : (g a == g x) = false := by simpa using e'
      rw [ih fun b hb => h b (by simp [hb]), e1, e2]

/-! ## The buckets -/

/-- The keys with a hash value, with their new indices. -/
def bucketOf (base : Nat) (seen : List (List Nat)) (h : Nat) : List (List Nat × Nat) :=
  (seen.zipIdx base).filter fun p => hashLoop p.1.length 0 p.1 0 = h

/-- The buckets hold exactly the keys seen so far. -/
structure Holds (W : Work) (base : Nat) (seen : List (List Nat)) : Prop where
  map : ∀ h, W.map h = if bucketOf base seen h = [] then none else some ⟨(bucketOf base seen h).flatMap Prod.fst, (bucketOf base seen h).map Prod.snd⟩
  total : W.total = base + seen.length

theorem probe_stop (key : List Nat) (total : Nat) (vals ns : List Nat) {cur : Nat} (h : cur ≠ total) : probe key total vals ns cur = cur := by
  cases ns with
  | nil => rfl
  | cons n ns => simp [probe, h]

theorem probe_ok (key : List Nat) (total : Nat) : ∀ q : List (List Nat × Nat), (∀ p ∈ q, p.1.length = key.length ∧ p.2 < total) →
    probe key total (q.flatMap Prod.fst) (q.map Prod.snd) total = match q.find? (·.1 = key) with | some p => p.2 | none => total := by
  intro q
  induction q with
  | nil => intro _; rfl
  | cons p q ih =>
    intro h
    obtain ⟨h1, h2⟩ := h p (by simp)
    simp only [List.flatMap_cons, List.map_cons, probe, if_true]
    rw [show (p.1 ++ List.flatMap Prod.fst q).take key.length = p.1 by rw [← h1]; simp,
      show (p.1 ++ List.flatMap Prod.fst q).drop key.length = List.flatMap Prod.fst q by rw [← h1]; simp]
    by_cases e : p.1 = key
    · rw [if_pos e, probe_stop _ _ _ _ (by omega)]
      simp [e]
    · rw [if_neg e, ih fun p' hp => h p' (by simp [hp])]
      simp [e]

theorem find_bucket (key : List Nat) : ∀ (seen : List (List Nat)) (base : Nat),
    (bucketOf base seen (hashLoop key.length 0 key 0)).find? (·.1 = key) = if key ∈ seen then some (key, base + seen.idxOf key) else none := by
  intro seen
  induction seen with
  | nil => intro base; rfl
  | cons x seen ih =>
    intro base
    have e : bucketOf base (x :: seen) (hashLoop key.length 0 key 0) =
        (if hashLoop x.length 0 x 0 = hashLoop key.length 0 key 0 then [(x, base)] else []) ++ bucketOf (base + 1) seen (hashLoop key.length 0 key 0) := by
      simp only [bucketOf, List.zipIdx_cons, List.filter_cons]
      split <;> simp_all
    rw [e, List.find?_append, ih]
    by_cases hx : x = key
    · subst hx; simp
    · have hx' : ¬ key = x := fun h => hx h.symm
      have : (if hashLoop x.length 0 x 0 = hashLoop key.length 0 key 0 then [(x, base)] else []).find? (·.1 = key) = none := by
        split <;> simp [hx]
      rw [this]
      simp only [Option.none_or, List.mem_cons, hx', false_or]
      split
      · rw [List.idxOf_cons_ne _ hx]
        simp; omega
      · rfl

theorem bucket_snoc (base : Nat) (seen : List (List Nat)) (key : List Nat) (h : Nat) : bucketOf base (seen ++ [key]) h =
    bucketOf base seen h ++ if h = hashLoop key.length 0 key 0 then [(key, base + seen.length)] else [] := by
  simp only [bucketOf, List.zipIdx_append, List.filter_append, List.zipIdx_cons, List.zipIdx_nil]
  congr 1
  by_cases e : h = hashLoop key.length 0 key 0
  · subst e; simp
  · have e' : ¬ hashLoop key.length 0 key 0 = h := fun x => e x.symm
    simp [e, e']

theorem bucket_snd {base : Nat} {seen : List (List Nat)} {h : Nat} {p : List Nat × Nat} (hp : p ∈ bucketOf base seen h) : p.1 ∈ seen ∧ p.2 < base + seen.length := by
  have := (List.mem_filter.mp hp).1
  obtain ⟨h1, h2, h3⟩ := List.mem_zipIdx this
  exact ⟨h3 ▸ List.getElem_mem _, h2⟩

theorem step_ok {W : Work} {base n : Nat} {seen : List (List Nat)} (h : Holds W base seen) (hl : ∀ x ∈ seen, x.length = n) {key : List Nat} (hk : key.length = n)
    (hs : base + seen.length < 2 ^ 32) :
    Holds (stepKey W key) base (if key ∈ seen then seen else seen ++ [key]) ∧ (stepKey W key).out = W.out ++ [base + seen.idxOf key] := by
  have hmod : W.total % 2 ^ 32 = W.total := Nat.mod_eq_of_lt (by rw [h.total]; exact hs)
  have hm := h.map (hashLoop key.length 0 key 0)
  have hfind := find_bucket key seen base
  -- the bucket and the index found
  have key1 : ∃ b, stepKey W key = pushVertex W (hashLoop key.length 0 key 0) b key (base + seen.idxOf key) ∧
      b = ⟨(bucketOf base seen (hashLoop key.length 0 key 0)).flatMap Prod.fst, (bucketOf base seen (hashLoop key.length 0 key 0)).map Prod.snd⟩ := by
    refine ⟨_, ?_, rfl⟩
    by_cases he : bucketOf base seen (hashLoop key.length 0 key 0) = []
    · rw [if_pos he] at hm
      rw [he] at hfind ⊢
      have hn : key ∉ seen := by
        intro hmem
        rw [if_pos hmem] at hfind
        simp at hfind
      simp only [stepKey, hm]
      rw [hmod, h.total, List.idxOf_eq_length hn]
      rfl
    · rw [if_neg he] at hm
      simp only [stepKey, hm]
      rw [hmod, probe_ok]
      · rw [hfind]
        by_cases hmem : key ∈ seen
        · rw [if_pos hmem]
        · rw [if_neg hmem, h.total, List.idxOf_eq_length hmem]
      · intro p hp
        obtain ⟨p1, p2⟩ := bucket_snd hp
        refine ⟨by rw [hl _ p1, hk], by rw [h.total]; exact p2⟩
  obtain ⟨b, hb, hbe⟩ := key1
  rw [hb]
  by_cases hmem : key ∈ seen
  · have hlt : seen.idxOf key < seen.length := List.idxOf_lt_length_of_mem hmem
    rw [pushVertex, if_neg (by rw [h.total]; omega), if_pos hmem]
    refine ⟨⟨?_, h.total⟩, rfl⟩
    intro z
    show (if z = hashLoop key.length 0 key 0 then some b else W.map z) = _
    split
    · rename_i e
      subst e
      rw [if_neg, hbe]
      intro e
      rw [e, if_pos hmem] at hfind
      simp at hfind
    · exact h.map z
  · rw [pushVertex, if_pos (by rw [h.total, List.idxOf_eq_length hmem]), if_neg hmem]
    refine ⟨⟨?_, by simp [h.total, Nat.add_assoc]⟩, rfl⟩
    intro z
    show (if z = hashLoop key.length 0 key 0 then some (⟨b.allValues ++ key, b.newIndex ++ [base + seen.idxOf key]⟩ : Bucket) else W.map z) = _
    rw [bucket_snoc]
    by_cases e : z = hashLoop key.length 0 key 0
    · subst e
      rw [if_pos rfl, if_pos rfl, if_neg (by simp), hbe, List.idxOf_eq_length hmem]
      simp
    · rw [if_neg e, if_neg e, List.append_nil]
      exact h.map z

/-! ## The corners of one polygon set -/

theorem corner_ok {owners : List (List (Option Nat))} {n base : Nat} {keys : Nat → List Nat} (hn : ∀ k, (keys k).length = n) : ∀ (is done : List Nat) (W : Work),
    (∀ k ∈ is, keyOf owners k = some (keys k)) → Holds W base (done.map keys).eraseDups → W.out = done.map (fun k => base + (done.map keys).eraseDups.idxOf (keys k)) →
    base + ((done ++ is).map keys).eraseDups.length < 2 ^ 32 →
    ∃ W', cornerLoop owners is W = some W' ∧ Holds W' base ((done ++ is).map keys).eraseDups ∧
      W'.out = (done ++ is).map (fun k => base + ((done ++ is).map keys).eraseDups.idxOf (keys k)) := by
  intro is
  induction is with
  | nil => intro done W _ h1 h2 _; exact ⟨W, rfl, by simpa using h1, by simpa using h2⟩
  | cons i is ih =>
    intro done W hk h1 h2 hlt
    have hle : ∀ a b : List (List Nat), a.eraseDups.length ≤ (a ++ b).eraseDups.length := by
      intro a b; rw [List.eraseDups_append]; simp
    have hlt' : base + (done.map keys).eraseDups.length < 2 ^ 32 := by
      have := hle (done.map keys) ((i :: is).map keys)
      rw [← List.map_append] at this
      omega
    obtain ⟨s1, s2⟩ := step_ok h1 (n := n) (by
      intro x hx
      rw [mem_eraseDups'] at hx
      obtain ⟨k, _, rfl⟩ := List.mem_map.mp hx
      exact hn k) (hn i) hlt'
    have e1 : ((done ++ [i]).map keys).eraseDups = if keys i ∈ (done.map keys).eraseDups then (done.map keys).eraseDups else (done.map keys).eraseDups ++ [keys i] := by
      rw [List.map_append, List.map_cons, List.map_nil, eraseDups_snoc]
      simp only [mem_eraseDups']
    rw [← e1] at s1
    obtain ⟨W', w1, w2, w3⟩ := ih (done ++ [i]) (stepKey W (keys i)) (fun k hk' => hk k (by simp [hk'])) s1 (by
      rw [s2, h2, List.map_append (l₁ := done), List.map_cons, List.map_nil, e1]
      by_cases hm : keys i ∈ (done.map keys).eraseDups
      · rw [if_pos hm]
      · rw [if_neg hm]
        congr 1
        · apply List.map_congr_left
          intro k hk'
          rw [List.idxOf_append_of_mem]
          rw [mem_eraseDups']
          exact List.mem_map_of_mem hk'
        · rw [List.idxOf_append_of_notMem hm, List.idxOf_eq_length hm]
          simp) (by simpa using hlt)
    refine ⟨W', ?_, by simpa using w2, by simpa using w3⟩
    rw [cornerLoop, hk i (by simp), Option.bind_some, w1]

theorem ownerLoop_ok {n : Nat} : ∀ (ins : List Input) (acc : List (List (Option Nat))), (∀ x ∈ ins, owns x = true → x.indices.length = n) →
    (∀ l ∈ acc, l.length = n) → ownerLoop ins acc = acc ++ (ins.filter fun x => owns x).map Input.indices := by
  intro ins
  induction ins with
  | nil => intro acc _ _; simp [ownerLoop]
  | cons x ins ih =>
    intro acc h1 h2
    by_cases ho : owns x = true
    · have hx := h1 x (by simp) ho
      rw [List.filter_cons, if_pos ho]
      cases acc with
      | nil =>
        simp only [ownerLoop, ho, if_true]
        rw [ih _ (fun y hy => h1 y (by simp [hy])) (by simp [hx])]
        simp
      | cons o os =>
        simp only [ownerLoop, ho, if_true]
        rw [if_pos (by rw [hx, h2 o (by simp)]), ih _ (fun y hy => h1 y (by simp [hy]))]
        · simp
        · intro l hl
          rcases List.mem_append.mp hl with hl | hl
          · exact h2 l hl
          · simp at hl; rw [hl, hx]
    · rw [List.filter_cons, if_neg ho, ← ih _ (fun y hy => h1 y (by simp [hy])) h2]
      simp [ownerLoop, ho]

theorem mapM_some {β γ : Type} (f : β → Option γ) (g : β → γ) : ∀ l : List β, (∀ x ∈ l, f x = some (g x)) → l.mapM f = some (l.map g) := by
  intro l
  induction l with
  | nil => intro _; rfl
  | cons a l ih =>
    intro h
    rw [List.mapM_cons, h a (by simp), ih fun x hx => h x (by simp [hx])]
    rfl

/-- What is needed of one polygon set. -/
structure SetOk (S : MSet) (n : Nat) : Prop where
  inv : Inv S.polys
  len : ∀ i, i < S.polys.inputs.length → (indexList S.polys.inputs i).length = n
  init : ∀ i, i < S.polys.inputs.length → none ∉ indexList S.polys.inputs i

theorem setOk_of {S : MSet} (h : Inv S.polys) (hi : ∀ i, i < S.polys.inputs.length → none ∉ indexList S.polys.inputs i) : SetOk S S.polys.counts.sum where
  inv := h
  len := by
    intro i hi
    rw [indexList_chan h.one (List.getElem?_eq_getElem hi), h.len _ (List.getElem_mem hi)]
  init := hi

theorem owner_list {S : MSet} (h : Inv S.polys) {x : Input} (hx : x ∈ S.polys.inputs) (ho : owns x = true) :
    ∃ i, i < S.polys.inputs.length ∧ indexList S.polys.inputs i = x.indices := by
  obtain ⟨i, hi⟩ := List.getElem?_of_mem hx
  have hlt : i < S.polys.inputs.length := by
    by_contra hn
    rw [List.getElem?_eq_none (by omega)] at hi
    simp at hi
  refine ⟨i, hlt, ?_⟩
  rw [indexList_chan h.one hi, chan_of_owner h.one hi ho]

theorem list_owner {S : MSet} (h : Inv S.polys) {i : Nat} (hi : i < S.polys.inputs.length) (hne : indexList S.polys.inputs i ≠ []) :
    ∃ x ∈ S.polys.inputs, owns x = true ∧ indexList S.polys.inputs i = x.indices := by
  have hx : S.polys.inputs[i]? = some S.polys.inputs[i] := List.getElem?_eq_getElem hi
  rw [indexList_chan h.one hx] at hne ⊢
  simp only [chan] at hne ⊢
  cases hf : S.polys.inputs.find? (fun y => y.offset = S.polys.inputs[i].offset && owns y) with
  | none => rw [hf] at hne; simp at hne
  | some y =>
    refine ⟨y, List.mem_of_find?_eq_some hf, ?_, rfl⟩
    have := List.find?_some hf
    simp only [Bool.and_eq_true] at this
    exact this.2

theorem set_ok {S : MSet} {n base : Nat} (h : SetOk S n) (hlt : base + (cornerKeys S).eraseDups.length < 2 ^ 32) :
    setIndicesOf S.polys base =
      some ((cornerKeys S).map (fun x => base + (cornerKeys S).eraseDups.idxOf x), base + (cornerKeys S).eraseDups.length) := by
  have hown : ∀ x ∈ S.polys.inputs, owns x = true → x.indices.length = n := by
    intro x hx ho
    obtain ⟨i, hi, e⟩ := owner_list h.inv hx ho
    rw [← e, h.len i hi]
  have hO := ownerLoop_ok (n := n) S.polys.inputs [] hown (by simp)
  rw [List.nil_append] at hO
  -- all corners
  cases hOs : ownerLoop S.polys.inputs [] with
  | nil =>
    have hz : (indexList S.polys.inputs 0).length = 0 := by
      by_contra hne
      have hne' : indexList S.polys.inputs 0 ≠ [] := by intro e; rw [e] at hne; simp at hne
      by_cases hlen : 0 < S.polys.inputs.length
      · obtain ⟨x, hx, ho, _⟩ := list_owner h.inv hlen hne'
        rw [hO] at hOs
        have : x ∈ S.polys.inputs.filter fun x => owns x := List.mem_filter.mpr ⟨hx, ho⟩
        rw [List.map_eq_nil_iff.mp hOs] at this
        simp at this
      · have : S.polys.inputs = [] := List.eq_nil_of_length_eq_zero (by omega)
        rw [this] at hne'
        exact hne' rfl
    have : cornerKeys S = [] := by simp [cornerKeys, hz]
    simp [setIndicesOf, hOs, this]
  | cons o os =>
    have hmem : ∀ l ∈ o :: os, ∃ x ∈ S.polys.inputs, owns x = true ∧ x.indices = l := by
      intro l hl
      rw [← hOs, hO] at hl
      obtain ⟨x, hx, e⟩ := List.mem_map.mp hl
      obtain ⟨h1, h2⟩ := List.mem_filter.mp hx
      exact ⟨x, h1, h2, e⟩
    obtain ⟨x0, hx0, ho0, e0⟩ := hmem o (by simp)
    obtain ⟨i0, hi0, _⟩ := owner_list h.inv hx0 ho0
    have hon : o.length = n := by rw [← e0, hown x0 hx0 ho0]
    have hn0 : (indexList S.polys.inputs 0).length = n := h.len 0 (by omega)
    let keys : Nat → List Nat := fun k => (o :: os).map fun l => ((l[k]?).join).getD 0
    have hk : ∀ k ∈ List.range n, keyOf (o :: os) k = some (keys k) := by
      intro k hk
      rw [List.mem_range] at hk
      apply mapM_some
      intro l hl
      obtain ⟨x, hx, ho, rfl⟩ := hmem l hl
      obtain ⟨i, hi, e⟩ := owner_list h.inv hx ho
      have hnone := h.init i hi
      rw [e] at hnone
      have hkl : k < x.indices.length := by rw [hown x hx ho]; exact hk
      rw [List.getElem?_eq_getElem hkl]
      cases hv : x.indices[k] with
      | none => exact absurd (hv ▸ List.getElem_mem hkl) hnone
      | some v => rfl
    have hker : ∀ a ∈ List.range n, ∀ b ∈ List.range n, keys a = keys b ↔ cornerKey S a = cornerKey S b := by
      intro a ha b hb
      rw [List.mem_range] at ha hb
      constructor
      · intro e
        apply List.map_congr_left
        intro i hi
        rw [List.mem_range] at hi
        have hli := h.len i hi
        obtain ⟨x, hx, ho, ex⟩ := list_owner h.inv hi (by intro e'; rw [e'] at hli; simp at hli; omega)
        have hxm : x.indices ∈ o :: os := by
          rw [← hOs, hO]
          exact List.mem_map_of_mem (List.mem_filter.mpr ⟨hx, ho⟩)
        have hnone := h.init i hi
        have := (List.map_inj_left.mp e) _ hxm
        rw [ex] at hnone hli ⊢
        rw [List.getElem?_eq_getElem (by omega), List.getElem?_eq_getElem (by omega)] at this ⊢
        cases hv : x.indices[a] with
        | none => exact absurd (hv ▸ List.getElem_mem (by omega)) hnone
        | some v =>
          cases hw : x.indices[b] with
          | none => exact absurd (hw ▸ List.getElem_mem (by omega)) hnone
          | some w => rw [hv, hw] at this; simpa using this
      · intro e
        apply List.map_congr_left
        intro l hl
        obtain ⟨x, hx, ho, rfl⟩ := hmem l hl
        obtain ⟨i, hi, ei⟩ := owner_list h.inv hx ho
        have := (List.map_inj_left.mp e) i (List.mem_range.mpr hi)
        rw [ei] at this
        rw [this]
    obtain ⟨R, r1, r2, r3⟩ := reps keys (cornerKey S) (List.range n) hker
    have hck : cornerKeys S = (List.range n).map (cornerKey S) := by rw [cornerKeys, hn0]
    rw [hck] at hlt ⊢
    obtain ⟨W, w1, w2, w3⟩ := corner_ok (owners := o :: os) (n := (o :: os).length) (base := base) (keys := keys) (by intro k; simp [keys]) (List.range n) []
      ⟨fun _ => none, base, []⟩ hk ⟨by intro z; simp [bucketOf], by simp⟩ (by simp) (by rw [List.nil_append, r2]; rw [r3] at hlt; simpa using hlt)
    rw [List.nil_append] at w2 w3
    simp only [setIndicesOf, hOs, hon]
    rw [w1, Option.map_some, w3, w2.total, r2, r3, List.map_map]
    congr 2
    · apply List.map_congr_left
      intro k hk'
      simp only [Function.comp]
      rw [idxOf_map_congr keys (cornerKey S) k R (fun a ha => hker a (r1 a ha) k hk')]
    · simp

theorem fill_ok : ∀ (sets : List MSet) (base : Nat), (∀ S ∈ sets, S.polys.prim ≠ .points) → (∀ S ∈ sets, ∃ n, SetOk S n) → base + vertexCount sets < 2 ^ 32 →
    fillLoop sets base = some (some (newIndices sets base, base + vertexCount sets)) := by
  intro sets
  induction sets with
  | nil => intro base _ _ _; rfl
  | cons S sets ih =>
    intro base hp hs hlt
    have hv : vertexCount (S :: sets) = (cornerKeys S).eraseDups.length + vertexCount sets := by simp [vertexCount]
    rw [hv] at hlt ⊢
    obtain ⟨n, hS⟩ := hs S (by simp)
    rw [fillLoop, if_neg (hp S (by simp)), set_ok hS (by omega), Option.bind_some,
      ih _ (fun S' h => hp S' (by simp [h])) (fun S' h => hs S' (by simp [h])) (by omega)]
    simp [newIndices, Nat.add_assoc]

end Verif.FUnify
