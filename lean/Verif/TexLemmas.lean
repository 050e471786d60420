import Verif.TexSpec
import Verif.LibSub

/-! # Lemmas about textures -/

namespace Verif.FTex

open Verif.FStr (Ch)
open Verif.FEff (Text text)

/-! ## Sids -/

theorem surfaceSid_inj {a b : Text} (h : surfaceSid a = surfaceSid b) : a = b := List.append_cancel_right h

theorem samplerSid_inj {a b : Text} (h : samplerSid a = samplerSid b) : a = b := List.append_cancel_right h

theorem suffix_ne : text "-surface" ≠ text "-sampler" := by decide +kernel

theorem suffix_len : (text "-surface").length = (text "-sampler").length := by decide +kernel

theorem sid_ne (a b : Text) : surfaceSid a ≠ samplerSid b := fun h => suffix_ne (List.append_inj' h suffix_len).2

theorem surfaceSid_ne (a : Text) : surfaceSid a ≠ [] := by
  intro h
  have := congrArg List.length h
  rw [surfaceSid, List.length_append, show (text "-surface").length = 8 by decide +kernel] at this
  simp at this

theorem samplerSid_ne (a : Text) : samplerSid a ≠ [] := by
  intro h
  have := congrArg List.length h
  rw [samplerSid, List.length_append, show (text "-sampler").length = 8 by decide +kernel] at this
  simp at this

theorem valid_zero {t : List Ch} (h : FXml.ValidId false t) : (0 : Int) ∉ t := by
  rcases t with _ | ⟨c, t⟩
  · simp
  · obtain ⟨h1, h2, _⟩ := h
    intro hm
    rcases List.mem_cons.1 hm with rfl | hm
    · exact absurd h1 (by decide)
    · exact absurd (h2 0 hm) (by decide)

theorem valid_sampler {t : Text} (h : FXml.ValidId false (surfaceSid t)) : FXml.ValidId false (samplerSid t) := by
  rcases t with _ | ⟨c, t⟩
  · have h0 : surfaceSid [] = (45 : Int) :: (text "surface") := by decide +kernel
    rw [h0] at h
    exact absurd h.1 (by decide)
  · obtain ⟨h1, h2, h3⟩ := h
    refine ⟨h1, ?_, ?_⟩
    · intro x hx
      rcases List.mem_append.1 hx with hx | hx
      · exact h2 x (List.mem_append.2 (Or.inl hx))
      · have : ∀ y ∈ text "-sampler", FXml.nameChar false y = true := by decide +kernel
        exact this x hx
    · rw [List.append_eq, List.length_append] at h3 ⊢
      rw [← suffix_len]; exact h3

theorem clean_surface {imgs : List Nat} {name : Nat → Text} (hn : GoodNames imgs name) (i : Nat) (hi : i ∈ imgs) : FLib.cleanSubId (surfaceSid (name i)) = some (surfaceSid (name i)) := by
  have hv : FXml.ValidId false (surfaceSid (name i)) := hn.valid i hi
  rw [FLib.cleanSubId_eq _ (valid_zero hv)]
  exact congrArg some ((FXml.clean_valid false _).2.1 hv)

theorem clean_sampler {imgs : List Nat} {name : Nat → Text} (hn : GoodNames imgs name) (i : Nat) (hi : i ∈ imgs) : FLib.cleanSubId (samplerSid (name i)) = some (samplerSid (name i)) := by
  have hv := valid_sampler (hn.valid i hi)
  rw [FLib.cleanSubId_eq _ (valid_zero hv)]
  exact congrArg some ((FXml.clean_valid false _).2.1 hv)

/-! ## Lists of objects with numbers -/

theorem find_num {A : Type} (num : A → Nat) {l : List A} (h : (l.map num).Nodup) (i : Nat) (a : A) : (l.find? fun x => decide (num x = i)) = some a ↔ a ∈ l ∧ num a = i := by
  induction l with
  | nil => simp
  | cons b bs ih =>
    rw [List.map_cons, List.nodup_cons] at h
    by_cases hb : num b = i
    · rw [List.find?_cons_of_pos (by simpa using hb)]
      constructor
      · intro e; obtain rfl := Option.some.inj e; exact ⟨by simp, hb⟩
      · rintro ⟨hm, ha⟩
        rcases List.mem_cons.1 hm with rfl | hm
        · rfl
        · exact absurd (List.mem_map.2 ⟨a, hm, ha.trans hb.symm⟩) h.1
    · rw [List.find?_cons_of_neg (by simpa using hb), ih h.2]
      constructor
      · rintro ⟨hm, ha⟩; exact ⟨by simp [hm], ha⟩
      · rintro ⟨hm, ha⟩
        rcases List.mem_cons.1 hm with rfl | hm
        · exact absurd ha hb
        · exact ⟨hm, ha⟩

theorem opt_ext {A : Type} {x y : Option A} (h : ∀ a, x = some a ↔ y = some a) : x = y := by
  rcases x with _ | a
  · rcases y with _ | b
    · rfl
    · exact absurd ((h b).2 rfl) (by simp)
  · exact ((h a).1 rfl).symm

/-! ## The invariant -/

/-- What a parameter may be: a surface of one image that keeps it while it lives, a bare sampler, or a sampler with the surface of its image. -/
def KindOk (imgs : List Nat) (name : Nat → Text) (ps : List P) (dead : List Nat) (p : P) : Prop :=
  match p.kind with
  | .surface l => ∃ img ∈ imgs, p.ref = surfaceSid (name img) ∧ l = if img ∈ dead then [] else [img]
  | .sampler none => p.ref = []
  | .sampler (some f) => ∃ img ∈ imgs, p.ref = samplerSid (name img) ∧ ∃ q ∈ ps, q.id = f ∧ q.ref = surfaceSid (name img) ∧ ∃ l, q.kind = .surface l
  | .other => False

/-- The invariant of the textures of an effect. -/
structure Inv (imgs : List Nat) (name : Nat → Text) (st : St) (dead : List Nat) : Prop where
  pids : (st.params.map P.id).Nodup
  pnext : ∀ p ∈ st.params, p.id < st.next
  tids : (st.texs.map T.id).Nodup
  tnext : ∀ t ∈ st.texs, t.id < st.next
  sets : ∀ t ∈ st.texs, t.setRef = []
  kinds : ∀ p ∈ st.params, KindOk imgs name st.params dead p
  links : ∀ t ∈ st.texs, ∀ s, t.sampler = some s → ∃ p ∈ st.params, p.id = s ∧ ∃ f, p.kind = .sampler f

variable {imgs : List Nat} {name : Nat → Text} {st : St} {dead : List Nat}

theorem Inv.param_iff (h : Inv imgs name st dead) (i : Nat) (p : P) : param st i = some p ↔ p ∈ st.params ∧ p.id = i := find_num P.id h.pids i p

theorem Inv.tex_iff (h : Inv imgs name st dead) (i : Nat) (t : T) : tex st i = some t ↔ t ∈ st.texs ∧ t.id = i := find_num T.id h.tids i t

/-- The image a sampler shows. -/
def samplerImage (st : St) (s : Nat) : Option Nat := (param st s).bind fun p =>
  match p.kind with
  | .sampler (some f) => (param st f).bind fun q =>
    match q.kind with
    | .surface l => l.head?
    | _ => none
  | _ => none

theorem image_eq (st : St) (t : Nat) : image st t = (tex st t).bind fun x => x.sampler.bind (samplerImage st) := rfl

theorem samplerImage_iff (h : Inv imgs name st dead) (s i : Nat) :
    samplerImage st s = some i ↔ ∃ p ∈ st.params, p.id = s ∧ ∃ f, p.kind = .sampler (some f) ∧ ∃ q ∈ st.params, q.id = f ∧ ∃ l, q.kind = .surface l ∧ l.head? = some i := by
  constructor
  · intro e
    rw [samplerImage, Option.bind_eq_some_iff] at e
    obtain ⟨p, hp, e⟩ := e
    rw [h.param_iff] at hp
    rcases hk : p.kind with l | (_ | f) | _
    · rw [hk] at e; simp at e
    · rw [hk] at e; simp at e
    · rw [hk] at e
      simp only [Option.bind_eq_some_iff] at e
      obtain ⟨q, hq, e⟩ := e
      rw [h.param_iff] at hq
      rcases hk' : q.kind with l | _ | _
      · rw [hk'] at e
        exact ⟨p, hp.1, hp.2, f, hk, q, hq.1, hq.2, l, hk', e⟩
      · rw [hk'] at e; simp at e
      · rw [hk'] at e; simp at e
    · rw [hk] at e; simp at e
  · rintro ⟨p, hp, hps, f, hk, q, hq, hqf, l, hk', e⟩
    rw [samplerImage, (h.param_iff s p).2 ⟨hp, hps⟩, Option.bind_some, hk]
    simp only
    rw [(h.param_iff f q).2 ⟨hq, hqf⟩, Option.bind_some, hk']
    exact e

/-- Of a legal sampler: the image in its sid, if it is not released. -/
theorem samplerImage_ref (h : Inv imgs name st dead) (hn : GoodNames imgs name) {p : P} (hp : p ∈ st.params) {f : Option Nat} (hk : p.kind = .sampler f) {img : Nat} (him : img ∈ imgs) (hr : p.ref = samplerSid (name img))
    (hd : img ∉ dead) : samplerImage st p.id = some img := by
  have hok := h.kinds p hp
  rcases f with _ | f
  · unfold KindOk at hok
    rw [hk] at hok
    simp only at hok
    rw [hr] at hok
    exact absurd hok (samplerSid_ne _)
  · unfold KindOk at hok
    rw [hk] at hok
    simp only at hok
    obtain ⟨i, hii, hi, q, hq, hqf, hqr, l, hql⟩ := hok
    have : i = img := hn.inj _ hii _ him (samplerSid_inj (hi.symm.trans hr))
    subst this
    have hok' := h.kinds q hq
    unfold KindOk at hok'
    rw [hql] at hok'
    obtain ⟨j, hji, hj, hl⟩ := hok'
    have : j = i := hn.inj _ hji _ hii (surfaceSid_inj (hj.symm.trans hqr))
    subst this
    exact (samplerImage_iff h _ _).2 ⟨p, hp, rfl, f, hk, q, hq, hqf, l, hql, by rw [hl, if_neg hd]; rfl⟩

theorem lookup_some (h : Inv imgs name st dead) {s : Text} (hs : s ≠ []) {i : Nat} {k : Kind} (e : lookup st s = some (i, k)) : ∃ p ∈ st.params, p.id = i ∧ p.kind = k ∧ p.ref = s := by
  rw [lookup, if_neg hs] at e
  rcases hf : st.params.find? fun p => decide (p.ref = s) with _ | q
  · rw [hf] at e
    simp only at e
    rw [if_neg] at e
    · simp at e
    · intro ha
      obtain ⟨t, ht, hts⟩ := List.any_eq_true.1 ha
      have := h.sets t ht
      rw [of_decide_eq_true hts] at this
      exact hs this
  · rw [hf] at e
    simp only [Option.some.injEq, Prod.mk.injEq] at e
    exact ⟨q, List.mem_of_find?_eq_some hf, e.1, e.2, by simpa using List.find?_some hf⟩

/-! ## The steps of the operations -/

theorem inv_addParam (h : Inv imgs name st dead) (r : Text) (k : Kind) (hk : KindOk imgs name (st.params ++ [⟨st.next, r, k⟩]) dead ⟨st.next, r, k⟩) : Inv imgs name (addParam st r k) dead := by
  have mono : ∀ p, KindOk imgs name st.params dead p → KindOk imgs name (st.params ++ [⟨st.next, r, k⟩]) dead p := by
    intro p hp
    unfold KindOk at hp ⊢
    rcases hk' : p.kind with l | (_ | f) | _ <;> rw [hk'] at hp <;> simp only at hp ⊢
    · exact hp
    · exact hp
    · obtain ⟨i, hii, hi, q, hq, hx⟩ := hp
      exact ⟨i, hii, hi, q, List.mem_append.2 (Or.inl hq), hx⟩
  refine ⟨?_, ?_, h.tids, fun t ht => Nat.lt_succ_of_lt (h.tnext t ht), h.sets, ?_, ?_⟩
  · rw [addParam, List.map_append, List.nodup_append]
    refine ⟨h.pids, by simp, ?_⟩
    intro a ha b hb
    obtain ⟨p, hp, rfl⟩ := List.mem_map.1 ha
    simp at hb; subst hb
    exact Nat.ne_of_lt (h.pnext p hp)
  · intro p hp
    rcases List.mem_append.1 hp with hp | hp
    · exact Nat.lt_succ_of_lt (h.pnext p hp)
    · simp at hp; subst hp; exact Nat.lt_succ_self _
  · intro p hp
    rcases List.mem_append.1 hp with hp | hp
    · exact mono p (h.kinds p hp)
    · simp at hp; subst hp; exact hk
  · intro t ht s hs
    obtain ⟨p, hp, hx⟩ := h.links t ht s hs
    exact ⟨p, List.mem_append.2 (Or.inl hp), hx⟩

theorem samplerImage_addParam (h : Inv imgs name st dead) (r : Text) (k : Kind) (hk : Inv imgs name (addParam st r k) dead) (s : Nat) (hs : s < st.next) :
    samplerImage (addParam st r k) s = samplerImage st s := by
  apply opt_ext
  intro i
  rw [samplerImage_iff hk, samplerImage_iff h]
  have hmem : ∀ p ∈ (addParam st r k).params, p.id < st.next → p ∈ st.params := by
    intro p hp hlt
    rcases List.mem_append.1 hp with hp | hp
    · exact hp
    · simp at hp; subst hp; exact absurd hlt (Nat.lt_irrefl _)
  constructor
  · rintro ⟨p, hp, hps, f, hkf, q, hq, hqf, hx⟩
    have hp' := hmem p hp (hps ▸ hs)
    have hok := h.kinds p hp'
    unfold KindOk at hok
    rw [hkf] at hok
    obtain ⟨_, _, _, q', hq', hqf', _⟩ := hok
    have := h.pnext q' hq'
    exact ⟨p, hp', hps, f, hkf, q, hmem q hq (by rw [hqf, ← hqf']; exact this), hqf, hx⟩
  · rintro ⟨p, hp, hps, f, hkf, q, hq, hx⟩
    exact ⟨p, List.mem_append.2 (Or.inl hp), hps, f, hkf, q, List.mem_append.2 (Or.inl hq), hx⟩

theorem setSampler_ids (st : St) (t : Nat) (s : Option Nat) : (setSampler st t s).texs.map T.id = st.texs.map T.id := by
  rw [setSampler, List.map_map]
  apply List.map_congr_left
  intro x _
  simp only [Function.comp]
  split <;> rfl

theorem inv_setSampler (h : Inv imgs name st dead) (t : Nat) (s : Option Nat) (hs : ∀ i, s = some i → ∃ p ∈ st.params, p.id = i ∧ ∃ f, p.kind = .sampler f) : Inv imgs name (setSampler st t s) dead := by
  refine ⟨h.pids, h.pnext, by rw [setSampler_ids]; exact h.tids, ?_, ?_, h.kinds, ?_⟩
  · intro x hx
    obtain ⟨y, hy, rfl⟩ := List.mem_map.1 hx
    split <;> exact h.tnext y hy
  · intro x hx
    obtain ⟨y, hy, rfl⟩ := List.mem_map.1 hx
    split <;> exact h.sets y hy
  · intro x hx i hi
    obtain ⟨y, hy, rfl⟩ := List.mem_map.1 hx
    by_cases hyt : y.id = t
    · rw [if_pos hyt] at hi; exact hs i hi
    · rw [if_neg hyt] at hi; exact h.links y hy i hi

theorem samplerImage_setSampler (st : St) (t : Nat) (s : Option Nat) : samplerImage (setSampler st t s) = samplerImage st := rfl

theorem find_setSampler (l : List T) (t u : Nat) (s : Option Nat) :
    ((l.map fun x => if x.id = t then { x with sampler := s } else x).find? fun x => decide (x.id = u)) =
      (l.find? fun x => decide (x.id = u)).map fun x => if u = t then { x with sampler := s } else x := by
  induction l with
  | nil => rfl
  | cons x xs ih =>
    have hid : (if x.id = t then { x with sampler := s } else x).id = x.id := by split <;> rfl
    by_cases hu : x.id = u
    · rw [List.map_cons, List.find?_cons_of_pos (by rw [hid]; simpa using hu), List.find?_cons_of_pos (by simpa using hu), Option.map_some, ← hu]
    · rw [List.map_cons, List.find?_cons_of_neg (by rw [hid]; simpa using hu), List.find?_cons_of_neg (by simpa using hu), ih]

theorem tex_setSampler (st : St) (t u : Nat) (s : Option Nat) : tex (setSampler st t s) u = (tex st u).map fun x => if u = t then { x with sampler := s } else x := find_setSampler st.texs t u s

theorem image_setSampler_other (st : St) (t u : Nat) (s : Option Nat) (hu : u ≠ t) : image (setSampler st t s) u = image st u := by
  rw [image_eq, image_eq, tex_setSampler, samplerImage_setSampler]
  simp only [if_neg hu]
  rcases tex st u <;> rfl

theorem image_setSampler_self (st : St) (t : Nat) (s : Option Nat) (ht : (tex st t).isSome) : image (setSampler st t s) t = s.bind (samplerImage st) := by
  rw [image_eq, tex_setSampler, samplerImage_setSampler]
  obtain ⟨x, hx⟩ := Option.isSome_iff_exists.1 ht
  rw [hx]; simp

/-- A release of a sampler changes no other parameter. -/
theorem release_params (h : Inv imgs name st dead) {p : P} (hp : p ∈ st.params) {f : Option Nat} (hk : p.kind = .sampler f) : (release st p.id).params = st.params.filter fun q => decide (q.id ≠ p.id) := by
  rw [release]
  simp only
  rw [show (st.params.filter fun q => decide (q.id ≠ p.id)) = (st.params.filter fun q => decide (q.id ≠ p.id)).map id by simp]
  rw [List.map_map]
  apply List.map_congr_left
  intro q hq
  have hq := (List.mem_filter.1 hq).1
  simp only [Function.comp, id]
  have hok := h.kinds q hq
  unfold KindOk at hok
  rcases hk' : q.kind with l | (_ | g) | _ <;> rw [hk'] at hok <;> rcases q with ⟨i, r, k⟩ <;> simp only at hk' <;> subst hk'
  · rfl
  · rfl
  · simp only at hok
    obtain ⟨_, _, _, q', hq', hg, _, l, hl⟩ := hok
    have : g ≠ p.id := by
      intro e
      have := (h.param_iff p.id q').2 ⟨hq', hg.trans e⟩
      rw [(h.param_iff p.id p).2 ⟨hp, rfl⟩] at this
      obtain rfl := Option.some.inj this
      rw [hk] at hl; simp at hl
    simp [Kind.forget, this]
  · rfl

theorem inv_release (h : Inv imgs name st dead) {p : P} (hp : p ∈ st.params) {f : Option Nat} (hk : p.kind = .sampler f) : Inv imgs name (release st p.id) dead := by
  have hps := release_params h hp hk
  have hids : (release st p.id).texs.map T.id = st.texs.map T.id := by
    rw [release, List.map_map]
    apply List.map_congr_left
    intro x _
    simp only [Function.comp]
    split <;> rfl
  refine ⟨?_, ?_, by rw [hids]; exact h.tids, ?_, ?_, ?_, ?_⟩
  · rw [hps]; exact h.pids.sublist (List.Sublist.map _ List.filter_sublist)
  · intro q hq; rw [hps] at hq; exact h.pnext q (List.mem_filter.1 hq).1
  · intro x hx
    obtain ⟨y, hy, rfl⟩ := List.mem_map.1 hx
    split <;> exact h.tnext y hy
  · intro x hx
    obtain ⟨y, hy, rfl⟩ := List.mem_map.1 hx
    split <;> exact h.sets y hy
  · intro q hq
    rw [hps] at hq ⊢
    have hq' := List.mem_filter.1 hq
    have hok := h.kinds q hq'.1
    unfold KindOk at hok ⊢
    rcases hk' : q.kind with l | (_ | g) | _ <;> rw [hk'] at hok <;> simp only at hok ⊢
    · exact hok
    · exact hok
    · obtain ⟨i, hii, hi, q', hq'', hg, hr, l, hl⟩ := hok
      refine ⟨i, hii, hi, q', List.mem_filter.2 ⟨hq'', ?_⟩, hg, hr, l, hl⟩
      have : q'.id ≠ p.id := by
        intro e
        have := (h.param_iff p.id q').2 ⟨hq'', e⟩
        rw [(h.param_iff p.id p).2 ⟨hp, rfl⟩] at this
        obtain rfl := Option.some.inj this
        rw [hk] at hl; simp at hl
      simpa using this
  · intro x hx s hs
    obtain ⟨y, hy, rfl⟩ := List.mem_map.1 hx
    by_cases hys : y.sampler = some p.id
    · rw [if_pos hys] at hs; simp at hs
    · rw [if_neg hys] at hs
      obtain ⟨q, hq, hqs, hqf⟩ := h.links y hy s hs
      refine ⟨q, ?_, hqs, hqf⟩
      rw [hps]
      refine List.mem_filter.2 ⟨hq, ?_⟩
      have : q.id ≠ p.id := by
        intro e
        exact hys (by rw [hs, ← hqs, e])
      simpa using this

theorem samplerImage_release (h : Inv imgs name st dead) {p : P} (hp : p ∈ st.params) {f : Option Nat} (hk : p.kind = .sampler f) (s : Nat) (hs : s ≠ p.id) :
    samplerImage (release st p.id) s = samplerImage st s := by
  have hps := release_params h hp hk
  apply opt_ext
  intro i
  rw [samplerImage_iff (inv_release h hp hk), samplerImage_iff h, hps]
  constructor
  · rintro ⟨q, hq, hqs, g, hg, q', hq', hx⟩
    exact ⟨q, (List.mem_filter.1 hq).1, hqs, g, hg, q', (List.mem_filter.1 hq').1, hx⟩
  · rintro ⟨q, hq, hqs, g, hg, q', hq', hqg, l, hl, hx⟩
    refine ⟨q, List.mem_filter.2 ⟨hq, by simpa [hqs] using hs⟩, hqs, g, hg, q', List.mem_filter.2 ⟨hq', ?_⟩, hqg, l, hl, hx⟩
    have : q'.id ≠ p.id := by
      intro e
      have := (h.param_iff p.id q').2 ⟨hq', e⟩
      rw [(h.param_iff p.id p).2 ⟨hp, rfl⟩] at this
      obtain rfl := Option.some.inj this
      rw [hk] at hl; simp at hl
    simpa using this

theorem find_release (l : List T) (i u : Nat) :
    ((l.map fun t => if t.sampler = some i then { t with sampler := none } else t).find? fun x => decide (x.id = u)) =
      (l.find? fun x => decide (x.id = u)).map fun t => if t.sampler = some i then { t with sampler := none } else t := by
  induction l with
  | nil => rfl
  | cons x xs ih =>
    have hid : (if x.sampler = some i then { x with sampler := none } else x).id = x.id := by split <;> rfl
    by_cases hu : x.id = u
    · rw [List.map_cons, List.find?_cons_of_pos (by rw [hid]; simpa using hu), List.find?_cons_of_pos (by simpa using hu), Option.map_some]
    · rw [List.map_cons, List.find?_cons_of_neg (by rw [hid]; simpa using hu), List.find?_cons_of_neg (by simpa using hu), ih]

theorem tex_release (st : St) (i u : Nat) : tex (release st i) u = (tex st u).map fun t => if t.sampler = some i then { t with sampler := none } else t := find_release st.texs i u

/-- The sampler of a texture is dropped: it has no image left, and neither have those that share it. -/
theorem drop_spec (h : Inv imgs name st dead) {t : Nat} {x : T} (hx : tex st t = some x) :
    Inv imgs name (dropSampler st x) dead ∧ (∀ u, (tex (dropSampler st x) u).isSome = (tex st u).isSome) ∧ image (dropSampler st x) t = none ∧
    (∀ u, Shares st t u → image (dropSampler st x) u = none) ∧ ∀ u, ¬ Shares st t u → image (dropSampler st x) u = image st u := by
  rcases hs : x.sampler with _ | s
  · have hd : dropSampler st x = st := by rw [dropSampler, hs]
    rw [hd]
    refine ⟨h, fun _ => rfl, ?_, ?_, fun _ _ => rfl⟩
    · rw [image_eq, hx, Option.bind_some, hs]; rfl
    · rintro u ⟨x', _, s, hx', _, hs', _⟩
      rw [hx] at hx'
      obtain rfl := Option.some.inj hx'
      rw [hs] at hs'; simp at hs'
  · have hd : dropSampler st x = release st s := by rw [dropSampler, hs]
    obtain ⟨hxm, hxt⟩ := (h.tex_iff t x).1 hx
    obtain ⟨p, hp, hps, f, hk⟩ := h.links x hxm s hs
    subst hps
    rw [hd]
    refine ⟨inv_release h hp hk, fun u => by rw [tex_release]; simp, ?_, ?_, ?_⟩
    · rw [image_eq, tex_release, hx]; simp [hs]
    · rintro u ⟨x', y, s, hx', hy, hs', hys⟩
      rw [hx] at hx'
      obtain rfl := Option.some.inj hx'
      rw [hs] at hs'
      obtain rfl := Option.some.inj hs'
      rw [image_eq, tex_release, hy]; simp [hys]
    · intro u hu
      rw [image_eq, image_eq, tex_release]
      rcases hy : tex st u with _ | y
      · rfl
      · by_cases hys : y.sampler = some p.id
        · exact absurd ⟨x, y, p.id, hx, hy, hs, hys⟩ hu
        · simp only [Option.map_some, Option.bind_some, if_neg hys]
          rcases hy' : y.sampler with _ | s'
          · rfl
          · rw [Option.bind_some, Option.bind_some]
            exact samplerImage_release h hp hk s' (by rintro rfl; exact hys hy')

theorem image_addParam (h : Inv imgs name st dead) (r : Text) (k : Kind) (hk : Inv imgs name (addParam st r k) dead) (u : Nat) : image (addParam st r k) u = image st u := by
  rw [image_eq, image_eq]
  change (tex st u).bind _ = _
  rcases hy : tex st u with _ | y
  · rfl
  · simp only [Option.bind_some]
    rcases hs : y.sampler with _ | s
    · rfl
    · obtain ⟨p, hp, hps, _⟩ := h.links y ((h.tex_iff u y).1 hy).1 s hs
      rw [Option.bind_some, Option.bind_some]
      exact samplerImage_addParam h r k hk s (hps ▸ h.pnext p hp)

theorem surface_spec (h : Inv imgs name st dead) (hn : GoodNames imgs name) (img : Nat) (him : img ∈ imgs) (hd : img ∉ dead) :
    ∃ st' f, getSurface st name img = some (st', some f) ∧ Inv imgs name st' dead ∧ (∀ u, tex st' u = tex st u) ∧ (∀ u, image st' u = image st u) ∧
      ∃ q ∈ st'.params, q.id = f ∧ q.ref = surfaceSid (name img) ∧ ∃ l, q.kind = .surface l := by
  rcases hl : lookup st (surfaceSid (name img)) with _ | ⟨i, k⟩
  · have hk : Inv imgs name (addParam st (surfaceSid (name img)) (.surface [img])) dead := inv_addParam h _ _ ⟨img, him, rfl, by rw [if_neg hd]⟩
    refine ⟨_, _, by rw [getSurface, hl]; simp only; rw [clean_surface hn _ him]; rfl, hk, fun _ => rfl, fun u => image_addParam h _ _ hk u, ?_⟩
    exact ⟨⟨st.next, surfaceSid (name img), .surface [img]⟩, by simp [addParam], rfl, rfl, _, rfl⟩
  · obtain ⟨p, hp, hpi, hpk, hpr⟩ := lookup_some h (surfaceSid_ne _) hl
    have hok := h.kinds p hp
    unfold KindOk at hok
    rw [hpk] at hok
    rcases k with l | (_ | f) | _
    · exact ⟨st, i, by rw [getSurface, hl], h, fun _ => rfl, fun _ => rfl, p, hp, hpi, hpr, l, hpk⟩
    · simp only at hok; rw [hpr] at hok; exact absurd hok (surfaceSid_ne _)
    · obtain ⟨_, _, hr, _⟩ := hok
      exact absurd (hpr.symm.trans hr) (sid_ne _ _)
    · exact absurd hok id

theorem sampler_spec (h : Inv imgs name st dead) (hn : GoodNames imgs name) (img f t : Nat) (him : img ∈ imgs) (hd : img ∉ dead) (ht : (tex st t).isSome)
    (hf : ∃ q ∈ st.params, q.id = f ∧ q.ref = surfaceSid (name img) ∧ ∃ l, q.kind = .surface l) :
    ∃ st', linkSampler st name t img f = some st' ∧ Inv imgs name st' dead ∧ (∀ u, (tex st' u).isSome = (tex st u).isSome) ∧ image st' t = some img ∧ ∀ u, u ≠ t → image st' u = image st u := by
  rcases hl : lookup st (samplerSid (name img)) with _ | ⟨i, k⟩
  · have hnew : (⟨st.next, samplerSid (name img), .sampler (some f)⟩ : P) ∈ (addParam st (samplerSid (name img)) (.sampler (some f))).params := by simp [addParam]
    have hk : Inv imgs name (addParam st (samplerSid (name img)) (.sampler (some f))) dead := by
      refine inv_addParam h _ _ ⟨img, him, rfl, ?_⟩
      obtain ⟨q, hq, hx⟩ := hf
      exact ⟨q, List.mem_append.2 (Or.inl hq), hx⟩
    refine ⟨setSampler (addParam st (samplerSid (name img)) (.sampler (some f))) t (some st.next), by rw [linkSampler, hl]; simp only; rw [clean_sampler hn _ him]; rfl, ?_, ?_, ?_, ?_⟩
    · refine inv_setSampler hk _ _ fun i hi => ?_
      obtain rfl := Option.some.inj hi
      exact ⟨_, hnew, rfl, _, rfl⟩
    · intro u; rw [tex_setSampler]; simp; rfl
    · rw [image_setSampler_self (addParam st _ _) t _ ht, Option.bind_some]
      exact samplerImage_ref hk hn hnew rfl him rfl hd
    · intro u hu
      rw [image_setSampler_other _ _ _ _ hu, image_addParam h _ _ hk]
  · obtain ⟨p, hp, hpi, hpk, hpr⟩ := lookup_some h (samplerSid_ne _) hl
    have hok := h.kinds p hp
    unfold KindOk at hok
    rw [hpk] at hok
    rcases k with l | g | _
    · obtain ⟨_, _, hr, _⟩ := hok
      exact absurd (hr.symm.trans hpr) (sid_ne _ _)
    · refine ⟨setSampler st t (some i), by rw [linkSampler, hl], ?_, ?_, ?_, ?_⟩
      · refine inv_setSampler h _ _ fun j hj => ?_
        obtain rfl := Option.some.inj hj
        exact ⟨p, hp, hpi, g, hpk⟩
      · intro u; rw [tex_setSampler]; simp
      · rw [image_setSampler_self _ _ _ ht, Option.bind_some, ← hpi]
        exact samplerImage_ref h hn hp hpk him hpr hd
      · intro u hu
        rw [image_setSampler_other _ _ _ _ hu]
    · exact absurd hok id

theorem setImage_spec (h : Inv imgs name st dead) (hn : GoodNames imgs name) (t : Nat) (img : Option Nat) (hd : ∀ i, img = some i → i ∈ imgs ∧ i ∉ dead) (ht : (tex st t).isSome) :
    ∃ st', setImage st name t img = some st' ∧ Inv imgs name st' dead ∧ (∀ u, (tex st' u).isSome = (tex st u).isSome) ∧ image st' t = img ∧
      (∀ u, u ≠ t → Shares st t u → image st' u = none) ∧ ∀ u, u ≠ t → ¬ Shares st t u → image st' u = image st u := by
  obtain ⟨x, hx⟩ := Option.isSome_iff_exists.1 ht
  obtain ⟨h1, h2, h3, h4, h5⟩ := drop_spec h hx
  rw [setImage, hx, Option.bind_some]
  rcases img with _ | img
  · exact ⟨_, rfl, h1, h2, h3, fun u _ hu => h4 u hu, fun u _ hu => h5 u hu⟩
  · obtain ⟨s2, f, e2, i2, t2, m2, q2⟩ := surface_spec h1 hn img (hd img rfl).1 (hd img rfl).2
    obtain ⟨s3, e3, i3, t3, m3, o3⟩ := sampler_spec i2 hn img f t (hd img rfl).1 (hd img rfl).2 (by rw [t2, h2]; exact ht) q2
    refine ⟨s3, ?_, i3, ?_, m3, ?_, ?_⟩
    · simp only; rw [e2, Option.bind_some]; exact e3
    · intro u; rw [t3, t2, h2]
    · intro u hu hsh; rw [o3 u hu, m2, h4 u hsh]
    · intro u hu hsh; rw [o3 u hu, m2, h5 u hsh]

theorem inv_releaseImage (h : Inv imgs name st dead) (img : Nat) : Inv imgs name (releaseImage st img) (img :: dead) := by
  have hid : ∀ p : P, (p.lose img).id = p.id ∧ (p.lose img).ref = p.ref := by
    intro p; rcases p with ⟨i, r, _ | _ | _⟩ <;> exact ⟨rfl, rfl⟩
  refine ⟨?_, ?_, h.tids, h.tnext, h.sets, ?_, ?_⟩
  · have : (releaseImage st img).params.map P.id = st.params.map P.id := by
      rw [releaseImage, List.map_map]
      apply List.map_congr_left
      intro p _
      exact (hid p).1
    rw [this]; exact h.pids
  · intro q hq
    obtain ⟨p, hp, rfl⟩ := List.mem_map.1 hq
    rw [(hid p).1]; exact h.pnext p hp
  · intro q hq
    obtain ⟨p, hp, rfl⟩ := List.mem_map.1 hq
    have hok := h.kinds p hp
    rcases p with ⟨i, r, l | (_ | f) | _⟩
    · obtain ⟨j, hji, hj, hl⟩ := hok
      refine ⟨j, hji, hj, ?_⟩
      rw [hl]
      by_cases hjd : j ∈ dead
      · simp [hjd]
      · by_cases e : j = img
        · subst e; simp [hjd]
        · simp [hjd, e, List.erase_cons]
    · exact hok
    · obtain ⟨j, hji, hj, q', hq', hqf, hqr, l, hl⟩ := hok
      refine ⟨j, hji, hj, _, List.mem_map.2 ⟨q', hq', rfl⟩, by rw [(hid q').1, hqf], by rw [(hid q').2, hqr], l.erase img, ?_⟩
      rw [P.lose, hl]
    · exact hok
  · intro t ht s hs
    obtain ⟨p, hp, hps, f, hk⟩ := h.links t ht s hs
    refine ⟨_, List.mem_map.2 ⟨p, hp, rfl⟩, by rw [(hid p).1, hps], f, ?_⟩
    rw [P.lose, hk]; exact hk

theorem inv_addTexture (h : Inv imgs name st dead) : Inv imgs name (addTexture st) dead := by
  refine ⟨h.pids, fun p hp => Nat.lt_succ_of_lt (h.pnext p hp), ?_, ?_, ?_, h.kinds, ?_⟩
  · rw [addTexture, List.map_append, List.nodup_append]
    refine ⟨h.tids, by simp, ?_⟩
    intro a ha b hb
    obtain ⟨p, hp, rfl⟩ := List.mem_map.1 ha
    simp at hb; subst hb
    exact Nat.ne_of_lt (h.tnext p hp)
  · intro p hp
    rcases List.mem_append.1 hp with hp | hp
    · exact Nat.lt_succ_of_lt (h.tnext p hp)
    · simp at hp; subst hp; exact Nat.lt_succ_self _
  · intro p hp
    rcases List.mem_append.1 hp with hp | hp
    · exact h.sets p hp
    · simp at hp; subst hp; rfl
  · intro t ht s hs
    rcases List.mem_append.1 ht with ht | ht
    · exact h.links t ht s hs
    · simp at ht; subst ht; simp at hs

theorem inv_getSampler (h : Inv imgs name st dead) {t : Nat} {r : St × Nat} (e : getSampler st t = some r) : Inv imgs name r.1 dead := by
  rw [getSampler, Option.map_eq_some_iff] at e
  obtain ⟨x, _, e⟩ := e
  rcases hs : x.sampler with _ | s
  · rw [hs] at e
    simp only at e
    rw [← e]
    have hk : Inv imgs name (addParam st [] (.sampler none)) dead := inv_addParam h _ _ rfl
    refine inv_setSampler hk _ _ fun i hi => ?_
    obtain rfl := Option.some.inj hi
    exact ⟨⟨st.next, [], .sampler none⟩, by simp [addParam], rfl, _, rfl⟩
  · rw [hs] at e
    simp only at e
    rw [← e]; exact h

theorem reach_inv (hn : GoodNames imgs name) {s : St × List Nat} (h : Reach imgs name s) : Inv imgs name s.1 s.2 := by
  induction h with
  | new => exact ⟨by simp, by simp, by simp, by simp, by simp, by simp, by simp⟩
  | step op _ hl he ih =>
    rename_i s s' _
    rcases op with _ | t | ⟨t, img⟩ | img
    · obtain rfl := Option.some.inj he
      exact inv_addTexture ih
    · rw [step, Option.map_eq_some_iff] at he
      obtain ⟨r, hr, rfl⟩ := he
      exact inv_getSampler ih hr
    · rw [step, Option.map_eq_some_iff] at he
      obtain ⟨r, hr, rfl⟩ := he
      obtain ⟨st', e, hi, _⟩ := setImage_spec ih hn t img hl.2 hl.1
      rw [hr] at e
      obtain rfl := Option.some.inj e
      exact hi
    · obtain rfl := Option.some.inj he
      exact inv_releaseImage ih img

theorem samplerImage_releaseImage (h : Inv imgs name st dead) (img s : Nat) : samplerImage (releaseImage st img) s = if samplerImage st s = some img then none else samplerImage st s := by
  have hid : ∀ p : P, (p.lose img).id = p.id := by
    intro p; rcases p with ⟨i, r, _ | _ | _⟩ <;> rfl
  have hone : ∀ q ∈ st.params, ∀ l, q.kind = .surface l → ∀ i, l.head? = some i → l = [i] := by
    intro q hq l hl i hi
    have hok := h.kinds q hq
    unfold KindOk at hok
    rw [hl] at hok
    obtain ⟨j, _, _, e⟩ := hok
    rw [e] at hi ⊢
    split at hi
    · simp at hi
    · rename_i hd
      rw [if_neg hd]
      simp at hi; rw [hi]
  apply opt_ext
  intro i
  rw [samplerImage_iff (inv_releaseImage h img)]
  constructor
  · rintro ⟨p', hp', hps, f, hk, q', hq', hqf, l', hl', hi⟩
    obtain ⟨p, hp, rfl⟩ := List.mem_map.1 hp'
    obtain ⟨q, hq, rfl⟩ := List.mem_map.1 hq'
    rw [hid] at hps hqf
    have hk0 : p.kind = .sampler (some f) := by
      rcases p with ⟨a, b, _ | _ | _⟩ <;> simp [P.lose] at hk ⊢
      exact hk
    rcases q with ⟨a, b, l | _ | _⟩
    · simp only [P.lose, Kind.surface.injEq] at hl'
      subst hl'
      rcases l with _ | ⟨j, l⟩
      · simp at hi
      · have := hone _ hq (j :: l) rfl j rfl
        have hl : l = [] := by simpa using this
        subst hl
        by_cases e : j = img
        · subst e; simp at hi
        · have hji : j = i := by simpa [List.erase_cons, e] using hi
          have hs : samplerImage st s = some i := (samplerImage_iff h _ _).2 ⟨p, hp, hps, f, hk0, _, hq, hqf, [j], rfl, by rw [hji]; rfl⟩
          rw [hs, if_neg (by rintro e'; exact e (hji.trans (Option.some.inj e')))]
    · simp [P.lose] at hl'
    · simp [P.lose] at hl'
  · intro e
    by_cases hc : samplerImage st s = some img
    · rw [if_pos hc] at e; simp at e
    · rw [if_neg hc] at e
      have hii : i ≠ img := by rintro rfl; exact hc e
      obtain ⟨p, hp, hps, f, hk, q, hq, hqf, l, hl, hi⟩ := (samplerImage_iff h _ _).1 e
      refine ⟨p.lose img, List.mem_map.2 ⟨p, hp, rfl⟩, by rw [hid, hps], f, by rw [P.lose, hk]; exact hk, q.lose img, List.mem_map.2 ⟨q, hq, rfl⟩, by rw [hid, hqf], l.erase img, by rw [P.lose, hl], ?_⟩
      rw [hone q hq l hl i hi]
      simp [List.erase_cons, hii]

theorem live_release {st : St} (h : Live st) (i : Nat) : Live (release st i) := by
  have hid : ∀ p ∈ st.params, p.id ≠ i → ∃ q ∈ (release st i).params, q.id = p.id := by
    intro p hp hi
    exact ⟨{ p with kind := p.kind.forget i }, List.mem_map.2 ⟨p, List.mem_filter.2 ⟨hp, by simpa using hi⟩, rfl⟩, rfl⟩
  constructor
  · intro t ht j hj
    simp only [release, List.mem_map] at ht
    obtain ⟨t', ht', rfl⟩ := ht
    by_cases hs : t'.sampler = some i
    · rw [if_pos hs] at hj
      exact nomatch hj
    · rw [if_neg hs] at hj
      obtain ⟨p, hp, rfl⟩ := h.1 t' ht' j hj
      exact hid p hp fun e => hs (by rw [hj, e])
  · intro p hp f hf
    simp only [release, List.mem_map, List.mem_filter] at hp
    obtain ⟨p', ⟨hp', -⟩, rfl⟩ := hp
    simp only at hf
    obtain ⟨hk, hne⟩ : p'.kind = .sampler (some f) ∧ f ≠ i := by
      rcases hk : p'.kind with l | s | _
      · rw [hk] at hf; exact nomatch hf
      · rw [hk] at hf
        rcases s with _ | s
        · exact nomatch hf
        · simp only [Kind.forget] at hf
          split at hf
          · exact nomatch hf
          · next h => cases hf; exact ⟨rfl, h⟩
      · rw [hk] at hf; exact nomatch hf
    obtain ⟨q, hq, e⟩ := h.2 p' hp' f hk
    obtain ⟨q', hq', e'⟩ := hid q hq (by rw [e]; exact hne)
    exact ⟨q', hq', e'.trans e⟩

theorem live_addParam {st : St} (h : Live st) (r : Text) (k : Kind) (hk : ∀ f, k = .sampler (some f) → ∃ q ∈ st.params, q.id = f) : Live (addParam st r k) := by
  have hm : ∀ i, (∃ q ∈ st.params, q.id = i) → ∃ q ∈ (addParam st r k).params, q.id = i := by
    rintro i ⟨q, hq, e⟩
    exact ⟨q, List.mem_append_left _ hq, e⟩
  refine ⟨fun t ht i hi => hm i (h.1 t ht i hi), fun p hp f hf => ?_⟩
  rcases List.mem_append.1 hp with hp | hp
  · exact hm f (h.2 p hp f hf)
  · rw [List.mem_singleton] at hp
    subst hp
    exact hm f (hk f hf)

theorem live_setSampler {st : St} (h : Live st) (t i : Nat) (hi : ∃ p ∈ st.params, p.id = i) : Live (setSampler st t (some i)) := by
  refine ⟨fun x hx j hj => ?_, h.2⟩
  simp only [setSampler, List.mem_map] at hx
  obtain ⟨x', hx', rfl⟩ := hx
  split at hj
  · cases hj
    exact hi
  · exact h.1 x' hx' j hj

theorem lookup_live {st : St} {s : Text} {i : Nat} {k : Kind} (h : lookup st s = some (i, k)) (hk : k ≠ .other) : ∃ p ∈ st.params, p.id = i := by
  rw [lookup.eq_def] at h
  split at h
  · exact nomatch h
  · split at h
    · next p hp =>
      cases h
      exact ⟨p, List.mem_of_find?_eq_some hp, rfl⟩
    · split at h
      · cases h
        exact absurd rfl hk
      · exact nomatch h

theorem live_setImage {st st' : St} (h : Live st) (name : Nat → Text) (t : Nat) (img : Option Nat) (e : setImage st name t img = some st') : Live st' := by
  rw [setImage, Option.bind_eq_some_iff] at e
  obtain ⟨x, _, e⟩ := e
  have h0 : Live (dropSampler st x) := by
    rw [dropSampler.eq_def]
    split
    · exact h
    · exact live_release h _
  cases img with
  | none => cases e; exact h0
  | some img =>
    simp only [Option.bind_eq_some_iff] at e
    obtain ⟨r, hr, e⟩ := e
    have h1 : Live r.1 ∧ ∀ f, r.2 = some f → ∃ p ∈ r.1.params, p.id = f := by
      rw [getSurface.eq_def] at hr
      split at hr
      · rw [Option.map_eq_some_iff] at hr
        obtain ⟨c, _, rfl⟩ := hr
        refine ⟨live_addParam h0 _ _ (fun _ h => nomatch h), fun f hf => ?_⟩
        cases hf
        exact ⟨_, List.mem_append_right _ (List.mem_singleton.2 rfl), rfl⟩
      · next i l hl =>
        cases hr
        refine ⟨h0, fun f hf => ?_⟩
        cases hf
        exact lookup_live hl (fun h => nomatch h)
      · cases hr
        exact ⟨h0, fun _ h => nomatch h⟩
    split at e
    · cases e; exact h1.1
    · next f hf =>
      rw [linkSampler.eq_def] at e
      split at e
      · rw [Option.map_eq_some_iff] at e
        obtain ⟨c, _, rfl⟩ := e
        refine live_setSampler (live_addParam h1.1 _ _ fun g hg => ?_) _ _ ⟨_, List.mem_append_right _ (List.mem_singleton.2 rfl), rfl⟩
        cases hg
        exact h1.2 f hf
      · next i s hl =>
        cases e
        exact live_setSampler h1.1 _ _ (lookup_live hl (fun h => nomatch h))
      · cases e; exact h1.1

end Verif.FTex
