import Verif.FxCloneAux
import Verif.FxCloneLemmas

/-! # Copies of effects and materials: C130, C131, C132 -/

namespace Verif.FFx

open Verif.FEff (Text text Role)
open Verif.FPass (Pass Tech)

variable {K : Type}

section

variable [Zero K] [One K]

/-- C130, in part: the copy of an FX profile has the type, copies of the parameters, the codes and the techniques in their order with copies of their parameters, codes and passes; the copy of a shader uses the code
of the copy in the place of the code of the original. Missing: the platform. -/
theorem clone_fx_partial (p : ProfileFX K) (hp : GoodFX p) (n : Nat) : ∃ q m, p.cloneInto { type := p.type } n = some (q, m) ∧ LikeFX p q := by
  obtain ⟨q, m, e, h, _⟩ := cloneFX_eq p hp { type := p.type } ⟨rfl, rfl, rfl⟩ n
  exact ⟨q, m, e, h⟩

/-- C130 fails for the platform: the copy has none. -/
theorem clone_platform_violated (p : ProfileFX K) (hp : GoodFX p) (n : Nat) : ∃ q m, p.cloneInto { type := p.type } n = some (q, m) ∧ q.platform = [] := by
  obtain ⟨q, m, e, _, h, _⟩ := cloneFX_eq p hp { type := p.type } ⟨rfl, rfl, rfl⟩ n
  exact ⟨q, m, e, h⟩

omit [Zero K] [One K] in
/-- The search by type finds the first profile of the type. -/
theorem find_profile (l : List (Profile K)) (t : Nat) :
    (∀ p, findProfile l t = some p ↔ ∃ a b, l = a ++ p :: b ∧ p.type = t ∧ ∀ x ∈ a, x.type ≠ t) ∧ (findProfile l t = none ↔ ∀ x ∈ l, x.type ≠ t) := by
  constructor
  · intro p
    rw [findProfile, List.find?_eq_some_iff_append]
    simp only [decide_eq_true_eq, Bool.not_eq_true', decide_eq_false_iff_not]
    constructor
    · rintro ⟨h, a, b, e, hx⟩; exact ⟨a, b, e, h, hx⟩
    · rintro ⟨a, b, e, h, hx⟩; exact ⟨h, a, b, e, hx⟩
  · rw [findProfile, List.find?_eq_none]; simp

omit [Zero K] [One K] in
/-- C130, in part: the search by type and platform finds the first FX profile with both. Missing: the type COMMON. -/
theorem find_platform_partial (l : List (Profile K)) (t : Nat) (f : Text) (ht : t ≠ common) :
    findByPlatform t f l = some (l.find? fun p => match p with
      | .standard _ => false
      | .fx q => decide (q.type = t ∧ q.platform = f)) := by
  induction l with
  | nil => rfl
  | cons p l ih =>
    rw [findByPlatform.eq_def]
    simp only
    cases p with
    | standard s =>
      have : (Profile.standard s).type ≠ t := fun e => ht e.symm
      rw [if_neg this, ih, List.find?_cons_of_neg (by simp)]
    | fx q =>
      by_cases h1 : q.type = t
      · rw [if_pos (by exact h1)]
        by_cases h2 : q.platform = f
        · simp only [if_pos h2]; rw [List.find?_cons_of_pos (by simp [h1, h2])]
        · simp only [if_neg h2]; rw [ih, List.find?_cons_of_neg (by simp [h2])]
      · rw [if_neg (by exact h1), ih, List.find?_cons_of_neg (by simp [h1])]

omit [Zero K] [One K] in
/-- C130 fails for the type COMMON: with a standard profile the search reads the platform of an object that has none. -/
theorem find_platform_violated (s : Standard K) (a b : List (Profile K)) (f : Text) (ha : ∀ p ∈ a, p.type ≠ common) : findByPlatform common f (a ++ .standard s :: b) = none := by
  induction a with
  | nil => rw [List.nil_append, findByPlatform, if_pos (by rfl)]
  | cons p a ih =>
    rw [List.cons_append, findByPlatform.eq_def]
    simp only
    rw [if_neg (ha p (List.mem_cons_self ..)), ih fun x hx => ha x (List.mem_cons_of_mem _ hx)]

variable [OfNat K 20]

/-- C131, in part: the copy of a standard profile has the lighting type, the transparency mode, the flag of the emission factor, the values and the curves of the colours and factors, and in each channel textures with
the same sets and images, while the original lives; it has copies of the parameters, and after them one copy of the sampler of each texture. Missing: the flags for reflection and refraction, and the rest of the colours and
factors. -/
theorem clone_standard_partial (heap : Nat → Option (Param K)) (n : Nat) (hs : Sound heap n) (s : Standard K) (h : GoodStandard s) (late : Bool) :
    ∃ c m, s.cloneInto heap (newStandard late) n = (c, m) ∧ LikeStandard heap (extend heap c.params) s c ∧
      c.params.map Obj.param = (s.params.map fun o => o.param.clone) ++ (samplers heap s).map fun p => p.cloneInto (create .sampler) := by
  obtain ⟨c, e, hp, _, _, hl, _⟩ := cloneStandard_eq heap n n hs s h late
  refine ⟨c, _, e, hl _ ?_, ?_⟩
  · refine extend_agrees heap _ _ n ?_ ?_ fun o ho => ho
    · rw [hp]; exact number_nodup _ _
    · rw [hp]; exact fun o ho => (number_bounds _ _ o ho).1
  · rw [hp, number_params, standardCopies, copies_eq _ h.made]; rfl

/-- C131 fails after the original is released: the textures of the copy have no image, for their samplers track the surfaces of the original. -/
theorem clone_release_violated (heap : Nat → Option (Param K)) (n : Nat) (hs : Sound heap n) (s : Standard K) (h : GoodStandard s) (late : Bool) :
    ∃ c m, s.cloneInto heap (newStandard late) n = (c, m) ∧ ∀ d ∈ c.textures, ∀ u ∈ d, u.image (extend (fun _ => none) c.params) = none := by
  obtain ⟨c, e, hp, _, _, _, hd⟩ := cloneStandard_eq heap n n hs s h late
  have ha : Agrees (fun _ => none) (extend (fun _ => none) c.params) n c.params := by
    refine extend_agrees _ _ _ n ?_ ?_ fun o ho => ho
    · rw [hp]; exact number_nodup _ _
    · rw [hp]; exact fun o ho => (number_bounds _ _ o ho).1
  exact ⟨c, _, e, hd _ ha.old ha.new⟩

/-- C131 fails for the flags: the copy is neither reflective nor refractive. -/
theorem clone_flags_violated (heap : Nat → Option (Param K)) (n : Nat) (hs : Sound heap n) (s : Standard K) (h : GoodStandard s) (late : Bool) :
    (s.cloneInto heap (newStandard late) n).1.reflective = false ∧ (s.cloneInto heap (newStandard late) n).1.refractive = false := by
  obtain ⟨c, e, _, h1, h2, _⟩ := cloneStandard_eq heap n n hs s h late
  rw [e]; exact ⟨h1, h2⟩

/-! Effects. -/

/-- C130, C131, in part: the copy of an effect has the name, the note, copies of the parameters and, in their order, copies of the profiles. Missing: as for the profiles; FX profiles given the type COMMON. -/
theorem clone_effect_partial (heap : Nat → Option (Param K)) (n : Nat) (hs : Sound heap n) (e : Effect K) (h : ∀ p ∈ e.profiles, GoodProfile p) (hm : ∀ o ∈ e.params, Made o.param.body) (late : Bool) :
    ∃ c m, e.clone heap late n = some (c, m) ∧ c.name = e.name ∧ c.note = e.note ∧ LikeParams e.params c.params ∧
      List.Forall₂ (LikeProfile heap (extend heap (c.profiles.flatMap Profile.params))) e.profiles c.profiles :=
  cloneEffect_eq heap n n le_rfl hs e h hm late

/-- C130 fails for FX profiles given the type COMMON: the copy is a standard profile with copies of the parameters. -/
theorem clone_common_violated (heap : Nat → Option (Param K)) (n : Nat) (p : ProfileFX K) (hp : p.type = common) (late : Bool) :
    ∃ s m, (Profile.fx p).cloneInto heap (newProfile late (Profile.fx p).type) n = some (.standard s, m) ∧ s.textures = List.replicate 12 [] :=
  ⟨{ newStandard late with params := (cloneParams p.params ([], n)).1 }, _, by rw [newProfile, if_pos (by exact hp)]; rfl, rfl⟩

/-! Materials. -/

/-- C132. The copy of a material without the children has the same effect, does not own it, and has the name, the note and copies of the parameters; the library is as before. -/
theorem clone_material (heap : Nat → Option (Param K)) (late : Bool) (lib : Lib K) (m : Material K) (hm : ∀ o ∈ m.params, Made o.param.body) (he : ∀ i, m.effect = some i → ∃ e, (i, e) ∈ lib.effects) :
    ∃ c lib', m.clone heap late lib false = some (c, lib') ∧ c.effect = m.effect ∧ c.owns = false ∧ c.name = m.name ∧ c.note = m.note ∧ LikeParams m.params c.params ∧ lib'.effects = lib.effects := by
  cases hi : m.effect with
  | none =>
    refine ⟨{ name := m.name, note := m.note, params := (cloneParams m.params ([], lib.next)).1 }, { lib with next := (cloneParams m.params ([], lib.next)).2 }, ?_, rfl, rfl, rfl, rfl, likeParams_clone _ _ hm, ?_⟩
    · rw [Material.clone, hi]; rfl
    · rfl
  | some i =>
    obtain ⟨e, hmem⟩ := he i hi
    obtain ⟨x, hx⟩ : ∃ x, lib.effects.find? (fun e => decide (e.1 = i)) = some x := by
      rw [← Option.isSome_iff_exists, List.find?_isSome]; exact ⟨_, hmem, by simp⟩
    have hxi : x.1 = i := by simpa using List.find?_some hx
    refine ⟨{ name := m.name, note := m.note, effect := some i, params := (cloneParams m.params ([], lib.next)).1 }, { lib with next := (cloneParams m.params ([], lib.next)).2 }, ?_, rfl, rfl, rfl, rfl, likeParams_clone _ _ hm, ?_⟩
    · rw [Material.clone, hi]
      simp only [Option.bind_some, hx]
      rcases x with ⟨a, b⟩
      simp only at hxi
      subst hxi
      rfl
    · rfl

/-- C132 fails for copies with the children: a copy of the effect is added to the library, but the copy of the material has no effect, and the new effect stays when that copy is released. -/
theorem clone_material_deep_violated (heap : Nat → Option (Param K)) (late : Bool) (lib : Lib K) (m : Material K) (i : Nat) (e : Effect K) (hi : m.effect = some i)
    (hx : lib.effects.find? (fun x => decide (x.1 = i)) = some (i, e)) (hs : Sound heap lib.next) (h : ∀ p ∈ e.profiles, GoodProfile p) (hm : ∀ o ∈ e.params, Made o.param.body) :
    ∃ c d lib', m.clone heap late lib true = some (c, lib') ∧ c.effect = none ∧ c.owns = true ∧ lib'.effects = lib.effects ++ [(lib.next, d)] ∧ d.name = e.name ∧ (c.release lib').effects = lib'.effects := by
  obtain ⟨d, k, e', hn, _⟩ := cloneEffect_eq heap lib.next (lib.next + 1) (by omega) hs e h hm late
  refine ⟨{ name := m.name, note := m.note, owns := true, params := (cloneParams m.params ([], k)).1 }, d, ⟨lib.effects ++ [(lib.next, d)], (cloneParams m.params ([], k)).2⟩, ?_, rfl, rfl, rfl, hn, rfl⟩
  rw [Material.clone, hi]
  simp only [Option.bind_some, hx, if_true]
  rw [e']
  rfl

/-- C132 fails for the technique hints: the copy has none. -/
theorem clone_hints_violated (heap : Nat → Option (Param K)) (late deep : Bool) (lib lib' : Lib K) (m c : Material K) (h : m.clone heap late lib deep = some (c, lib')) : c.hints = [] := by
  rw [Material.clone, Option.map_eq_some_iff] at h
  obtain ⟨⟨a, b⟩, h1, h2⟩ := h
  simp only [Prod.mk.injEq] at h2
  rw [← h2.1]
  change a.hints = []
  split at h1
  · simp only [Option.some.injEq, Prod.mk.injEq] at h1
    rw [← h1.1]
  · split at h1
    · obtain ⟨_, _, h3⟩ := Option.map_eq_some_iff.1 h1
      simp only [Prod.mk.injEq] at h3
      rw [← h3.1]
    · simp only [Option.some.injEq, Prod.mk.injEq] at h1
      rw [← h1.1]

end

/-! Cases that meet the hypotheses. -/

/-- A surface with an image, a sampler of it and a texture. -/
def exSurface : Param ℚ := ⟨.generator, text "img-surface", [], [], .surface { (newSurface : Surface ℚ) with images := [77], init := some (.from_ [] [] []) }⟩

/-- The sampler. -/
def exSampler : Param ℚ := ⟨.generator, text "img-sampler", [], [], .sampler ⟨some 0, 1, [1, 1, 1, 0, 0, 0]⟩⟩

/-- A standard profile with one diffuse texture and an animated emission colour. -/
def exStandard : Standard ℚ :=
  ⟨[⟨0, exSurface⟩, ⟨1, exSampler⟩], 2, [[], [], [⟨newParam (.int 3), some 1⟩], [], [], [], [], [], [], [], [], []], 1, true, true, false,
    newSlots.set 0 ⟨.referencer, text "e", [], [], .num .color4 false [1, 0, 0, 1] (some 5)⟩⟩

/-- The table of its parameters. -/
def exHeap : Nat → Option (Param ℚ) := extend (fun _ => none) exStandard.params

example : Sound exHeap 2 := by
  intro i p h
  have : (i = 0 ∧ p = exSurface) ∨ (i = 1 ∧ p = exSampler) := by
    by_cases h0 : i = 0
    · subst h0; exact .inl ⟨rfl, (Option.some.inj h).symm⟩
    · by_cases h1 : i = 1
      · subst h1; exact .inr ⟨rfl, (Option.some.inj h).symm⟩
      · rw [exHeap, extend_old _ _ _ (by intro o ho; simp [exStandard] at ho; rcases ho with rfl | rfl <;> simp <;> omega)] at h
        exact absurd h (by simp)
  rcases this with ⟨rfl, rfl⟩ | ⟨rfl, rfl⟩
  · exact ⟨by omega, fun s e => by simp [exSurface] at e⟩
  · refine ⟨by omega, fun s e j ej => ?_⟩
    simp only [exSampler, Body.sampler.injEq] at e
    rw [← e] at ej
    simp at ej
    omega

example : GoodStandard exStandard := by
  refine ⟨?_, ?_, by decide +kernel, ?_⟩
  · intro o ho
    simp only [exStandard, List.mem_cons, List.not_mem_nil, or_false] at ho
    rcases ho with rfl | rfl <;> trivial
  · intro c hc t ht
    simp only [exStandard, List.mem_cons, List.not_mem_nil, or_false] at hc
    rcases hc with rfl | rfl | rfl | rfl | rfl | rfl | rfl | rfl | rfl | rfl | rfl | rfl <;> simp at ht
    subst ht
    exact ⟨3, rfl⟩
  · intro p hp
    simp only [exStandard, newSlots, List.set_cons_zero, List.mem_cons, List.not_mem_nil, or_false] at hp
    rcases hp with rfl | rfl | rfl | rfl | rfl | rfl | rfl | rfl | rfl | rfl | rfl | rfl <;> exact ⟨_, _, _, _, rfl⟩

/-- The copy of the profile above, whose parameters are numbered from 2: its texture has the image of the original, and none when the original is released; it has two parameters with the same reference. -/
example : (exStandard.cloneInto exHeap (newStandard true) 2).1.textures = [[], [], [⟨newParam (.int 3), some 4⟩], [], [], [], [], [], [], [], [], []] ∧
    (⟨newParam (.int 3), some 1⟩ : Texture ℚ).image exHeap = some 77 ∧
    (exStandard.cloneInto exHeap (newStandard true) 2).1.params.map (fun o => o.param.ref) = [text "img-surface", text "img-sampler", text "img-sampler"] := by decide +kernel

/-- C131 fails for the references of the colours: the copy of the emission colour is a constant without reference. -/
theorem clone_slot_reference_violated : ∃ a b, exStandard.slots.head? = some a ∧ (exStandard.cloneInto exHeap (newStandard true) 2).1.slots.head? = some b ∧ a.role = .referencer ∧ a.ref = text "e" ∧ b.role = .constant ∧ b.ref = [] :=
  ⟨_, _, rfl, rfl, rfl, rfl, rfl, rfl⟩

/-- An FX profile with a code, and a technique with a code and a pass whose shader uses the code of the profile. -/
def exFX : ProfileFX ℚ :=
  ⟨0, text "PC", [], [⟨9, text "lib", 0, text "lib.cg", []⟩],
    [⟨text "t", [], [⟨8, text "vs", 1, [], text "main"⟩], [{ shaders := [{ id := 0, code := some ⟨9, text "lib"⟩ }], next := 1 }]⟩]⟩

example : GoodFX exFX := by
  refine ⟨fun o ho => by simp [exFX] at ho, fun t ht => ?_⟩
  simp only [exFX, List.mem_cons, List.not_mem_nil, or_false] at ht
  subst ht
  refine ⟨fun o ho => by simp at ho, ?_, by decide +kernel, ?_⟩
  · intro p hp
    simp only [List.mem_cons, List.not_mem_nil, or_false] at hp
    subst hp
    exact ⟨_, .step (o := .editShader 0 { id := 0, code := some ⟨9, text "lib"⟩ }) (.step (o := .addShader) .new trivial .addShader) trivial (.editShader 0 { id := 0, code := some ⟨9, text "lib"⟩ })⟩
  · intro p hp s hs c hc
    simp only [List.mem_cons, List.not_mem_nil, or_false] at hp
    subst hp
    simp only [List.mem_cons, List.not_mem_nil, or_false] at hs
    subst hs
    simp only [Option.some.injEq] at hc
    subst hc
    decide +kernel

end Verif.FFx
