import Verif.EffectLemmas
import Mathlib.Algebra.Order.Field.Rat
import Mathlib.Tactic.Ring
import Mathlib.Tactic.FieldSimp

/-! # Parameters of effects: they are found where they are, and the value in force is that of the nearest place -/

namespace Verif.FEff

variable {K : Type}

/-- C113. Every search for a parameter, by semantic or by reference, gives the first one with that key among the parameters the object shows, nearest first; without a key it gives none. -/
theorem find_first (key : Param K → Text) (s : Text) (lo : Bool) :
    (∀ g : Option (List (Param K)), findGeometry key g s = firstOf key s (g.getD [])) ∧
    (∀ t : Tech K, findTech key t s = firstOf key s t.params) ∧
    (∀ p : Profile K, findProfile key p s lo = firstOf key s (profileScope p lo)) ∧
    (∀ e : Option (Effect K), findEffect key e s lo = firstOf key s (effectScope e lo)) ∧
    (∀ m : Option (Material K), findMaterial key m s lo = firstOf key s (materialScope m lo)) ∧
    ∀ (ps : List (Param K)) (m : Option (Material K)), findInst key ⟨some ps, m⟩ s lo = some (firstOf key s (instScope ps m lo)) := by
  by_cases hs : s = []
  · subst hs
    refine ⟨fun g => findGeometry_eq key g [], fun t => by simp [findTech, firstOf], fun p => by simp [findProfile.eq_def, firstOf], ?_, ?_, fun ps m => by simp [findInst, firstOf]⟩
    · intro e; rcases e with _ | e <;> simp [findEffect, firstOf]
    · intro m; rcases m with _ | m <;> simp [findMaterial, firstOf]
  · refine ⟨fun g => findGeometry_eq key g s, fun t => ?_, fun p => ?_, fun e => ?_, fun m => ?_, fun ps m => ?_⟩
    · rw [findTech, if_neg hs, firstOf, if_neg hs, findIn_eq]
    · rw [findProfile_eq key hs, firstOf, if_neg hs, findIn_eq]
    · rw [findEffect_eq key hs, firstOf, if_neg hs, findIn_eq]
    · rw [findMaterial_eq key hs, firstOf, if_neg hs, findIn_eq]
    · rw [findInst, if_neg hs, firstOf, if_neg hs, ← findIn_eq]
      simp only
      cases lo
      · simp only [instScope, Bool.false_eq_true, if_false]
        rw [findIn_append, findMaterial_eq key hs]
      · simp [instScope]

/-- C113. Every search for all parameters adds exactly those with that key that the object shows, in the same order, behind what was there. -/
theorem find_all (key : Param K → Text) (s : Text) (lo : Bool) (acc : List (Param K)) :
    (∀ t : Tech K, allTech key t s acc = acc ++ allOf key s t.params) ∧
    (∀ p : Profile K, allProfile key p s acc lo = acc ++ allOf key s (profileScope p lo)) ∧
    (∀ e : Option (Effect K), allEffect key e s acc lo = acc ++ allOf key s (effectScope e lo)) ∧
    (∀ m : Option (Material K), allMaterial key m s acc lo = acc ++ allOf key s (materialScope m lo)) ∧
    ∀ (ps : List (Param K)) (m : Option (Material K)), allInst key ⟨some ps, m⟩ s acc lo = some (acc ++ allOf key s (instScope ps m lo)) := by
  by_cases hs : s = []
  · subst hs
    refine ⟨fun t => by simp [allTech, allOf], fun p => by simp [allProfile.eq_def, allOf], ?_, ?_, fun ps m => by simp [allInst, allOf]⟩
    · intro e; rcases e with _ | e <;> simp [allEffect, allOf]
    · intro m; rcases m with _ | m <;> simp [allMaterial, allOf]
  · refine ⟨fun t => ?_, fun p => ?_, fun e => ?_, fun m => ?_, fun ps m => ?_⟩
    · rw [allTech, if_neg hs, allOf, if_neg hs, collect_eq]
    · rw [allProfile_eq key hs, allOf, if_neg hs]
    · rw [allEffect_eq key hs, allOf, if_neg hs]
    · rw [allMaterial_eq key hs, allOf, if_neg hs]
    · rw [allInst, if_neg hs, allOf, if_neg hs]
      simp only
      cases lo
      · simp only [instScope, Bool.false_eq_true, if_false]
        rw [allMaterial_eq key hs, collect_eq, List.filter_append, List.append_assoc]
      · simp [instScope, collect_eq]

/-- C113. The search for one parameter and the search for all of them agree. -/
theorem find_one_of_all (key : Param K → Text) (s : Text) (lo : Bool) (i : Inst K) : findInst key i s lo = (allInst key i s [] lo).map List.head? := by
  rcases i with ⟨_ | ps, m⟩
  · by_cases hs : s = [] <;> simp [findInst, allInst, hs]
  · rw [(find_first key s lo).2.2.2.2.2, (find_all key s lo []).2.2.2.2, Option.map_some, List.nil_append, firstOf, allOf]
    split
    · rfl
    · rw [List.head?_filter]

/-- C113. The negation without a geometry instance: a search in a material instance that has none is undefined. -/
theorem find_null_violated (key : Param K → Text) (s : Text) (lo : Bool) (m : Option (Material K)) (acc : List (Param K)) (hs : s ≠ []) :
    findInst key ⟨none, m⟩ s lo = none ∧ allInst key ⟨none, m⟩ s acc lo = none := by
  simp [findInst, allInst, hs]

/-- A material instance whose material and effect have parameters with the same reference. -/
def exInst : Inst ℚ :=
  { geometry := some [⟨0, .animator, text "g", text "DIFFUSE", .vector 1 2 3 4⟩]
    material := some ⟨[⟨1, .modifier, text "r", text "X", .float 5⟩], some ⟨[⟨2, .generator, text "r", text "DIFFUSE", .float3 6 7 8⟩], [.fx 0 [] [⟨[⟨3, .generator, text "t", [], .other 0⟩]⟩]]⟩⟩ }

example : (findInst Param.ref exInst (text "r") false).map (Option.map Param.id) = some (some 1) ∧ (findInst Param.ref exInst (text "r") true).map (Option.map Param.id) = some none ∧
    (findInst Param.ref exInst (text "t") false).map (Option.map Param.id) = some (some 3) ∧ (allInst Param.ref exInst (text "r") [] false).map (List.map Param.id) = some [1, 2] ∧
    (allInst Param.sem exInst (text "DIFFUSE") [] false).map (List.map Param.id) = some [0, 2] := by decide +kernel

/-- C114. The names of the parameters of a standard effect lead to them, and nothing else does. -/
theorem standard_names (s : Text) (a : Slot) : getParam s = some a ↔ s = a.name :=
  ⟨getParam_some, fun h => h ▸ getParam_name a⟩

/-- C114. The names of numbers lead to the parameters that are numbers. -/
theorem standard_numbers (s : Text) (a : Slot) (h : getParam s = some a) : a.isFloat = true ↔ s ∈ numberNames := by
  rw [(standard_names s a).1 h]
  cases a <;> decide +kernel

example : getParam (text "SHININESS") = some .shininess ∧ getParam (text "DIFFUSE") = some .diffuse := by decide +kernel

/-- C114. The profile of a type in an effect is the first one with the type. -/
theorem profile_found (type : Nat) (l : List (Profile K)) (p : Profile K) :
    profileOf type l = some p ↔ ∃ a b, l = a ++ p :: b ∧ p.type = type ∧ ∀ q ∈ a, q.type ≠ type := by
  induction l with
  | nil => simp [profileOf]
  | cons q l ih =>
    rw [profileOf]
    split
    · next h =>
      constructor
      · intro e
        cases e
        exact ⟨[], l, rfl, h, by simp⟩
      · rintro ⟨a, b, e, h1, h2⟩
        cases a with
        | nil => cases e; rfl
        | cons x a => cases e; exact absurd h (h2 q (by simp))
    · next h =>
      rw [ih]
      constructor
      · rintro ⟨a, b, rfl, h1, h2⟩
        exact ⟨q :: a, b, rfl, h1, fun x hx => by
          rcases List.mem_cons.1 hx with rfl | hx
          · exact h
          · exact h2 x hx⟩
      · rintro ⟨a, b, e, h1, h2⟩
        cases a with
        | nil => cases e; exact absurd h1 h
        | cons x a => cases e; exact ⟨a, b, rfl, h1, fun y hy => h2 y (by simp [hy])⟩

example : profileOf 0 [(.fx 1 [] [] : Profile ℚ), .fx 0 [] [], .fx 0 [] [⟨[]⟩]] = some (.fx 0 [] []) := rfl

/-- C114. The number in force: for a name of a number, the parameter of the nearest place, if it is a number; nothing if it is of another type, or the name is not that of a number. -/
theorem float_in_force (g : Option (List (Param K))) (m : Material K) (e : Effect K) (ps : List (Param K)) (sets : List (List (Param K))) (slots : Slot → Param K) (s : Text)
    (he : m.effect = some e) (hp : profileOf common e.profiles = some (.std ps sets slots)) (ht : ∀ a : Slot, a.isFloat = true → (slots a).val.isNumber = true) :
    animatedFloat g (some m) s =
      some ((getParam s).bind fun a => if a.isFloat ∧ (source g m e ps sets (slots a) s).val.isNumber then some (source g m e ps sets (slots a) s) else none) := by
  rw [animatedFloat]
  simp only [he, hp]
  rcases hg : getParam s with _ | a
  · rfl
  · simp only [Option.bind_some]
    by_cases hr : (slots a).ref = []
    · rw [if_pos hr, source, if_pos hr]
      rcases hf : a.isFloat
      · simp
      · simp [ht a hf]
    · rw [if_neg hr, source, if_neg hr]
      rcases hf : a.isFloat
      · simp
      · simp only [if_true, true_and]
        rw [chooseFloat_eq _ _ _ _ _ (ht a hf), findGeometry_eq, (find_first Param.ref _ true).2.2.2.2.1, (find_first Param.ref _ true).2.2.2.1, (find_first Param.ref _ false).2.2.1]
        simp [materialScope, effectScope, profileScope]

/-- C114. The colour in force, in part: for a name of a colour, the parameter of the nearest place, if it is a colour, and nothing if it is of another type. The report whether it is without alpha is
right if the parameter comes from one of the places referred to. Missing: the report when the standard effect's own parameter is given. -/
theorem color_in_force_partial (g : Option (List (Param K))) (m : Material K) (e : Effect K) (ps : List (Param K)) (sets : List (List (Param K))) (slots : Slot → Param K) (s : Text)
    (he : m.effect = some e) (hp : profileOf common e.profiles = some (.std ps sets slots)) (ht : ∀ a : Slot, a.isFloat = false → (slots a).val.isColor = true) :
    (animatedColor g (some m) s).map (Option.map Prod.fst) =
      some ((getParam s).bind fun a => if a.isFloat = false ∧ (source g m e ps sets (slots a) s).val.isColor then some (source g m e ps sets (slots a) s) else none) ∧
    ∀ (a : Slot) (p : Param K) (b : Option Bool), getParam s = some a → animatedColor g (some m) s = some (some (p, b)) → p ≠ slots a → b = some p.val.isFloat3 := by
  have key : ∀ a : Slot, getParam s = some a → (slots a).ref ≠ [] → a.isFloat = false → animatedColor g (some m) s = some (chooseColor (firstOf Param.sem s (g.getD []))
      (firstOf Param.ref (slots a).ref m.params) (firstOf Param.ref (slots a).ref e.params) (firstOf Param.ref (slots a).ref (ps ++ sets.flatten)) (slots a)) := by
    intro a hg hr hf
    rw [animatedColor]
    simp only [he, hp, hg]
    rw [if_neg hr, hf, if_neg (by simp), findGeometry_eq, (find_first Param.ref _ true).2.2.2.2.1, (find_first Param.ref _ true).2.2.2.1, (find_first Param.ref _ false).2.2.1]
    simp [materialScope, effectScope, profileScope]
  have bare : ∀ a : Slot, getParam s = some a → ((slots a).ref = [] ∨ a.isFloat = true) →
      animatedColor g (some m) s = some (if a.isFloat then none else some (slots a, none)) := by
    intro a hg h
    rw [animatedColor]
    simp only [he, hp, hg]
    by_cases hr : (slots a).ref = []
    · rw [if_pos hr]; split <;> simp
    · have hf := h.resolve_left hr
      rw [if_neg hr, hf]; simp
  refine ⟨?_, ?_⟩
  · rcases hg : getParam s with _ | a
    · rw [animatedColor]
      simp [he, hp, hg]
    · simp only [Option.bind_some]
      by_cases hf : a.isFloat = true
      · rw [bare a hg (Or.inr hf)]; simp [hf]
      · have hf : a.isFloat = false := by simpa using hf
        by_cases hr : (slots a).ref = []
        · rw [bare a hg (Or.inl hr), source, if_pos hr]; simp [hf, ht a hf]
        · rw [key a hg hr hf, source, if_neg hr]
          simp only [hf, true_and, Option.map_some]
          split
          · rename_i hc
            obtain ⟨b, hb, _⟩ := chooseColor_eq _ _ _ _ (slots a) hc
            rw [hb]; rfl
          · rename_i hc
            have hc : _ = false := Bool.eq_false_iff.2 hc
            rw [chooseColor_none _ _ _ _ (slots a) ?_ hc]
            · rfl
            · by_contra hn
              rw [Option.not_isSome_iff_eq_none.1 hn, Option.getD_none, ht a hf] at hc
              exact absurd hc (by simp)
  · intro a p b hg h hne
    by_cases hb : (slots a).ref = [] ∨ a.isFloat = true
    · rw [bare a hg hb] at h
      split at h
      · simp at h
      · simp only [Option.some.injEq, Prod.mk.injEq] at h
        exact absurd h.1.symm hne
    · push Not at hb
      have hf : a.isFloat = false := by simpa using hb.2
      rw [key a hg hb.1 hf] at h
      by_cases hc : ((firstOf Param.sem s (g.getD [])).or ((firstOf Param.ref (slots a).ref m.params).or ((firstOf Param.ref (slots a).ref e.params).or
          (firstOf Param.ref (slots a).ref (ps ++ sets.flatten))))).isSome = true
      · rcases hcol : (((firstOf Param.sem s (g.getD [])).or ((firstOf Param.ref (slots a).ref m.params).or ((firstOf Param.ref (slots a).ref e.params).or
          (firstOf Param.ref (slots a).ref (ps ++ sets.flatten))))).getD (slots a)).val.isColor
        · rw [chooseColor_none _ _ _ _ _ hc hcol] at h; simp at h
        · obtain ⟨b', hb', hb''⟩ := chooseColor_eq _ _ _ _ (slots a) hcol
          rw [hb'] at h
          simp only [Option.some.injEq, Prod.mk.injEq] at h
          rw [← h.2, hb'' hc, h.1]
      · have hn := Option.not_isSome_iff_eq_none.1 hc
        simp only [Option.or_eq_none_iff] at hn
        obtain ⟨h1, h2, h3, h4⟩ := hn
        rw [h1, h2, h3, h4, chooseColor] at h
        simp only [Option.some.injEq, Prod.mk.injEq] at h
        exact absurd h.1.symm hne

/-- C114. The defaults, in part: for a material with an effect that has a standard profile, the default colour or number is what is in force where no geometry instance has a parameter with the
semantic. Missing: materials without them. -/
theorem default_same_partial (g : Option (List (Param K))) (m : Material K) (e : Effect K) (ps : List (Param K)) (sets : List (List (Param K))) (slots : Slot → Param K) (s : Text)
    (he : m.effect = some e) (hp : profileOf common e.profiles = some (.std ps sets slots)) (hg : ∀ p ∈ g.getD [], p.sem ≠ s) :
    defaultColor (some m) s = animatedColor g (some m) s ∧ defaultFloat (some m) s = animatedFloat g (some m) s := by
  have hgf : findGeometry Param.sem g s = none := by
    rw [findGeometry_eq, firstOf]
    split
    · rfl
    · rw [List.find?_eq_none]
      intro p hp'
      simpa using hg p hp'
  refine ⟨?_, ?_⟩
  · rw [defaultColor, animatedColor]; simp only [he, hp, hgf]
  · rw [defaultFloat, animatedFloat]; simp only [he, hp, hgf]

/-- C114. The negation for materials without a standard profile: the default values of a missing material, of one without an effect and of one whose effect has no such profile are undefined, where the
values in force are none. -/
theorem default_null_violated (s : Text) :
    (defaultColor (none : Option (Material K)) s = none ∧ defaultFloat (none : Option (Material K)) s = none) ∧
    (∀ ps : List (Param K), defaultColor (some ⟨ps, none⟩) s = none ∧ defaultFloat (some ⟨ps, none⟩) s = none) ∧
    (∀ ps qs : List (Param K), defaultColor (some ⟨ps, some ⟨qs, []⟩⟩) s = none ∧ defaultFloat (some ⟨ps, some ⟨qs, []⟩⟩) s = none) ∧
    (∀ (g : Option (List (Param K))) (ps qs : List (Param K)), animatedColor g none s = some none ∧ animatedColor g (some ⟨ps, none⟩) s = some none ∧
      animatedColor g (some ⟨ps, some ⟨qs, []⟩⟩) s = some none ∧ animatedFloat g (some ⟨ps, some ⟨qs, []⟩⟩) s = some none) := by
  refine ⟨⟨rfl, rfl⟩, fun _ => ⟨rfl, rfl⟩, fun _ _ => ⟨rfl, rfl⟩, fun _ _ _ => ⟨rfl, rfl, rfl, rfl⟩⟩

/-- C114. The negation for a profile that only calls itself the common one: an FX profile whose type was set to it is taken for a standard profile, which is undefined. -/
theorem fx_common_violated (g : Option (List (Param K))) (ps qs rs : List (Param K)) (ts : List (Tech K)) (s : Text) :
    animatedColor g (some ⟨ps, some ⟨qs, [.fx common rs ts]⟩⟩) s = none ∧ animatedFloat g (some ⟨ps, some ⟨qs, [.fx common rs ts]⟩⟩) s = none := by
  refine ⟨rfl, rfl⟩

/-- The parameters of a standard effect: the diffuse colour refers to another parameter. -/
def exSlots (ref : Text) (a : Slot) : Param ℚ :=
  ⟨100, if a = .diffuse then .referencer else .constant, if a = .diffuse then ref else [], a.name, if a.isFloat then .float 9 else .vector 1 2 3 4⟩

/-- A material with that effect and a parameter with the reference "r" in the material and in the effect. -/
def exMaterial (ref : Text) : Material ℚ :=
  ⟨[⟨1, .modifier, text "r", [], .float3 5 6 7⟩], some ⟨[⟨2, .generator, text "r", [], .float 8⟩], [.std [] [] (exSlots ref)]⟩⟩

/-- C114. The negation for the report about alpha: a reference that leads nowhere gives the standard effect's own colour, which has alpha, but reports that it is without; and a colour without a
reference leaves the report as it was. -/
theorem alpha_report_violated :
    animatedColor none (some (exMaterial (text "q"))) (text "DIFFUSE") = some (some (exSlots (text "q") .diffuse, some true)) ∧ (exSlots (text "q") .diffuse).val.isFloat3 = false ∧
    animatedColor none (some (exMaterial [])) (text "DIFFUSE") = some (some (exSlots [] .diffuse, none)) := by decide +kernel

example : (animatedColor none (some (exMaterial (text "r"))) (text "DIFFUSE")).map (Option.map fun r => (r.1.id, r.2)) = some (some (1, some true)) ∧
    (animatedColor exInst.geometry (some (exMaterial (text "r"))) (text "DIFFUSE")).map (Option.map fun r => (r.1.id, r.2)) = some (some (0, some false)) ∧
    (animatedFloat exInst.geometry (some (exMaterial (text "r"))) (text "SHININESS")).map (Option.map Param.val) = some (some (.float 9)) := by decide +kernel

section
variable [One K]

/-- C115. Synchronizing writes each parameter of the geometry instance that is the first with the name of a parameter that refers to another: its value becomes that of the first of the material, the
effect and the profile with a fit value, brought to its own type. Nothing else of it changes, and no other parameter. -/
theorem sync_values (g : List (Param K)) (m : Material K) (e : Effect K) (ps : List (Param K)) (sets : List (List (Param K))) (slots : Slot → Param K)
    (he : m.effect = some e) (hp : profileOf common e.profiles = some (.std ps sets slots)) :
    ∃ g', synchronize g (some m) = some g' ∧ ∀ i : Nat,
      (∀ a : Slot, Refers (slots a) → FirstSem g i a.name → g'[i]? = (g[i]?).map fun p =>
        { p with val := if (a.isFloat = true ∧ p.val.isNumber = true) ∨ (a.isFloat = false ∧ p.val.isColor = true) then pulled m e ps sets (slots a).ref p.val else p.val }) ∧
      ((∀ a : Slot, Refers (slots a) → ¬ FirstSem g i a.name) → g'[i]? = g[i]?) := by
  refine ⟨_, sync_eq g m e ps sets slots he hp, fun i => ⟨fun a hr hf => ?_, fun h => ?_⟩⟩
  · rw [foldl_at m e _ slots i a hr syncOrder g sync_nodup (sync_mem a) hf]
    rcases g[i]? with _ | p
    · rfl
    · simp only [Option.map_some, given_pulled m e ps sets slots a _ hr.2]
  · exact foldl_other m e _ slots i syncOrder g fun a _ hc => h a hc.1 hc.2

/-- C115. Synchronizing a second time changes nothing. -/
theorem sync_twice (g g' : List (Param K)) (m : Material K) (e : Effect K) (ps : List (Param K)) (sets : List (List (Param K))) (slots : Slot → Param K)
    (he : m.effect = some e) (hp : profileOf common e.profiles = some (.std ps sets slots)) (h : synchronize g (some m) = some g') : synchronize g' (some m) = some g' := by
  have hsem : g'.map Param.sem = g.map Param.sem := by
    rw [sync_eq g m e ps sets slots he hp] at h
    rw [← Option.some.inj h]
    exact foldl_link_sem _ _ _ _ _ _
  obtain ⟨g1, h1, h1'⟩ := sync_values g m e ps sets slots he hp
  obtain ⟨g2, h2, h2'⟩ := sync_values g' m e ps sets slots he hp
  rw [h] at h1
  obtain rfl := Option.some.inj h1
  rw [h2]
  congr 1
  apply List.ext_getElem?
  intro i
  by_cases hc : ∃ a : Slot, Refers (slots a) ∧ FirstSem g i a.name
  · obtain ⟨a, hr, hf⟩ := hc
    rw [(h2' i).1 a hr ((firstSem_iff hsem i _).2 hf), (h1' i).1 a hr hf, Option.map_map]
    congr 1
    funext p
    simp only [Function.comp]
    by_cases hk : (a.isFloat = true ∧ p.val.isNumber = true) ∨ (a.isFloat = false ∧ p.val.isColor = true)
    · rw [if_pos hk, (pulled_number m e ps sets _ p.val).1, (pulled_number m e ps sets _ p.val).2, if_pos hk, pulled_pulled]
    · rw [if_neg hk, if_neg hk]
  · refine (h2' i).2 fun a hr hf => hc ⟨a, hr, (firstSem_iff hsem i _).1 hf⟩

/-- C115. In part: after synchronizing, the colour in force on the geometry instance is the material's default colour, brought to the type the geometry instance keeps, if the reference leads to a
colour. Missing: references that lead nowhere. -/
theorem sync_color_partial (g g' : List (Param K)) (m : Material K) (e : Effect K) (ps : List (Param K)) (sets : List (List (Param K))) (slots : Slot → Param K) (a : Slot) (i : Nat) (p q : Param K)
    (b : Option Bool) (he : m.effect = some e) (hp : profileOf common e.profiles = some (.std ps sets slots)) (ht : ∀ a : Slot, a.isFloat = false → (slots a).val.isColor = true)
    (ha : a.isFloat = false) (hr : Refers (slots a)) (hi : g[i]? = some q) (hf : FirstSem g i a.name) (hq : q.val.isColor = true)
    (hd : defaultColor (some m) a.name = some (some (p, b))) (hne : p ≠ slots a) (h : synchronize g (some m) = some g') :
    ∃ v, fit q.val p.val = some v ∧ ∃ b', animatedColor (some g') (some m) a.name = some (some ({ q with val := v }, b')) := by
  have hsrc : p.val.isColor = true ∧
      (firstOf Param.ref (slots a).ref m.params).or ((firstOf Param.ref (slots a).ref e.params).or (firstOf Param.ref (slots a).ref (ps ++ sets.flatten))) = some p := by
    have h1 := (color_in_force_partial none m e ps sets slots a.name he hp ht).1
    rw [← (default_same_partial none m e ps sets slots a.name he hp (by simp)).1, hd, getParam_name] at h1
    simp only [Option.map_some, Option.bind_some, Option.some.injEq] at h1
    have hsome : ∀ (c : Prop) [Decidable c] (x y : Param K), some x = (if c then some y else none) → c ∧ x = y := by
      intro c _ x y hx
      by_cases hc : c
      · rw [if_pos hc] at hx; exact ⟨hc, Option.some.inj hx⟩
      · rw [if_neg hc] at hx; exact absurd hx (by simp)
    obtain ⟨⟨_, hc⟩, hx⟩ := hsome _ _ _ h1
    rw [← hx] at hc
    refine ⟨hc, ?_⟩
    rw [source, if_neg hr.2] at hx
    simp only [Option.getD_none] at hx
    rw [show firstOf Param.sem a.name ([] : List (Param K)) = none by simp [firstOf], Option.none_or] at hx
    generalize ((firstOf Param.ref (slots a).ref m.params).or ((firstOf Param.ref (slots a).ref e.params).or (firstOf Param.ref (slots a).ref (ps ++ sets.flatten)))) = o at hx
    rcases o with _ | o
    · exact absurd hx hne
    · rw [hx]; rfl
  obtain ⟨v, hv⟩ : ∃ v, fit q.val p.val = some v := by
    have h1 := hsrc.1
    cases hq' : q.val <;> cases hp' : p.val <;> rw [hq'] at hq <;> rw [hp'] at h1 <;> simp [Val.isColor] at hq h1 <;> exact ⟨_, rfl⟩
  have hpull : pulled m e ps sets (slots a).ref q.val = v := by
    rw [pulled, head_or]
    have h2 := hsrc.2
    generalize firstOf Param.ref (slots a).ref m.params = x at h2 ⊢
    generalize firstOf Param.ref (slots a).ref e.params = z at h2 ⊢
    generalize firstOf Param.ref (slots a).ref (ps ++ sets.flatten) = w at h2 ⊢
    rcases x with _ | x
    · rcases z with _ | z
      · simp at h2; subst h2; simp [hv]
      · simp at h2; subst h2; simp [hv]
    · simp at h2; subst h2; simp [hv]
  refine ⟨v, hv, ?_⟩
  obtain ⟨g1, h1, h1'⟩ := sync_values g m e ps sets slots he hp
  rw [h] at h1
  obtain rfl := Option.some.inj h1
  have hat := (h1' i).1 a hr hf
  rw [hi, Option.map_some, if_pos (Or.inr ⟨ha, hq⟩), hpull] at hat
  have hsem : g'.map Param.sem = g.map Param.sem := by
    rw [sync_eq g m e ps sets slots he hp] at h
    rw [← Option.some.inj h]
    exact foldl_link_sem _ _ _ _ _ _
  have hf' := (firstSem_iff hsem i _).2 hf
  have hfind : firstOf Param.sem a.name g' = some { q with val := v } := by
    rw [firstOf, if_neg (name_ne a), List.find?_eq_some_iff_getElem]
    obtain ⟨⟨r, hr1, hr2⟩, hall⟩ := hf'
    rw [hat] at hr1
    have hr1 := Option.some.inj hr1
    obtain ⟨hlt, hget⟩ := List.getElem?_eq_some_iff.1 hat
    refine ⟨by rw [hr1]; simpa using hr2, i, hlt, hget, fun j hj => ?_⟩
    simpa using hall j _ hj (List.getElem?_eq_getElem (by omega))
  have hvc : v.isColor = true := by
    rw [← hpull, (pulled_number m e ps sets _ _).2]; exact hq
  have hfin := (color_in_force_partial (some g') m e ps sets slots a.name he hp ht).1
  rw [getParam_name, Option.bind_some, source, if_neg hr.2, Option.getD_some, hfind, Option.some_or, Option.getD_some, if_pos ⟨ha, hvc⟩] at hfin
  rcases hx : animatedColor (some g') (some m) a.name with _ | _ | ⟨x, b'⟩
  · rw [hx] at hfin; simp at hfin
  · rw [hx] at hfin; simp at hfin
  · rw [hx] at hfin
    simp only [Option.map_some, Option.some.injEq] at hfin
    exact ⟨b', by rw [hfin]⟩

end

/-- C115. The negation for references that lead nowhere: the default colour is then the standard effect's own, but the parameter of the geometry instance keeps its value. -/
theorem sync_dangling_violated :
    let g : List (Param ℚ) := [⟨0, .animator, text "g", text "DIFFUSE", .vector 0 0 0 0⟩]
    let m := exMaterial (text "q")
    (defaultColor (some m) (text "DIFFUSE")).map (Option.map fun r => r.1.val) = some (some (.vector 1 2 3 4)) ∧ synchronize g (some m) = some g := by decide +kernel

example :
    let g : List (Param ℚ) := [⟨4, .animator, [], text "AMBIENT", .float 0⟩, ⟨0, .animator, text "g", text "DIFFUSE", .vector 0 0 0 0⟩, ⟨5, .animator, [], text "DIFFUSE", .float3 0 0 0⟩]
    (synchronize g (some (exMaterial (text "r")))).map (List.map Param.val) = some [.float 0, .vector 5 6 7 1, .float3 0 0 0] := by decide +kernel

/-- C116. Opacity, in part: with transparency in the alpha channel it is alpha times the factor; with transparency in the colour, it is one less the mean of the colour's channels times the factor, if
the colour is grey. Reflectivity likewise is the mean times the factor for grey colours. Missing: other colours. -/
theorem opacity_partial [Field K] [CharZero K] (x y z w f : K) :
    opacity false x y z w f = w * f ∧ (y = x → z = x → opacity true x y z w f = 1 - (x + y + z) / 3 * f ∧ reflectivity x y z w f = (x + y + z) / 3 * f) := by
  refine ⟨by simp [opacity], ?_⟩
  rintro rfl rfl
  exact ⟨by simp [opacity], by simp [reflectivity]⟩

/-- C116. The negation for other colours: only the red channel counts, so a blue transparent colour is opaque and a blue reflective colour does not reflect. -/
theorem opacity_violated :
    opacity true (0 : ℚ) 0 1 1 1 = 1 ∧ (1 : ℚ) - (0 + 0 + 1) / 3 * 1 = 2 / 3 ∧ reflectivity (0 : ℚ) 0 1 1 1 = 0 ∧ ((0 : ℚ) + 0 + 1) / 3 * 1 = 1 / 3 := by
  simp only [opacity, reflectivity]; norm_num

end Verif.FEff
