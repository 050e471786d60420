import Verif.EffectSpec

/-! # Lemmas about the search for effect parameters -/

namespace Verif.FEff

variable {K : Type}

theorem findIn_eq (key : Param K → Text) (s : Text) (l : List (Param K)) : findIn key s l = l.find? fun p => decide (key p = s) := by
  induction l with
  | nil => rfl
  | cons p ps ih =>
    by_cases h : key p = s
    · simp [findIn, h]
    · simp [findIn, h, ih]

theorem collect_eq (key : Param K → Text) (s : Text) (l : List (Param K)) : ∀ acc, collect key s l acc = acc ++ l.filter fun p => decide (key p = s) := by
  induction l with
  | nil => intro acc; simp [collect]
  | cons p ps ih =>
    intro acc
    by_cases h : key p = s
    · simp [collect, h, ih]
    · simp [collect, h, ih]

theorem findIn_append (key : Param K → Text) (s : Text) (a b : List (Param K)) : findIn key s (a ++ b) = (findIn key s a).or (findIn key s b) := by
  rw [findIn_eq, findIn_eq, findIn_eq, List.find?_append]

theorem findSets_eq (key : Param K → Text) (s : Text) (l : List (List (Param K))) : findSets key s l = findIn key s l.flatten := by
  induction l with
  | nil => rfl
  | cons b bs ih => rw [findSets, ih, List.flatten_cons, findIn_append]

theorem findTechs_eq (key : Param K → Text) {s : Text} (hs : s ≠ []) (l : List (Tech K)) : findTechs key s l = findIn key s (l.flatMap Tech.params) := by
  induction l with
  | nil => rfl
  | cons b bs ih => rw [findTechs, ih, List.flatMap_cons, findIn_append, findTech, if_neg hs]

theorem findProfile_eq (key : Param K → Text) {s : Text} (hs : s ≠ []) (p : Profile K) (lo : Bool) : findProfile key p s lo = findIn key s (profileScope p lo) := by
  rw [findProfile.eq_def, if_neg hs]
  rcases p with ⟨ps, sets, _⟩ | ⟨t, ps, ts⟩
  · simp only
    rw [profileScope, findIn_append, findSets_eq]
  · cases lo
    · simp only [profileScope, Bool.false_eq_true, if_false]
      rw [findIn_append, findTechs_eq key hs]
    · simp [profileScope]

theorem findProfiles_eq (key : Param K → Text) {s : Text} (hs : s ≠ []) (l : List (Profile K)) : findProfiles key s l = findIn key s (l.flatMap (profileScope · false)) := by
  induction l with
  | nil => rfl
  | cons b bs ih => rw [findProfiles, ih, List.flatMap_cons, findIn_append, findProfile_eq key hs]

theorem findEffect_eq (key : Param K → Text) {s : Text} (hs : s ≠ []) (e : Option (Effect K)) (lo : Bool) : findEffect key e s lo = findIn key s (effectScope e lo) := by
  rcases e with _ | e
  · rfl
  · rw [findEffect, if_neg hs]
    cases lo
    · simp only [effectScope, Bool.false_eq_true, if_false]
      rw [findIn_append, findProfiles_eq key hs]
    · simp [effectScope]

theorem findMaterial_eq (key : Param K → Text) {s : Text} (hs : s ≠ []) (m : Option (Material K)) (lo : Bool) : findMaterial key m s lo = findIn key s (materialScope m lo) := by
  rcases m with _ | m
  · rfl
  · rw [findMaterial, if_neg hs]
    cases lo
    · simp only [materialScope, Bool.false_eq_true, if_false]
      rw [findIn_append, findEffect_eq key hs]
    · simp [materialScope]

theorem allTechs_eq (key : Param K → Text) {s : Text} (hs : s ≠ []) (l : List (Tech K)) : ∀ acc, allTechs key s l acc = acc ++ (l.flatMap Tech.params).filter fun p => decide (key p = s) := by
  induction l with
  | nil => intro acc; simp [allTechs]
  | cons b bs ih => intro acc; rw [allTechs, ih, allTech, if_neg hs, collect_eq, List.flatMap_cons, List.filter_append, List.append_assoc]

theorem allSets_eq (key : Param K → Text) (s : Text) (l : List (List (Param K))) : ∀ acc, allSets key s l acc = acc ++ l.flatten.filter fun p => decide (key p = s) := by
  induction l with
  | nil => intro acc; simp [allSets]
  | cons b bs ih => intro acc; rw [allSets, ih, collect_eq, List.flatten_cons, List.filter_append, List.append_assoc]

theorem allProfile_eq (key : Param K → Text) {s : Text} (hs : s ≠ []) (p : Profile K) (lo : Bool) (acc : List (Param K)) :
    allProfile key p s acc lo = acc ++ (profileScope p lo).filter fun p => decide (key p = s) := by
  rw [allProfile.eq_def, if_neg hs]
  rcases p with ⟨ps, sets, _⟩ | ⟨t, ps, ts⟩
  · simp only
    rw [profileScope, allSets_eq, collect_eq, List.filter_append, List.append_assoc]
  · cases lo
    · simp only [profileScope, Bool.false_eq_true, if_false]
      rw [allTechs_eq key hs, collect_eq, List.filter_append, List.append_assoc]
    · simp [profileScope, collect_eq]

theorem allProfiles_eq (key : Param K → Text) {s : Text} (hs : s ≠ []) (l : List (Profile K)) :
    ∀ acc, allProfiles key s l acc = acc ++ (l.flatMap (profileScope · false)).filter fun p => decide (key p = s) := by
  induction l with
  | nil => intro acc; simp [allProfiles]
  | cons b bs ih => intro acc; rw [allProfiles, ih, allProfile_eq key hs, List.flatMap_cons, List.filter_append, List.append_assoc]

theorem allEffect_eq (key : Param K → Text) {s : Text} (hs : s ≠ []) (e : Option (Effect K)) (lo : Bool) (acc : List (Param K)) :
    allEffect key e s acc lo = acc ++ (effectScope e lo).filter fun p => decide (key p = s) := by
  rcases e with _ | e
  · simp [allEffect, effectScope]
  · rw [allEffect, if_neg hs]
    cases lo
    · simp only [effectScope, Bool.false_eq_true, if_false]
      rw [allProfiles_eq key hs, collect_eq, List.filter_append, List.append_assoc]
    · simp [effectScope, collect_eq]

theorem allMaterial_eq (key : Param K → Text) {s : Text} (hs : s ≠ []) (m : Option (Material K)) (lo : Bool) (acc : List (Param K)) :
    allMaterial key m s acc lo = acc ++ (materialScope m lo).filter fun p => decide (key p = s) := by
  rcases m with _ | m
  · simp [allMaterial, materialScope]
  · rw [allMaterial, if_neg hs]
    cases lo
    · simp only [materialScope, Bool.false_eq_true, if_false]
      rw [allEffect_eq key hs, collect_eq, List.filter_append, List.append_assoc]
    · simp [materialScope, collect_eq]

theorem getParam_name (a : Slot) : getParam a.name = some a := by cases a <;> decide +kernel

theorem name_inj (a b : Slot) (h : a.name = b.name) : a = b := by
  have := getParam_name a
  rw [h, getParam_name] at this
  exact (Option.some.inj this).symm

theorem getParam_some {s : Text} {a : Slot} (h : getParam s = some a) : s = a.name := by
  unfold getParam at h
  by_cases e : s = Slot.name .ambient
  · rw [if_pos e] at h
    rw [e, ← Option.some.inj h]
  rw [if_neg e] at h
  clear e
  by_cases e : s = Slot.name .diffuse
  · rw [if_pos e] at h
    rw [e, ← Option.some.inj h]
  rw [if_neg e] at h
  clear e
  by_cases e : s = Slot.name .emission
  · rw [if_pos e] at h
    rw [e, ← Option.some.inj h]
  rw [if_neg e] at h
  clear e
  by_cases e : s = Slot.name .emissionFactor
  · rw [if_pos e] at h
    rw [e, ← Option.some.inj h]
  rw [if_neg e] at h
  clear e
  by_cases e : s = Slot.name .refraction
  · rw [if_pos e] at h
    rw [e, ← Option.some.inj h]
  rw [if_neg e] at h
  clear e
  by_cases e : s = Slot.name .reflectivity
  · rw [if_pos e] at h
    rw [e, ← Option.some.inj h]
  rw [if_neg e] at h
  clear e
  by_cases e : s = Slot.name .reflectivityFactor
  · rw [if_pos e] at h
    rw [e, ← Option.some.inj h]
  rw [if_neg e] at h
  clear e
  by_cases e : s = Slot.name .shininess
  · rw [if_pos e] at h
    rw [e, ← Option.some.inj h]
  rw [if_neg e] at h
  clear e
  by_cases e : s = Slot.name .specular
  · rw [if_pos e] at h
    rw [e, ← Option.some.inj h]
  rw [if_neg e] at h
  clear e
  by_cases e : s = Slot.name .specularFactor
  · rw [if_pos e] at h
    rw [e, ← Option.some.inj h]
  rw [if_neg e] at h
  clear e
  by_cases e : s = Slot.name .translucency
  · rw [if_pos e] at h
    rw [e, ← Option.some.inj h]
  rw [if_neg e] at h
  clear e
  by_cases e : s = Slot.name .translucencyFactor
  · rw [if_pos e] at h
    rw [e, ← Option.some.inj h]
  rw [if_neg e] at h
  clear e
  exact absurd h (by simp)

theorem name_ne (a : Slot) : a.name ≠ [] := by cases a <;> decide +kernel

theorem setFirst_sem (s : Text) (f : Val K → Val K) (l : List (Param K)) : (setFirst s f l).map Param.sem = l.map Param.sem := by
  induction l with
  | nil => rfl
  | cons p ps ih => rw [setFirst]; split <;> simp [ih]

theorem firstSem_of_map {l l' : List (Param K)} (h : l'.map Param.sem = l.map Param.sem) {i : Nat} {s : Text} (hf : FirstSem l i s) : FirstSem l' i s := by
  have e : ∀ j : Nat, (l'[j]?).map Param.sem = (l[j]?).map Param.sem := by
    intro j; rw [← List.getElem?_map, ← List.getElem?_map, h]
  obtain ⟨⟨p, hp, hs⟩, hall⟩ := hf
  refine ⟨?_, ?_⟩
  · have := e i
    rw [hp] at this
    rcases h' : l'[i]? with _ | p'
    · rw [h'] at this; simp at this
    · rw [h'] at this; simp at this; exact ⟨p', rfl, this.trans hs⟩
  · intro j q hj hq
    have := e j
    rw [hq] at this
    rcases h' : l[j]? with _ | q'
    · rw [h'] at this; simp at this
    · rw [h'] at this; simp at this; rw [this]; exact hall j q' hj h'

theorem firstSem_iff {l l' : List (Param K)} (h : l'.map Param.sem = l.map Param.sem) (i : Nat) (s : Text) : FirstSem l' i s ↔ FirstSem l i s :=
  ⟨firstSem_of_map h.symm, firstSem_of_map h⟩

theorem setFirst_at (s : Text) (f : Val K → Val K) : ∀ (l : List (Param K)) (i : Nat), FirstSem l i s → (setFirst s f l)[i]? = (l[i]?).map fun p => { p with val := f p.val }
  | [], i, h => by obtain ⟨⟨p, hp, _⟩, _⟩ := h; simp at hp
  | p :: ps, 0, h => by
    obtain ⟨⟨q, hq, hs⟩, _⟩ := h
    simp at hq; subst hq
    simp [setFirst, hs]
  | p :: ps, i + 1, h => by
    obtain ⟨⟨q, hq, hs⟩, hall⟩ := h
    have hne : p.sem ≠ s := hall 0 p (by omega) rfl
    rw [setFirst, if_neg hne, List.getElem?_cons_succ, List.getElem?_cons_succ]
    exact setFirst_at s f ps i ⟨⟨q, by simpa using hq, hs⟩, fun j r hj hr => hall (j + 1) r (by omega) (by simpa using hr)⟩

theorem setFirst_other (s : Text) (f : Val K → Val K) : ∀ (l : List (Param K)) (i : Nat), ¬ FirstSem l i s → (setFirst s f l)[i]? = l[i]?
  | [], i, _ => rfl
  | p :: ps, 0, h => by
    by_cases hs : p.sem = s
    · exact absurd ⟨⟨p, rfl, hs⟩, fun j _ hj => absurd hj (by omega)⟩ h
    · simp [setFirst, hs]
  | p :: ps, i + 1, h => by
    by_cases hs : p.sem = s
    · simp [setFirst, hs]
    · rw [setFirst, if_neg hs, List.getElem?_cons_succ, List.getElem?_cons_succ]
      refine setFirst_other s f ps i fun hf => h ?_
      obtain ⟨⟨q, hq, hqs⟩, hall⟩ := hf
      refine ⟨⟨q, by simpa using hq, hqs⟩, fun j r hj hr => ?_⟩
      rcases j with _ | j
      · simp at hr; subst hr; exact hs
      · exact hall j r (by omega) (by simpa using hr)

section
variable [One K]

theorem link_sem (m : Material K) (e : Effect K) (pr : Profile K) (slots : Slot → Param K) (g : List (Param K)) (a : Slot) : (link m e pr slots g a).map Param.sem = g.map Param.sem := by
  rw [link]; split
  · rfl
  · exact setFirst_sem _ _ _

theorem foldl_link_sem (m : Material K) (e : Effect K) (pr : Profile K) (slots : Slot → Param K) (ss : List Slot) :
    ∀ g : List (Param K), (ss.foldl (link m e pr slots) g).map Param.sem = g.map Param.sem := by
  induction ss with
  | nil => intro g; rfl
  | cons a as ih => intro g; rw [List.foldl_cons, ih, link_sem]

/-- The value that a slot gives. -/
def given (m : Material K) (e : Effect K) (pr : Profile K) (slots : Slot → Param K) (a : Slot) (v : Val K) : Val K :=
  (if a.isFloat then linkFloat v else linkVector v) (findMaterial Param.ref (some m) (slots a).ref true) (findEffect Param.ref (some e) (slots a).ref true) (findProfile Param.ref pr (slots a).ref false)

theorem link_at (m : Material K) (e : Effect K) (pr : Profile K) (slots : Slot → Param K) (g : List (Param K)) (a : Slot) (i : Nat) (hr : Refers (slots a)) (hf : FirstSem g i a.name) :
    (link m e pr slots g a)[i]? = (g[i]?).map fun p => { p with val := given m e pr slots a p.val } := by
  rw [link, if_neg (by rintro (h | h); exact h hr.1; exact hr.2 h)]
  exact setFirst_at _ _ _ _ hf

theorem link_other (m : Material K) (e : Effect K) (pr : Profile K) (slots : Slot → Param K) (g : List (Param K)) (a : Slot) (i : Nat) (h : ¬ (Refers (slots a) ∧ FirstSem g i a.name)) :
    (link m e pr slots g a)[i]? = g[i]? := by
  rw [link]
  split
  · rfl
  · rename_i hn
    push Not at hn
    exact setFirst_other _ _ _ _ fun hf => h ⟨⟨hn.1, hn.2⟩, hf⟩

theorem foldl_other (m : Material K) (e : Effect K) (pr : Profile K) (slots : Slot → Param K) (i : Nat) (ss : List Slot) :
    ∀ g : List (Param K), (∀ a ∈ ss, ¬ (Refers (slots a) ∧ FirstSem g i a.name)) → (ss.foldl (link m e pr slots) g)[i]? = g[i]? := by
  induction ss with
  | nil => intro g _; rfl
  | cons a as ih =>
    intro g h
    rw [List.foldl_cons, ih, link_other]
    · exact h a (by simp)
    · intro b hb hc
      exact h b (by simp [hb]) ⟨hc.1, (firstSem_iff (link_sem m e pr slots g a) i _).1 hc.2⟩

theorem foldl_at (m : Material K) (e : Effect K) (pr : Profile K) (slots : Slot → Param K) (i : Nat) (a : Slot) (hr : Refers (slots a)) (ss : List Slot) :
    ∀ g : List (Param K), ss.Nodup → a ∈ ss → FirstSem g i a.name → (ss.foldl (link m e pr slots) g)[i]? = (g[i]?).map fun p => { p with val := given m e pr slots a p.val } := by
  induction ss with
  | nil => intro g _ h; simp at h
  | cons b bs ih =>
    intro g hnd ha hf
    rw [List.nodup_cons] at hnd
    rw [List.foldl_cons]
    have hsep : ∀ c : Slot, FirstSem g i c.name → c = a := by
      rintro c ⟨⟨p, hp, hps⟩, _⟩
      obtain ⟨⟨q, hq, hqs⟩, _⟩ := hf
      rw [hp] at hq
      have := Option.some.inj hq
      subst this
      exact name_inj _ _ (hps.symm.trans hqs)
    by_cases hab : b = a
    · subst hab
      rw [foldl_other, link_at m e pr slots g b i hr hf]
      intro c hc hcf
      have := hsep c ((firstSem_iff (link_sem m e pr slots g b) i _).1 hcf.2)
      subst this
      exact hnd.1 hc
    · rw [ih _ hnd.2 (by simpa [Ne.symm hab] using ha) ((firstSem_iff (link_sem m e pr slots g b) i _).2 hf), link_other]
      intro hc
      exact hab (hsep b hc.2)

theorem head_or {A B : Type} (f : A → Option B) (x y z : A) : ([x, y, z].filterMap f).head? = (f x).or ((f y).or (f z)) := by
  rcases hx : f x with _ | _ <;> rcases hy : f y with _ | _ <;> rcases hz : f z with _ | _ <;> simp [hx, hy, hz]

theorem numOf_fit (a : K) (x : Option (Param K)) : numOf x = x.bind fun p => fit (.float a) p.val := by
  rcases x with _ | ⟨_, _, _, _, _ | _ | _ | _⟩ <;> simp [numOf, fit]

theorem vec3Of_fit (a b c : K) (x : Option (Param K)) : vec3Of x = x.bind fun p => fit (.float3 a b c) p.val := by
  rcases x with _ | ⟨_, _, _, _, _ | _ | _ | _⟩ <;> simp [vec3Of, fit]

theorem vec4Of_fit (a b c d : K) (x : Option (Param K)) : vec4Of x = x.bind fun p => fit (.vector a b c d) p.val := by
  rcases x with _ | ⟨_, _, _, _, _ | _ | _ | _⟩ <;> simp [vec4Of, fit]

theorem given_pulled (m : Material K) (e : Effect K) (ps : List (Param K)) (sets : List (List (Param K))) (slots : Slot → Param K) (a : Slot) (v : Val K) (hr : (slots a).ref ≠ []) :
    given m e (.std ps sets slots) slots a v = if (a.isFloat = true ∧ v.isNumber = true) ∨ (a.isFloat = false ∧ v.isColor = true) then pulled m e ps sets (slots a).ref v else v := by
  rw [given, findMaterial_eq _ hr, findEffect_eq _ hr, findProfile_eq _ hr, pulled, firstOf, if_neg hr, firstOf, if_neg hr, firstOf, if_neg hr]
  simp only [materialScope, effectScope, profileScope, if_true, List.append_nil, findIn_eq]
  rw [head_or]
  generalize m.params.find? _ = x
  generalize e.params.find? _ = y
  generalize (ps ++ sets.flatten).find? _ = z
  rcases hv : a.isFloat
  · rcases v with _ | _ | _ | _
    · simp [linkVector, Val.isColor]
    · rename_i a b c
      simp [linkVector, Val.isColor, vec3Of_fit a b c]
    · rename_i a b c d
      simp [linkVector, Val.isColor, vec4Of_fit a b c d]
    · simp [linkVector, Val.isColor]
  · rcases v with _ | _ | _ | _
    · rename_i a
      simp [linkFloat, Val.isNumber, numOf_fit a]
    · simp [linkFloat, Val.isNumber]
    · simp [linkFloat, Val.isNumber]
    · simp [linkFloat, Val.isNumber]

theorem sync_eq (g : List (Param K)) (m : Material K) (e : Effect K) (ps : List (Param K)) (sets : List (List (Param K))) (slots : Slot → Param K)
    (he : m.effect = some e) (hp : profileOf common e.profiles = some (.std ps sets slots)) : synchronize g (some m) = some (syncOrder.foldl (link m e (.std ps sets slots) slots) g) := by
  rw [synchronize]; simp only [he, hp]

theorem sync_mem (a : Slot) : a ∈ syncOrder := by cases a <;> decide +kernel

theorem sync_nodup : syncOrder.Nodup := by decide +kernel

theorem fit_kind {v w x : Val K} (h : fit v w = some x) (y : Val K) : fit x y = fit v y := by
  cases v <;> cases w <;> simp [fit] at h <;> subst h <;> cases y <;> rfl

theorem pulled_kind (m : Material K) (e : Effect K) (ps : List (Param K)) (sets : List (List (Param K))) (r : Text) (v y : Val K) : fit (pulled m e ps sets r v) y = fit v y := by
  rw [pulled, head_or]
  generalize firstOf Param.ref r m.params = x
  generalize firstOf Param.ref r e.params = z
  generalize firstOf Param.ref r (ps ++ sets.flatten) = w
  rcases h1 : (x.bind fun p => fit v p.val) with _ | a
  · rcases h2 : (z.bind fun p => fit v p.val) with _ | a
    · rcases h3 : (w.bind fun p => fit v p.val) with _ | a
      · rfl
      · rcases w with _ | p
        · simp at h3
        · exact fit_kind h3 y
    · rcases z with _ | p
      · simp at h2
      · exact fit_kind h2 y
  · rcases x with _ | p
    · simp at h1
    · exact fit_kind h1 y

theorem pulled_pulled (m : Material K) (e : Effect K) (ps : List (Param K)) (sets : List (List (Param K))) (r : Text) (v : Val K) :
    pulled m e ps sets r (pulled m e ps sets r v) = pulled m e ps sets r v := by
  have h : ∀ o : Option (Param K), (o.bind fun p => fit (pulled m e ps sets r v) p.val) = o.bind fun p => fit v p.val := by
    intro o; rcases o with _ | p
    · rfl
    · exact pulled_kind m e ps sets r v p.val
  rw [pulled.eq_def m e ps sets r (pulled m e ps sets r v), head_or, h, h, h, pulled.eq_def m e ps sets r v, head_or]
  rcases (((firstOf Param.ref r m.params).bind fun p => fit v p.val).or (((firstOf Param.ref r e.params).bind fun p => fit v p.val).or
    ((firstOf Param.ref r (ps ++ sets.flatten)).bind fun p => fit v p.val))) with _ | x <;> rfl

theorem pulled_number (m : Material K) (e : Effect K) (ps : List (Param K)) (sets : List (List (Param K))) (r : Text) (v : Val K) :
    (pulled m e ps sets r v).isNumber = v.isNumber ∧ (pulled m e ps sets r v).isColor = v.isColor := by
  rw [pulled, head_or]
  rcases h : (((firstOf Param.ref r m.params).bind fun p => fit v p.val).or (((firstOf Param.ref r e.params).bind fun p => fit v p.val).or
    ((firstOf Param.ref r (ps ++ sets.flatten)).bind fun p => fit v p.val))) with _ | x
  · exact ⟨rfl, rfl⟩
  · have : ∃ w, fit v w = some x := by
      rw [Option.or_eq_some_iff, Option.or_eq_some_iff] at h
      rcases h with h | ⟨_, h | ⟨_, h⟩⟩ <;> rw [Option.bind_eq_some_iff] at h <;> obtain ⟨p, _, hp⟩ := h <;> exact ⟨_, hp⟩
    obtain ⟨w, hw⟩ := this
    cases v <;> cases w <;> simp [fit] at hw <;> subst hw <;> exact ⟨rfl, rfl⟩

end

theorem chooseColor_eq (g m e p : Option (Param K)) (own : Param K) (h : ((g.or (m.or (e.or p))).getD own).val.isColor = true) :
    ∃ b, chooseColor g m e p own = some ((g.or (m.or (e.or p))).getD own, some b) ∧ ((g.or (m.or (e.or p))).isSome → b = ((g.or (m.or (e.or p))).getD own).val.isFloat3) := by
  rcases g with _ | ⟨_, _, _, _, _ | _ | _ | _⟩ <;> rcases m with _ | ⟨_, _, _, _, _ | _ | _ | _⟩ <;> rcases e with _ | ⟨_, _, _, _, _ | _ | _ | _⟩ <;>
    rcases p with _ | ⟨_, _, _, _, _ | _ | _ | _⟩ <;> simp [Val.isColor] at h <;> simp [chooseColor, asColor, Val.isFloat3]

theorem chooseColor_none (g m e p : Option (Param K)) (own : Param K) (hs : (g.or (m.or (e.or p))).isSome) (h : ((g.or (m.or (e.or p))).getD own).val.isColor = false) :
    chooseColor g m e p own = none := by
  rcases g with _ | ⟨_, _, _, _, _ | _ | _ | _⟩ <;> rcases m with _ | ⟨_, _, _, _, _ | _ | _ | _⟩ <;> rcases e with _ | ⟨_, _, _, _, _ | _ | _ | _⟩ <;>
    rcases p with _ | ⟨_, _, _, _, _ | _ | _ | _⟩ <;> simp [Val.isColor] at h hs <;> simp [chooseColor, asColor]

theorem chooseFloat_eq (g m e p : Option (Param K)) (own : Param K) (ho : own.val.isNumber = true) :
    chooseFloat g m e p own = if ((g.or (m.or (e.or p))).getD own).val.isNumber then some ((g.or (m.or (e.or p))).getD own) else none := by
  rcases g with _ | ⟨_, _, _, _, _ | _ | _ | _⟩ <;> rcases m with _ | ⟨_, _, _, _, _ | _ | _ | _⟩ <;> rcases e with _ | ⟨_, _, _, _, _ | _ | _ | _⟩ <;>
    rcases p with _ | ⟨_, _, _, _, _ | _ | _ | _⟩ <;> simp [chooseFloat, asFloat, Val.isNumber] <;> exact ho

theorem findGeometry_eq (key : Param K → Text) (g : Option (List (Param K))) (s : Text) : findGeometry key g s = firstOf key s (g.getD []) := by
  rcases g with _ | ps
  · simp [findGeometry, firstOf]
  · rw [findGeometry, firstOf]
    simp only [Option.getD_some, findIn_eq]

end Verif.FEff
