import Verif.FxCloneSpec
import Verif.FxParamProps
import Verif.PassProps

/-! # Lemmas on copies of effects -/

namespace Verif.FFx

open Verif.FEff (Text text Role)
open Verif.FPass (Pass Tech)

variable {K : Type}

/-- The parameters with numbers from `n` on. -/
def number (n : Nat) : List (Param K) → List (Obj K)
  | [] => []
  | p :: l => ⟨n, p⟩ :: number (n + 1) l

theorem number_params (n : Nat) (l : List (Param K)) : (number n l).map Obj.param = l := by
  induction l generalizing n with
  | nil => rfl
  | cons p l ih => rw [number, List.map_cons, ih]

theorem number_append (n : Nat) (l m : List (Param K)) : number n (l ++ m) = number n l ++ number (n + l.length) m := by
  induction l generalizing n with
  | nil => simp [number]
  | cons p l ih => simp [number, ih, Nat.add_assoc, Nat.add_comm 1]

theorem number_bounds (n : Nat) (l : List (Param K)) : ∀ o ∈ number n l, n ≤ o.id ∧ o.id < n + l.length := by
  induction l generalizing n with
  | nil => intro o ho; simp [number] at ho
  | cons p l ih =>
    intro o ho
    rcases List.mem_cons.1 ho with rfl | ho
    · simp
    · have := ih (n + 1) o ho; simp; omega

theorem number_nodup (n : Nat) (l : List (Param K)) : ((number n l).map Obj.id).Nodup := by
  induction l generalizing n with
  | nil => simp [number]
  | cons p l ih =>
    rw [number, List.map_cons, List.nodup_cons]
    refine ⟨fun h => ?_, ih _⟩
    obtain ⟨o, ho, e⟩ := List.mem_map.1 h
    have := number_bounds (n + 1) l o ho
    simp at e; omega

section

variable [Zero K] [One K]

theorem cloneParams_eq (l acc : List (Obj K)) (n : Nat) : cloneParams l (acc, n) = (acc ++ number n (l.map fun o => o.param.copy), n + l.length) := by
  induction l generalizing acc n with
  | nil => simp [cloneParams, number]
  | cons o l ih => rw [cloneParams, ih]; simp [number, Nat.add_assoc, Nat.add_comm 1]

theorem copies_eq (l : List (Obj K)) (h : ∀ o ∈ l, Made o.param.body) : l.map (fun o => o.param.copy) = l.map fun o => o.param.clone :=
  List.map_congr_left fun o ho => copy_eq o.param (h o ho)

theorem likeParams_clone (l : List (Obj K)) (n : Nat) (h : ∀ o ∈ l, Made o.param.body) : LikeParams l (cloneParams l ([], n)).1 := by
  rw [cloneParams_eq]
  simp only [List.nil_append, LikeParams]
  rw [number_params, copies_eq l h]

end

/-- The codes with numbers from `n` on. -/
def recode (n : Nat) : List Code → List Code
  | [] => []
  | c :: l => c.cloneInto n :: recode (n + 1) l

theorem cloneCodes_eq (l acc : List Code) (n : Nat) : cloneCodes l (acc, n) = (acc ++ recode n l, n + l.length) := by
  induction l generalizing acc n with
  | nil => simp [cloneCodes, recode]
  | cons o l ih => rw [cloneCodes, ih]; simp [recode, Nat.add_assoc, Nat.add_comm 1]

theorem recode_seen (n : Nat) (l : List Code) : (recode n l).map Code.seen = l.map Code.seen := by
  induction l generalizing n with
  | nil => rfl
  | cons c l ih => rw [recode, List.map_cons, List.map_cons, ih]; rfl

theorem seen_sid {l m : List Code} (h : l.map Code.seen = m.map Code.seen) : l.map Code.sid = m.map Code.sid := by
  have := congrArg (List.map Prod.fst) h
  simpa [List.map_map, Function.comp_def, Code.seen] using this

theorem find_place {all all' : List FPass.Code} (hs : all'.map FPass.Code.sid = all.map FPass.Code.sid) (hd : (all.map FPass.Code.sid).Nodup) {c : FPass.Code} (hc : c ∈ all) :
    ∃ (i : Nat) (c' : FPass.Code), all[i]? = some c ∧ all'[i]? = some c' ∧ FPass.findCode all' c.sid = some c' := by
  induction all generalizing all' with
  | nil => simp at hc
  | cons a all ih =>
    cases all' with
    | nil => simp at hs
    | cons a' all' =>
      simp only [List.map_cons, List.cons.injEq] at hs
      rw [List.map_cons, List.nodup_cons] at hd
      by_cases e : c = a
      · subst e
        exact ⟨0, a', rfl, rfl, by rw [FPass.findCode, List.find?_cons_of_pos]; simp [hs.1]⟩
      · have hc' : c ∈ all := (List.mem_cons.1 hc).resolve_left e
        obtain ⟨i, c', h1, h2, h3⟩ := ih hs.2 hd.2 hc'
        refine ⟨i + 1, c', by simpa using h1, by simpa using h2, ?_⟩
        rw [FPass.findCode, List.find?_cons_of_neg]
        · exact h3
        · have : a.sid ≠ c.sid := fun e' => hd.1 (List.mem_map.2 ⟨c, hc', e'.symm⟩)
          simp [hs.1, this]

theorem clonePass_like (tech : Tech) (pr : List FPass.Code) (htp : tech.profile = some pr) (all : List FPass.Code) (hs : tech.all.map FPass.Code.sid = all.map FPass.Code.sid)
    (hd : (all.map FPass.Code.sid).Nodup) (p : Pass) (hp : ∃ l, FPass.Reach p l) (hw : ∀ s ∈ p.shaders, ∀ c, s.code = some c → c ∈ all) :
    ∃ q, p.cloneInto (some tech) {} = some q ∧ LikePass all tech.all p q := by
  obtain ⟨l, hl⟩ := hp
  obtain ⟨q, e, h1, h2, h3, h4⟩ := FPass.clone_pass_partial p l hl tech (fun s _ c _ => .inl (by rw [htp]; rfl)) 0
  refine ⟨q, e, h1, h2, h4, ?_⟩
  rw [h3]
  have key : ∀ ss : List FPass.Shader, (∀ s ∈ ss, ∀ c, s.code = some c → c ∈ all) → List.Forall₂ (SameCode all tech.all) (ss.map FPass.Shader.code) (ss.map (FPass.codeFor tech)) := by
    intro ss
    induction ss with
    | nil => intro _; exact List.Forall₂.nil
    | cons s ss ih =>
      intro h
      refine List.Forall₂.cons ?_ (ih fun x hx => h x (List.mem_cons_of_mem _ hx))
      rw [FPass.codeFor]
      cases hc : s.code with
      | none => exact .none
      | some c =>
        obtain ⟨i, c', g1, g2, g3⟩ := find_place hs hd (h s (List.mem_cons_self ..) c hc)
        rw [Option.bind_some, g3]
        exact .some i c c' g1 g2
  exact key p.shaders hw

theorem clonePasses_like (tech : Tech) (pr : List FPass.Code) (htp : tech.profile = some pr) (all : List FPass.Code) (hs : tech.all.map FPass.Code.sid = all.map FPass.Code.sid)
    (hd : (all.map FPass.Code.sid).Nodup) (ps : List Pass) (hp : ∀ p ∈ ps, ∃ l, FPass.Reach p l) (hw : ∀ p ∈ ps, ∀ s ∈ p.shaders, ∀ c, s.code = some c → c ∈ all) (acc : List Pass) :
    ∃ qs, clonePasses tech ps acc = some (acc ++ qs) ∧ List.Forall₂ (LikePass all tech.all) ps qs := by
  induction ps generalizing acc with
  | nil => exact ⟨[], by simp [clonePasses], List.Forall₂.nil⟩
  | cons p ps ih =>
    obtain ⟨q, e, hq⟩ := clonePass_like tech pr htp all hs hd p (hp p (List.mem_cons_self ..)) (hw p (List.mem_cons_self ..))
    obtain ⟨qs, e', hqs⟩ := ih (fun x hx => hp x (List.mem_cons_of_mem _ hx)) (fun x hx => hw x (List.mem_cons_of_mem _ hx)) (acc ++ [q])
    exact ⟨q :: qs, by rw [clonePasses, e, Option.bind_some, e']; simp, List.Forall₂.cons hq hqs⟩

section

variable [Zero K] [One K]

theorem cloneTechnique_like (pc pc' : List Code) (hpc : pc'.map Code.seen = pc.map Code.seen) (t : Technique K) (ht : GoodTechnique pc t) (n : Nat) :
    ∃ u m, t.cloneInto pc' n = some (u, m) ∧ n ≤ m ∧ LikeTechnique pc pc' t u := by
  have hc : (recode (n + t.params.length) t.codes).map Code.seen = t.codes.map Code.seen := recode_seen _ _
  obtain ⟨qs, e, hqs⟩ := clonePasses_like ⟨(recode (n + t.params.length) t.codes).map Code.short, some (pc'.map Code.short)⟩ _ rfl (reach pc t)
    (by
      have := seen_sid (l := recode (n + t.params.length) t.codes ++ pc') (m := t.codes ++ pc) (by rw [List.map_append, List.map_append, hc, hpc])
      simpa [FPass.Tech.all, reach, List.map_map, Function.comp_def, Code.short] using this)
    (by simpa [reach, List.map_map, Function.comp_def, Code.short] using ht.distinct) t.passes ht.passes ht.within []
  refine ⟨⟨t.name, (cloneParams t.params ([], n)).1, recode (n + t.params.length) t.codes, qs⟩, n + t.params.length + t.codes.length, ?_, by omega, rfl, likeParams_clone _ _ ht.made, hc, ?_⟩
  · rw [Technique.cloneInto]
    simp only [cloneParams_eq, cloneCodes_eq, List.nil_append]
    rw [e]
    rfl
  · have : (reach pc' (⟨t.name, (cloneParams t.params ([], n)).1, recode (n + t.params.length) t.codes, qs⟩ : Technique K)) =
      Tech.all ⟨(recode (n + t.params.length) t.codes).map Code.short, some (pc'.map Code.short)⟩ := by simp [reach, FPass.Tech.all]
    rw [this]
    exact hqs

theorem cloneTechniques_like (pc pc' : List Code) (hpc : pc'.map Code.seen = pc.map Code.seen) (ts : List (Technique K)) (ht : ∀ t ∈ ts, GoodTechnique pc t) (acc : List (Technique K)) (n : Nat) :
    ∃ us m, cloneTechniques pc' ts (acc, n) = some (acc ++ us, m) ∧ n ≤ m ∧ List.Forall₂ (LikeTechnique pc pc') ts us := by
  induction ts generalizing acc n with
  | nil => exact ⟨[], n, by simp [cloneTechniques], le_rfl, List.Forall₂.nil⟩
  | cons t ts ih =>
    obtain ⟨u, m, e, hm, hu⟩ := cloneTechnique_like pc pc' hpc t (ht t (List.mem_cons_self ..)) n
    obtain ⟨us, m', e', hm', hus⟩ := ih (fun x hx => ht x (List.mem_cons_of_mem _ hx)) (acc ++ [u]) m
    exact ⟨u :: us, m', by rw [cloneTechniques]; simp only [e, Option.bind_some, e']; simp, by omega, List.Forall₂.cons hu hus⟩

theorem cloneFX_eq (p : ProfileFX K) (hp : GoodFX p) (d : ProfileFX K) (hd : d.params = [] ∧ d.codes = [] ∧ d.techniques = []) (n : Nat) :
    ∃ q m, p.cloneInto d n = some (q, m) ∧ LikeFX p q ∧ q.platform = d.platform ∧ q.params = number n (p.params.map fun o => o.param.copy) ∧ n + p.params.length ≤ m := by
  obtain ⟨d1, d2, d3⟩ := hd
  obtain ⟨us, m, e, hm, hus⟩ := cloneTechniques_like p.codes (recode (n + p.params.length) p.codes) (recode_seen _ _) p.techniques hp.techniques [] (n + p.params.length + p.codes.length)
  refine ⟨⟨p.type, d.platform, (cloneParams p.params ([], n)).1, recode (n + p.params.length) p.codes, us⟩, m, ?_, ⟨rfl, likeParams_clone _ _ hp.made, recode_seen _ _, hus⟩, rfl, by rw [cloneParams_eq]; rfl, by omega⟩
  rw [ProfileFX.cloneInto]
  simp only [cloneParams_eq, cloneCodes_eq, d1, d2, d3, List.nil_append]
  rw [e]
  simp

/-! Standard profiles. -/

/-- The table has the parameters of the copy, and is as before below `n`. -/
structure Agrees (heap heap' : Nat → Option (Param K)) (n : Nat) (l : List (Obj K)) : Prop where
  old : ∀ i, i < n → heap' i = heap i
  new : ∀ o ∈ l, heap' o.id = some o.param

/-- The copy of a sampler. -/
def copySampler (s : Param K) : Param K := s.cloneInto (create .sampler)

omit [Zero K] [One K] in
theorem image_none (heap : Nat → Option (Param K)) (t : Texture K) (h : t.sampler.bind heap = none) : t.image heap = none := by
  rw [Texture.image, h]; rfl

theorem image_copy (heap heap' : Nat → Option (Param K)) (n : Nat) (hs : Sound heap n) (hold : ∀ i, i < n → heap' i = heap i) (t : Texture K) (s : Param K) (ht : t.sampler.bind heap = some s) (u : Texture K)
    (hu : u.sampler.bind heap' = some (copySampler s)) : u.image heap' = t.image heap := by
  rw [Texture.image, Texture.image, ht, hu]
  obtain ⟨i, _, hi⟩ := Option.bind_eq_some_iff.1 ht
  obtain ⟨_, hj⟩ := hs i s hi
  rcases s with ⟨_, _, _, _, b⟩
  cases b with
  | sampler x =>
    change (x.surface.bind heap').bind _ = (x.surface.bind heap).bind _
    cases hx : x.surface with
    | none => rfl
    | some j => simp only [Option.bind_some]; rw [hold j (hj x rfl j hx)]
  | _ => rfl

theorem image_dead (heap heap' : Nat → Option (Param K)) (n : Nat) (hs : Sound heap n) (hold : ∀ i, i < n → heap' i = none) (t : Texture K) (s : Param K) (ht : t.sampler.bind heap = some s) (u : Texture K)
    (hu : u.sampler.bind heap' = some (copySampler s)) : u.image heap' = none := by
  rw [Texture.image, hu]
  obtain ⟨i, _, hi⟩ := Option.bind_eq_some_iff.1 ht
  obtain ⟨_, hj⟩ := hs i s hi
  rcases s with ⟨_, _, _, _, b⟩
  cases b with
  | sampler x =>
    change (x.surface.bind heap').bind _ = _
    cases hx : x.surface with
    | none => rfl
    | some j => simp only [Option.bind_some]; rw [hold j (hj x rfl j hx)]; rfl
  | _ => rfl

/-- The copies of the samplers of some textures. -/
def samplerCopies (heap : Nat → Option (Param K)) (ts : List (Texture K)) : List (Param K) := (ts.filterMap fun t => t.sampler.bind heap).map copySampler

omit [Zero K] [One K] in
theorem set_clone (t : Texture K) (h : ∃ n, t.set.body = .int n) : t.set.cloneInto (newTexture (K := K)).set = t.set := by
  obtain ⟨n, e⟩ := h
  rcases t with ⟨⟨_, _, _, _, b⟩, _⟩
  simp only at e
  subst e
  simp [Param.cloneInto, newTexture, newParam, Body.cloneInto]

/-- What is known of the copies `us` of the textures `ts`, when the copies of the samplers are numbered from `k` on. -/
structure Copied (heap : Nat → Option (Param K)) (n k : Nat) (ts us : List (Texture K)) : Prop where
  like : ∀ heap' : Nat → Option (Param K), (∀ i, i < n → heap' i = heap i) → (∀ o ∈ number k (samplerCopies heap ts), heap' o.id = some o.param) → List.Forall₂ (LikeTexture heap heap') ts us
  dead : ∀ heap' : Nat → Option (Param K), (∀ i, i < n → heap' i = none) → (∀ o ∈ number k (samplerCopies heap ts), heap' o.id = some o.param) → ∀ u ∈ us, u.image heap' = none

theorem cloneChannel_eq (heap : Nat → Option (Param K)) (n : Nat) (hs : Sound heap n) (ts : List (Texture K)) (hset : ∀ t ∈ ts, ∃ x, t.set.body = .int x) (acc : List (Texture K)) (ps : List (Obj K)) (k : Nat) :
    ∃ us, cloneChannel heap ts acc (ps, k) = (acc ++ us, ps ++ number k (samplerCopies heap ts), k + (samplerCopies heap ts).length) ∧ Copied heap n k ts us := by
  induction ts generalizing acc ps k with
  | nil => exact ⟨[], by simp [cloneChannel, samplerCopies, number], ⟨fun _ _ _ => List.Forall₂.nil, fun _ _ _ u hu => nomatch hu⟩⟩
  | cons t ts ih =>
    have hset' : ∀ t ∈ ts, ∃ x, t.set.body = .int x := fun x hx => hset x (List.mem_cons_of_mem _ hx)
    have ht := set_clone t (hset t (List.mem_cons_self ..))
    cases hb : t.sampler.bind heap with
    | none =>
      have hc : samplerCopies heap (t :: ts) = samplerCopies heap ts := by simp [samplerCopies, hb]
      obtain ⟨us, e, hu⟩ := ih hset' (acc ++ [⟨t.set, none⟩]) ps k
      refine ⟨⟨t.set, none⟩ :: us, ?_, ?_, ?_⟩
      · rw [cloneChannel, Texture.clone, hb]
        simp only [ht]
        rw [e, hc]
        simp
      · intro heap' h1 h2
        rw [hc] at h2
        exact List.Forall₂.cons ⟨rfl, by rw [image_none heap t hb]; rfl⟩ (hu.like heap' h1 h2)
      · intro heap' h1 h2 u huu
        rw [hc] at h2
        rcases List.mem_cons.1 huu with rfl | huu
        · rfl
        · exact hu.dead heap' h1 h2 u huu
    | some s =>
      have hc : samplerCopies heap (t :: ts) = copySampler s :: samplerCopies heap ts := by simp [samplerCopies, hb]
      obtain ⟨us, e, hu⟩ := ih hset' (acc ++ [⟨t.set, some k⟩]) (ps ++ [⟨k, copySampler s⟩]) (k + 1)
      refine ⟨⟨t.set, some k⟩ :: us, ?_, ?_, ?_⟩
      · rw [cloneChannel, Texture.clone, hb]
        simp only [ht]
        change cloneChannel heap ts _ (ps ++ [⟨k, copySampler s⟩], k + 1) = _
        rw [e, hc]
        simp [number, Nat.add_assoc, Nat.add_comm 1]
      · intro heap' h1 h2
        rw [hc] at h2
        refine List.Forall₂.cons ⟨rfl, ?_⟩ (hu.like heap' h1 fun o ho => h2 o (List.mem_cons_of_mem _ ho))
        exact image_copy heap heap' n hs h1 t s hb ⟨t.set, some k⟩ (h2 ⟨k, copySampler s⟩ (List.mem_cons_self ..))
      · intro heap' h1 h2 u huu
        rw [hc] at h2
        rcases List.mem_cons.1 huu with rfl | huu
        · exact image_dead heap heap' n hs h1 t s hb ⟨t.set, some k⟩ (h2 ⟨k, copySampler s⟩ (List.mem_cons_self ..))
        · exact hu.dead heap' h1 (fun o ho => h2 o (List.mem_cons_of_mem _ ho)) u huu

/-- What is known of the copies of the channels. -/
structure CopiedAll (heap : Nat → Option (Param K)) (n k : Nat) (cs ds : List (List (Texture K))) : Prop where
  like : ∀ heap' : Nat → Option (Param K), (∀ i, i < n → heap' i = heap i) → (∀ o ∈ number k (samplerCopies heap cs.flatten), heap' o.id = some o.param) →
    List.Forall₂ (List.Forall₂ (LikeTexture heap heap')) cs ds
  dead : ∀ heap' : Nat → Option (Param K), (∀ i, i < n → heap' i = none) → (∀ o ∈ number k (samplerCopies heap cs.flatten), heap' o.id = some o.param) → ∀ d ∈ ds, ∀ u ∈ d, u.image heap' = none

theorem cloneChannels_eq (heap : Nat → Option (Param K)) (n : Nat) (hs : Sound heap n) (cs : List (List (Texture K))) (hset : ∀ c ∈ cs, ∀ t ∈ c, ∃ x, t.set.body = .int x) (acc : List (List (Texture K)))
    (ps : List (Obj K)) (k : Nat) :
    ∃ ds, cloneChannels heap cs acc (ps, k) = (acc ++ ds, ps ++ number k (samplerCopies heap cs.flatten), k + (samplerCopies heap cs.flatten).length) ∧ CopiedAll heap n k cs ds := by
  induction cs generalizing acc ps k with
  | nil => exact ⟨[], by simp [cloneChannels, samplerCopies, number], ⟨fun _ _ _ => List.Forall₂.nil, fun _ _ _ u hu => nomatch hu⟩⟩
  | cons c cs ih =>
    have hc : samplerCopies heap (c :: cs).flatten = samplerCopies heap c ++ samplerCopies heap cs.flatten := by simp [samplerCopies]
    obtain ⟨us, e, hu⟩ := cloneChannel_eq heap n hs c (hset c (List.mem_cons_self ..)) [] ps k
    obtain ⟨ds, e', hd⟩ := ih (fun x hx => hset x (List.mem_cons_of_mem _ hx)) (acc ++ [us]) (ps ++ number k (samplerCopies heap c)) (k + (samplerCopies heap c).length)
    refine ⟨us :: ds, ?_, ?_, ?_⟩
    · rw [cloneChannels, e]
      simp only [List.nil_append]
      rw [e', hc, number_append]
      simp [Nat.add_assoc]
    · intro heap' h1 h2
      rw [hc, number_append] at h2
      exact List.Forall₂.cons (hu.like heap' h1 fun o ho => h2 o (List.mem_append_left _ ho)) (hd.like heap' h1 fun o ho => h2 o (List.mem_append_right _ ho))
    · intro heap' h1 h2 d hdm u huu
      rw [hc, number_append] at h2
      rcases List.mem_cons.1 hdm with rfl | hdm
      · exact hu.dead heap' h1 (fun o ho => h2 o (List.mem_append_left _ ho)) u huu
      · exact hd.dead heap' h1 (fun o ho => h2 o (List.mem_append_right _ ho)) d hdm u huu

omit [Zero K] [One K] in
theorem cloneSlots_same (l m : List (Param K)) (hlen : l.length = m.length) (hl : ∀ p ∈ l, ∃ sh h v c, p.body = .num sh h v c) (hm : ∀ p ∈ m, ∃ sh h v, p.body = .num sh h v none) :
    List.Forall₂ SameSlot l (List.zipWith cloneSlot l m) := by
  induction l generalizing m with
  | nil => simp
  | cons p l ih =>
    cases m with
    | nil => simp at hlen
    | cons q m =>
      rw [List.zipWith_cons_cons]
      refine List.Forall₂.cons ?_ (ih m (by simpa using hlen) (fun x hx => hl x (List.mem_cons_of_mem _ hx)) (fun x hx => hm x (List.mem_cons_of_mem _ hx)))
      obtain ⟨sh, h, v, c, e⟩ := hl p (List.mem_cons_self ..)
      obtain ⟨sh', h', v', e'⟩ := hm q (List.mem_cons_self ..)
      refine ⟨sh, h, v, c, sh', h', e, ?_⟩
      rw [cloneSlot, e, e']
      cases c <;> rfl

theorem newSlots_num [OfNat K 20] : (newSlots : List (Param K)).length = 12 ∧ ∀ p ∈ (newSlots : List (Param K)), ∃ sh h v, p.body = .num sh h v none := by
  refine ⟨rfl, fun p hp => ?_⟩
  simp only [newSlots, List.mem_cons, List.not_mem_nil, or_false] at hp
  rcases hp with rfl | rfl | rfl | rfl | rfl | rfl | rfl | rfl | rfl | rfl | rfl | rfl <;> exact ⟨_, _, _, rfl⟩

/-- The parameters of the copy of a standard profile. -/
def standardCopies (heap : Nat → Option (Param K)) (s : Standard K) : List (Param K) := s.params.map (fun o => o.param.copy) ++ samplerCopies heap s.textures.flatten

theorem cloneStandard_eq [OfNat K 20] (heap : Nat → Option (Param K)) (n k : Nat) (hs : Sound heap n) (s : Standard K) (h : GoodStandard s) (late : Bool) :
    ∃ c, s.cloneInto heap (newStandard late) k = (c, k + (standardCopies heap s).length) ∧ c.params = number k (standardCopies heap s) ∧ c.reflective = false ∧ c.refractive = false ∧
      (∀ heap', Agrees heap heap' n c.params → LikeStandard heap heap' s c) ∧
      (∀ heap' : Nat → Option (Param K), (∀ i, i < n → heap' i = none) → (∀ o ∈ c.params, heap' o.id = some o.param) → ∀ d ∈ c.textures, ∀ u ∈ d, u.image heap' = none) := by
  obtain ⟨ds, e, hd⟩ := cloneChannels_eq heap n hs s.textures h.sets [] (number k (s.params.map fun o => o.param.copy)) (k + s.params.length)
  have hn : number k (standardCopies heap s) = number k (s.params.map fun o => o.param.copy) ++ number (k + s.params.length) (samplerCopies heap s.textures.flatten) := by
    rw [standardCopies, number_append, List.length_map]
  refine ⟨⟨number k (standardCopies heap s), s.type, ds, s.mode, s.emissionFactor, false, false, List.zipWith cloneSlot s.slots newSlots⟩, ?_, rfl, rfl, rfl, ?_, ?_⟩
  · rw [Standard.cloneInto]
    simp only [newStandard, cloneParams_eq, List.nil_append]
    rw [e, hn]
    simp only [standardCopies, List.length_append, List.length_map, List.nil_append, Nat.add_assoc]
  · intro heap' ha
    have hnew := ha.new
    simp only [hn] at hnew
    exact ⟨rfl, rfl, rfl, hd.like heap' ha.old fun o ho => hnew o (List.mem_append_right _ ho), cloneSlots_same _ _ (by rw [h.count]; exact newSlots_num.1.symm) h.slots newSlots_num.2⟩
  · intro heap' h1 h2
    simp only [hn] at h2
    exact hd.dead heap' h1 fun o ho => h2 o (List.mem_append_right _ ho)

end

end Verif.FFx
