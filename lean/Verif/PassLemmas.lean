import Verif.PassSpec
import Mathlib.Data.List.Sort

/-! # Lemmas about render states and passes -/

namespace Verif.FPass

open Verif.FEff (Text text)

/-! ## Default values -/

/-- Writes one after the other, starting at an offset. -/
def contig : Nat → List Write → Bool
  | _, [] => true
  | k, w :: ws => decide (w.off = k) && contig (k + w.val.bytes.length) ws

/-- All bytes written. -/
def flat (ws : List Write) : List Cell := (ws.map fun w => w.val.bytes).flatten

theorem run_contig (ws : List Write) : ∀ (k : Nat) (m : List Cell), contig k ws = true → k + (flat ws).length ≤ m.length →
    ws.foldlM Write.run m = some (m.take k ++ flat ws ++ m.drop (k + (flat ws).length)) := by
  induction ws with
  | nil => intro k m _ h; simp [flat]
  | cons w ws ih =>
    intro k m hc hl
    simp only [contig, Bool.and_eq_true, decide_eq_true_eq] at hc
    have hf : flat (w :: ws) = w.val.bytes ++ flat ws := by simp [flat]
    rw [hf] at hl ⊢
    simp only [List.length_append] at hl ⊢
    rw [List.foldlM_cons, Write.run, if_pos (by omega)]
    change ws.foldlM Write.run _ = _
    rw [hc.1]
    rw [ih (k + w.val.bytes.length) _ hc.2 (by simp; omega)]
    congr 1
    have hk : (m.take k).length = k := by simp; omega
    rw [List.take_append_of_le_length (by simp; omega), List.take_of_length_le (by simp; try omega)]
    rw [List.drop_append, List.drop_eq_nil_of_le (by simp; omega), List.nil_append, List.drop_drop]
    simp only [List.append_assoc]
    congr 4
    simp only [List.length_append, hk]
    omega

/-- The check of one row of the tables. -/
def rowOk (t : Nat) : Bool :=
  match writes (dataSize t) t with
  | none => false
  | some ws => contig 0 ws && decide ((flat ws).map some = layout t) && decide ((flat ws).length = dataSize t) && (flat ws).all fun c => decide (c ≠ .raw)

theorem rows_ok : ∀ t < 108, t ≠ 29 → rowOk t = true := by decide +kernel

theorem sizes_ok : ∀ t < 108, dataSize t = (layout t).length := by decide +kernel

theorem setDefault_eq (t : Nat) (ht : t < 108) (h : t ≠ 29) (m : List Cell) (hm : m.length = dataSize t) :
    ∃ d, setDefault t m = some d ∧ d.map some = layout t ∧ ∀ c ∈ d, c ≠ .raw := by
  have hr := rows_ok t ht h
  unfold rowOk at hr
  rcases hw : writes (dataSize t) t with _ | ws
  · rw [hw] at hr; simp at hr
  · rw [hw] at hr
    simp only [Bool.and_eq_true, decide_eq_true_eq, List.all_eq_true] at hr
    obtain ⟨⟨⟨h1, h2⟩, h3⟩, h4⟩ := hr
    refine ⟨flat ws, ?_, h2, h4⟩
    rw [setDefault, hm, hw]
    change ws.foldlM Write.run m = _
    rw [run_contig ws 0 m h1 (by omega)]
    simp [h3, hm]

theorem spot_eq (m : List Cell) (hm : m.length = 17) :
    setDefault 29 m = some ((.byte 0 :: ([0, 0, -1] : List ℚ).flatMap flBytes) ++ m.drop 13) := by
  have hw : writes 17 29 = some [.mk 0 (.u8 0), .mk 1 (.floats [0, 0, -1])] := rfl
  rw [setDefault, hm, hw]
  change List.foldlM Write.run m _ = _
  rw [run_contig _ 0 m (by decide) (by rw [hm]; decide)]
  simp [flat, Val.bytes, flBytes]

theorem construct_unknown (t : Nat) (ht : 108 ≤ t) : construct t = some [.raw] := by
  have h1 : dataSize t = 1 := by rw [dataSize, if_neg (by omega)]
  have h2 : writes 1 t = none := by
    obtain ⟨k, rfl⟩ := Nat.exists_eq_add_of_le' ht
    rfl
  rw [construct, h1, setDefault]
  change (match writes 1 t with | some ws => _ | none => _) = _
  rw [h2]
  rfl

theorem construct_isSome (t : Nat) : ∃ d, construct t = some d ∧ d.length = dataSize t := by
  by_cases ht : t < 108
  · by_cases h : t = 29
    · subst h
      exact ⟨_, spot_eq _ (by decide +kernel), by decide +kernel⟩
    · obtain ⟨d, hd, hl, _⟩ := setDefault_eq t ht h (List.replicate (dataSize t) .raw) (by simp)
      refine ⟨d, hd, ?_⟩
      rw [sizes_ok t ht, ← hl]; simp
  · refine ⟨[.raw], construct_unknown t (by omega), ?_⟩
    rw [dataSize, if_neg ht]; rfl

/-! ## Invariant of passes -/

/-- What holds of every pass a user can make. -/
structure Inv (p : Pass) (l : List RState) : Prop where
  shn : (p.shaders.map Shader.id).Nodup
  shl : ∀ s ∈ p.shaders, s.id < p.next
  perm : p.states.Perm l
  sorted : Sorted p.states
  stable : ∀ t, p.states.filter (fun s => decide (s.type = t)) = l.filter fun s => decide (s.type = t)
  stn : (l.map RState.id).Nodup
  stl : ∀ s ∈ l, s.id < p.next
  size : ∀ s ∈ l, s.data.length = dataSize s.type

theorem releaseShader_eq (p : Pass) (id : Nat) : (releaseShader p id).states = p.states ∧ (releaseShader p id).next = p.next ∧ (releaseShader p id).name = p.name := ⟨rfl, rfl, rfl⟩

/-- Releasing all shaders of a kind. -/
theorem releaseAll_spec (k : Shader → Bool) (p : Pass) (hd : (p.shaders.map Shader.id).Nodup) :
    ∀ n, p.shaders.length < n → releaseAll (fun q => q.shaders.find? k) n p = some { p with shaders := p.shaders.filter fun s => !k s } := by
  suffices H : ∀ (m : Nat) (p : Pass), p.shaders.length = m → (p.shaders.map Shader.id).Nodup → ∀ n, m < n →
      releaseAll (fun q => q.shaders.find? k) n p = some { p with shaders := p.shaders.filter fun s => !k s } from fun n hn => H _ p rfl hd n hn
  intro m
  induction m using Nat.strong_induction_on with
  | _ m ih =>
    intro p hm hd n hn
    obtain ⟨n, rfl⟩ : ∃ j, n = j + 1 := ⟨n - 1, by omega⟩
    rw [releaseAll]
    rcases hf : p.shaders.find? k with _ | s
    · change some p = _
      have : p.shaders.filter (fun s => !k s) = p.shaders := by
        rw [List.filter_eq_self]
        intro a ha
        have := List.find?_eq_none.1 hf a ha
        simpa using this
      rw [this]
    · change releaseAll _ n (releaseShader p s.id) = _
      have hs := List.mem_of_find?_eq_some hf
      have hk : k s = true := List.find?_some hf
      have hlt : (releaseShader p s.id).shaders.length < m := by
        rw [← hm]
        refine List.length_filter_lt_length_iff_exists.2 ⟨s, hs, by simp⟩
      rw [ih _ hlt (releaseShader p s.id) rfl ?_ n (by omega)]
      · congr 2
        change (p.shaders.filter _).filter _ = _
        rw [List.filter_filter]
        refine List.filter_congr ?_
        intro x hx
        by_cases hxs : x.id = s.id
        · have : x = s := by
            by_contra hne
            exact hne (List.inj_on_of_nodup_map hd hx hs hxs)
          subst this
          simp [hk]
        · simp [hxs]
      · exact (List.filter_sublist.map _).nodup hd

theorem affects_new (p : Pass) (hl : ∀ s ∈ p.shaders, s.id < p.next) (f : Bool) :
    affects (addShader p) p.next f = { p with shaders := p.shaders ++ [{ id := p.next, isFragment := f }], next := p.next + 1 } := by
  have : (p.shaders ++ [({ id := p.next } : Shader)]).map (fun s => if s.id = p.next then { s with isFragment := f } else s) = p.shaders ++ [{ id := p.next, isFragment := f }] := by
    rw [List.map_append]
    congr 1
    · conv_rhs => rw [← List.map_id p.shaders]
      refine List.map_congr_left ?_
      intro s hs
      rw [if_neg (Nat.ne_of_lt (hl s hs))]; rfl
    · simp
  rw [affects, addShader]
  exact congrArg (fun l => ({ p with shaders := l, next := p.next + 1 } : Pass)) this

theorem addVertex_spec (p : Pass) (l : List RState) (h : Inv p l) (n : Nat) (hn : p.shaders.length < n) :
    addVertex n p = some { p with shaders := p.shaders.filter (fun s => s.isFragment) ++ [{ id := p.next, isFragment := false }], next := p.next + 1 } := by
  have := releaseAll_spec (fun s => !s.isFragment) p h.shn n hn
  rw [addVertex]
  change ((releaseAll (fun q => q.shaders.find? fun s => !s.isFragment) n p).map _) = _
  rw [this, Option.map_some, affects_new]
  · simp
  · intro s hs
    exact h.shl s (List.mem_of_mem_filter hs)

theorem addFragment_spec (p : Pass) (l : List RState) (h : Inv p l) (n : Nat) (hn : p.shaders.length < n) :
    addFragment n p = some { p with shaders := p.shaders.filter (fun s => !s.isFragment) ++ [{ id := p.next, isFragment := true }], next := p.next + 1 } := by
  have := releaseAll_spec (fun s => s.isFragment) p h.shn n hn
  rw [addFragment]
  change ((releaseAll (fun q => q.shaders.find? fun s => s.isFragment) n p).map _) = _
  rw [this, Option.map_some, affects_new]
  intro s hs
  exact h.shl s (List.mem_of_mem_filter hs)

/-- The loops end with the same result whenever they end. -/
theorem releaseAll_mono (g : Pass → Option Shader) : ∀ (n m : Nat) (p q : Pass), n ≤ m → releaseAll g n p = some q → releaseAll g m p = some q := by
  intro n
  induction n with
  | zero => intro m p q _ h; simp [releaseAll] at h
  | succ n ih =>
    intro m p q hnm h
    obtain ⟨m, rfl⟩ : ∃ j, m = j + 1 := ⟨m - 1, by omega⟩
    rw [releaseAll] at h ⊢
    rcases hg : g p with _ | s
    · rw [hg] at h; exact h
    · rw [hg] at h; exact ih m _ q (by omega) h

/-! ## Sorted insertion -/

/-- Sorted insertion, as a recursion. -/
def ins (s : RState) : List RState → List RState
  | [] => [s]
  | a :: r => if s.type < a.type then s :: a :: r else a :: ins s r

theorem ins_eq (s : RState) : ∀ l, l.take (insertIndex s.type l) ++ s :: l.drop (insertIndex s.type l) = ins s l := by
  intro l
  induction l with
  | nil => rfl
  | cons a r ih =>
    rw [insertIndex, ins]
    split
    · rfl
    · simp [ih]

theorem ins_perm (s : RState) : ∀ l, (ins s l).Perm (l ++ [s]) := by
  intro l
  induction l with
  | nil => exact List.Perm.refl _
  | cons a r ih =>
    rw [ins]
    split
    · exact (List.perm_append_singleton s (a :: r)).symm
    · exact ih.cons a

theorem ins_sorted (s : RState) : ∀ l, Sorted l → Sorted (ins s l) := by
  intro l
  induction l with
  | nil => intro _; exact List.pairwise_singleton _ _
  | cons a r ih =>
    intro h
    have h' := List.pairwise_cons.1 h
    rw [ins]
    split
    · rename_i hlt
      refine List.pairwise_cons.2 ⟨?_, h⟩
      intro b hb
      rcases List.mem_cons.1 hb with rfl | hb
      · exact Nat.le_of_lt hlt
      · exact Nat.le_trans (Nat.le_of_lt hlt) (h'.1 b hb)
    · rename_i hlt
      refine List.pairwise_cons.2 ⟨?_, ih h'.2⟩
      intro b hb
      rcases List.mem_append.1 ((ins_perm s r).mem_iff.1 hb) with hb | hb
      · exact h'.1 b hb
      · rw [List.mem_singleton.1 hb]; omega

theorem ins_stable (s : RState) (t : Nat) : ∀ l, Sorted l → (ins s l).filter (fun x => decide (x.type = t)) = l.filter (fun x => decide (x.type = t)) ++ [s].filter fun x => decide (x.type = t) := by
  intro l
  induction l with
  | nil => intro _; rfl
  | cons a r ih =>
    intro h
    have h' := List.pairwise_cons.1 h
    rw [ins]
    split
    · rename_i hlt
      by_cases hs : s.type = t
      · have : (a :: r).filter (fun x => decide (x.type = t)) = [] := by
          rw [List.filter_eq_nil_iff]
          intro b hb
          have : a.type ≤ b.type := by
            rcases List.mem_cons.1 hb with rfl | hb
            · exact Nat.le_refl _
            · exact h'.1 b hb
          simp only [decide_eq_true_eq]
          omega
        rw [List.filter_cons_of_pos (by simpa using hs), this]
        simp [hs]
      · rw [List.filter_cons_of_neg (by simpa using hs)]
        simp [hs]
    · have := ih h'.2
      by_cases ha : a.type = t
      · rw [List.filter_cons_of_pos (by simpa using ha), List.filter_cons_of_pos (by simpa using ha), this]; rfl
      · rw [List.filter_cons_of_neg (by simpa using ha), List.filter_cons_of_neg (by simpa using ha), this]

theorem addRenderState_eq (p : Pass) (t : Nat) (d : List Cell) (h : construct t = some d) :
    addRenderState p t = some { p with states := ins ⟨p.next, t, d⟩ p.states, next := p.next + 1 } := by
  rw [addRenderState, h, Option.map_some, ← ins_eq]

/-! ## Every step keeps the invariant -/

theorem inv_new : Inv {} [] :=
  Inv.mk List.nodup_nil (fun _ h => nomatch h) (List.Perm.refl _) List.Pairwise.nil (fun _ => rfl) List.nodup_nil (fun _ h => nomatch h) (fun _ h => nomatch h)

theorem inv_step {p q : Pass} {l : List RState} {o : Op} (h : Inv p l) (hl : Legal p o) (hs : Step p o q) : Inv q (log p l o) := by
  have vf : ∀ (k : Shader → Bool) (f : Bool), Inv { p with shaders := p.shaders.filter k ++ [{ id := p.next, isFragment := f }], next := p.next + 1 } l := by
    intro k f
    refine ⟨?_, ?_, h.perm, h.sorted, h.stable, h.stn, fun s hs => Nat.lt_succ_of_lt (h.stl s hs), h.size⟩
    · rw [List.map_append, List.nodup_append]
      refine ⟨(List.filter_sublist.map _).nodup h.shn, by simp, ?_⟩
      intro a ha b hb
      obtain ⟨s, hs, rfl⟩ := List.mem_map.1 ha
      simp at hb
      subst hb
      exact Nat.ne_of_lt (h.shl s (List.mem_of_mem_filter hs))
    · intro s hs
      rcases List.mem_append.1 hs with hs | hs
      · exact Nat.lt_succ_of_lt (h.shl s (List.mem_of_mem_filter hs))
      · rw [List.mem_singleton.1 hs]; exact Nat.lt_succ_self _
  cases hs with
  | addShader =>
    have := vf (fun _ => true) false
    rw [List.filter_true] at this
    exact this
  | addVertex n q e =>
    have e2 := addVertex_spec p l h (max n (p.shaders.length + 1)) (by omega)
    have e3 : addVertex (max n (p.shaders.length + 1)) p = some q := by
      rw [addVertex] at e ⊢
      rcases hr : releaseAll getVertex n p with _ | r
      · rw [hr] at e; simp at e
      · rw [releaseAll_mono _ n _ p r (by omega) hr, ← hr, e]
    rw [e3] at e2
    rw [Option.some.inj e2]
    exact vf _ _
  | addFragment n q e =>
    have e2 := addFragment_spec p l h (max n (p.shaders.length + 1)) (by omega)
    have e3 : addFragment (max n (p.shaders.length + 1)) p = some q := by
      rw [addFragment] at e ⊢
      rcases hr : releaseAll getFragment n p with _ | r
      · rw [hr] at e; simp at e
      · rw [releaseAll_mono _ n _ p r (by omega) hr, ← hr, e]
    rw [e3] at e2
    rw [Option.some.inj e2]
    exact vf _ _
  | releaseShader id =>
    exact ⟨(List.filter_sublist.map _).nodup h.shn, fun s hs => h.shl s (List.mem_of_mem_filter hs), h.perm, h.sorted, h.stable, h.stn, h.stl, h.size⟩
  | editShader id v =>
    have hm : (p.shaders.map fun s => if s.id = id then { v with id := s.id } else s).map Shader.id = p.shaders.map Shader.id := by
      rw [List.map_map]
      refine List.map_congr_left ?_
      intro s _
      simp only [Function.comp_apply]
      split <;> rfl
    refine ⟨?_, ?_, h.perm, h.sorted, h.stable, h.stn, h.stl, h.size⟩
    · exact hm.symm ▸ h.shn
    · intro s hs
      have : s.id ∈ p.shaders.map Shader.id := by rw [← hm]; exact List.mem_map_of_mem hs
      obtain ⟨x, hx, e⟩ := List.mem_map.1 this
      rw [← e]; exact h.shl x hx
  | addState t q e =>
    obtain ⟨d, hd, hsz⟩ := construct_isSome t
    rw [addRenderState_eq p t d hd] at e
    rw [← Option.some.inj e]
    have hlog : log p l (.addState t) = l ++ [⟨p.next, t, d⟩] := by rw [log, hd]; rfl
    rw [hlog]
    refine ⟨h.shn, fun s hs => Nat.lt_succ_of_lt (h.shl s hs), (ins_perm _ _).trans (h.perm.append_right _), ins_sorted _ _ h.sorted, ?_, ?_, ?_, ?_⟩
    · intro u
      rw [ins_stable _ _ _ h.sorted, h.stable, List.filter_append]
    · rw [List.map_append, List.nodup_append]
      refine ⟨h.stn, by simp, ?_⟩
      intro a ha b hb
      obtain ⟨s, hs, rfl⟩ := List.mem_map.1 ha
      simp at hb
      subst hb
      exact Nat.ne_of_lt (h.stl s hs)
    · intro s hs
      rcases List.mem_append.1 hs with hs | hs
      · exact Nat.lt_succ_of_lt (h.stl s hs)
      · rw [List.mem_singleton.1 hs]; exact Nat.lt_succ_self _
    · intro s hs
      rcases List.mem_append.1 hs with hs | hs
      · exact h.size s hs
      · rw [List.mem_singleton.1 hs]; exact hsz
  | releaseState id =>
    refine ⟨h.shn, h.shl, h.perm.filter _, List.Pairwise.filter _ h.sorted, ?_, (List.filter_sublist.map _).nodup h.stn, fun s hs => h.stl s (List.mem_of_mem_filter hs), fun s hs => h.size s (List.mem_of_mem_filter hs)⟩
    intro t
    change (p.states.filter _).filter _ = (l.filter _).filter _
    have hcomm : ∀ x : List RState, (x.filter fun s => decide (s.id ≠ id)).filter (fun s => decide (s.type = t)) = (x.filter fun s => decide (s.type = t)).filter fun s => decide (s.id ≠ id) := by
      intro x
      rw [List.filter_filter, List.filter_filter]
      refine List.filter_congr ?_
      intro s _; exact Bool.and_comm _ _
    rw [hcomm, hcomm, h.stable]
  | setData id d =>
    have hty : ∀ s : RState, (if s.id = id then { s with data := d } else s).type = s.type := fun s => by split <;> rfl
    have hid : ∀ s : RState, (if s.id = id then { s with data := d } else s).id = s.id := fun s => by split <;> rfl
    refine ⟨h.shn, h.shl, h.perm.map _, ?_, ?_, ?_, ?_, ?_⟩
    · refine List.pairwise_map.2 (h.sorted.imp ?_)
      intro a b hab
      rw [hty, hty]; exact hab
    · intro t
      change (p.states.map _).filter _ = (l.map _).filter _
      rw [List.filter_map, List.filter_map]
      have hc : ((fun s : RState => decide (s.type = t)) ∘ fun s => if s.id = id then { s with data := d } else s) = fun s => decide (s.type = t) := by
        funext s; simp only [Function.comp_apply, hty]
      rw [hc, h.stable]
    · change (List.map RState.id (l.map _)).Nodup
      rw [List.map_map]
      have hc : (RState.id ∘ fun s => if s.id = id then { s with data := d } else s) = RState.id := by
        funext s; simp only [Function.comp_apply, hid]
      rw [hc]; exact h.stn
    · intro s hs
      obtain ⟨x, hx, rfl⟩ := List.mem_map.1 hs
      change RState.id _ < p.next
      rw [hid]; exact h.stl x hx
    · intro s hs
      obtain ⟨x, hx, rfl⟩ := List.mem_map.1 hs
      rw [hty]
      split
      · rename_i e
        rw [← h.size x hx]
        exact hl x (h.perm.mem_iff.2 hx) e
      · exact h.size x hx

theorem reach_inv {p : Pass} {l : List RState} (h : Reach p l) : Inv p l := by
  induction h with
  | new => exact inv_new
  | step _ hl hs ih => exact inv_step ih hl hs

/-! ## Clones -/

theorem findCode_append (a b : List Code) (sid : Text) : findCode (a ++ b) sid = (findCode a sid).or (findCode b sid) := by
  rw [findCode, List.find?_append]; rfl

theorem cloneCode_eq (t : Tech) (c : Code) (old : Option Code) (h : t.profile.isSome ∨ (findCode t.codes c.sid).isSome) :
    cloneCode (some t) (some c) old = some (findCode t.all c.sid) := by
  rw [cloneCode, Option.bind_some, Tech.all, findCode_append]
  rcases hf : findCode t.codes c.sid with _ | d
  · rw [hf] at h
    rcases hp : t.profile with _ | l
    · rw [hp] at h; simp at h
    · rfl
  · rfl

theorem cloneShader_eq (t : Tech) (q : Pass) (s : Shader) (h : CanLook t s) :
    cloneShader (some t) q s = some { q with shaders := q.shaders ++ [{ s with id := q.next, code := codeFor t s }], next := q.next + 1 } := by
  have : cloneCode (some t) s.code none = some (codeFor t s) := by
    rcases hc : s.code with _ | c
    · rw [codeFor, hc]; rfl
    · rw [cloneCode_eq t c none (h c hc), codeFor, hc]; rfl
  rw [cloneShader, Shader.cloneInto]
  change ((cloneCode (some t) s.code none).map _).map _ = _
  rw [this]
  rfl

theorem cloneShaders_eq (t : Tech) : ∀ (l : List Shader) (q : Pass), (∀ s ∈ l, CanLook t s) →
    ∃ c, l.foldlM (cloneShader (some t)) q = some { q with shaders := q.shaders ++ c, next := q.next + l.length } ∧ c.map Shader.seen = l.map Shader.seen ∧
      c.map Shader.code = l.map (codeFor t) ∧ c.map Shader.id = (List.range l.length).map (q.next + ·) := by
  intro l
  induction l with
  | nil => intro q _; exact ⟨[], by simp, rfl, rfl, rfl⟩
  | cons s r ih =>
    intro q h
    obtain ⟨c, e, h1, h2, h3⟩ := ih { q with shaders := q.shaders ++ [{ s with id := q.next, code := codeFor t s }], next := q.next + 1 } (fun x hx => h x (List.mem_cons_of_mem _ hx))
    refine ⟨{ s with id := q.next, code := codeFor t s } :: c, ?_, ?_, ?_, ?_⟩
    · rw [List.foldlM_cons, cloneShader_eq t q s (h s List.mem_cons_self)]
      change List.foldlM _ _ r = _
      rw [e]
      simp [Nat.add_assoc, Nat.add_comm 1]
    · rw [List.map_cons, List.map_cons, h1]; rfl
    · rw [List.map_cons, List.map_cons, h2]
    · rw [List.map_cons, h3, List.length_cons, List.range_succ_eq_map]
      simp [Nat.add_assoc, Nat.add_comm 1]

/-- A larger or equal state goes to the end. -/
theorem ins_end (s : RState) : ∀ l : List RState, (∀ x ∈ l, x.type ≤ s.type) → ins s l = l ++ [s] := by
  intro l
  induction l with
  | nil => intro _; rfl
  | cons a r ih =>
    intro h
    rw [ins, if_neg (Nat.not_lt.2 (h a List.mem_cons_self)), ih fun x hx => h x (List.mem_cons_of_mem _ hx)]
    rfl

theorem cloneState_eq (q : Pass) (s : RState) (hsz : s.data.length = dataSize s.type) (hid : ∀ x ∈ q.states, x.id < q.next) (hle : ∀ x ∈ q.states, x.type ≤ s.type) :
    cloneState q s = some { q with states := q.states ++ [⟨q.next, s.type, s.data⟩], next := q.next + 1 } := by
  obtain ⟨d, hd, hdl⟩ := construct_isSome s.type
  rw [cloneState, addRenderState_eq q s.type d hd, Option.map_some, copyState]
  have : (ins ⟨q.next, s.type, d⟩ q.states).map (fun x => if x.id = q.next then (s.cloneInto x).getD x else x) = q.states ++ [⟨q.next, s.type, s.data⟩] := by
    rw [ins_end ⟨q.next, s.type, d⟩ _ hle, List.map_append]
    congr 1
    · conv_rhs => rw [← List.map_id q.states]
      refine List.map_congr_left ?_
      intro x hx
      rw [if_neg (Nat.ne_of_lt (hid x hx))]; rfl
    · simp [RState.cloneInto, hsz, hdl]
  exact congrArg (fun l => some ({ q with states := l, next := q.next + 1 } : Pass)) this

theorem cloneStates_eq : ∀ (l : List RState) (q : Pass), Sorted l → (∀ s ∈ l, s.data.length = dataSize s.type) → (∀ x ∈ q.states, x.id < q.next) → (∀ x ∈ q.states, ∀ s ∈ l, x.type ≤ s.type) →
    ∃ c, l.foldlM cloneState q = some { q with states := q.states ++ c, next := q.next + l.length } ∧ c.map RState.seen = l.map RState.seen := by
  intro l
  induction l with
  | nil => intro q _ _ _ _; exact ⟨[], by simp, rfl⟩
  | cons s r ih =>
    intro q hs hsz hid hle
    have hs' := List.pairwise_cons.1 hs
    obtain ⟨c, e, h1⟩ := ih { q with states := q.states ++ [⟨q.next, s.type, s.data⟩], next := q.next + 1 } hs'.2 (fun x hx => hsz x (List.mem_cons_of_mem _ hx)) (by
      intro x hx
      rcases List.mem_append.1 hx with hx | hx
      · exact Nat.lt_succ_of_lt (hid x hx)
      · rw [List.mem_singleton.1 hx]; exact Nat.lt_succ_self _) (by
      intro x hx y hy
      rcases List.mem_append.1 hx with hx | hx
      · exact hle x hx y (List.mem_cons_of_mem _ hy)
      · rw [List.mem_singleton.1 hx]; exact hs'.1 y hy)
    refine ⟨⟨q.next, s.type, s.data⟩ :: c, ?_, ?_⟩
    · rw [List.foldlM_cons, cloneState_eq q s (hsz s List.mem_cons_self) hid (fun x hx => hle x hx s List.mem_cons_self)]
      change List.foldlM _ _ r = _
      rw [e]
      simp [Nat.add_assoc, Nat.add_comm 1]
    · rw [List.map_cons, List.map_cons, h1]; rfl

end Verif.FPass
