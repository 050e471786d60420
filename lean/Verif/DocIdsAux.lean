import Verif.DocIdsSpec
import Verif.DocIds
import Verif.UniqueProps
import Verif.XmlTextProps

/-! # Lemmas for the properties in DocIdsProps -/

namespace Verif.FIds

open Verif.FStr (Ch)
open Verif.FUniq (key number Keeps base)

/-- The name map knows exactly the keys of the ids held, which are distinct. -/
structure Inv (d : Doc) : Prop where
  keeps : Keeps d.names (fun k => ∃ i s, Holds d i s ∧ key s = k)
  inj : ∀ i j s t, Holds d i s → Holds d j t → key s = key t → i = j

theorem obj_put (d : Doc) (m : FUniq.Names) (i j : Nat) (o : Option Obj) (hi : i < d.objs.length) :
    Doc.obj ⟨m, d.put i o⟩ j = if j = i then o else d.obj j := by
  unfold Doc.obj Doc.put
  rw [List.getElem?_set]
  split
  · rename_i h; subst h; simp
  · rename_i h; rw [if_neg (fun e => h e.symm)]

theorem obj_lt {d : Doc} {i : Nat} {o : Obj} (h : d.obj i = some o) : i < d.objs.length := by
  unfold Doc.obj at h
  by_contra hc
  rw [List.getElem?_eq_none (by omega)] at h
  exact absurd h (by simp)

theorem inv_bound {d : Doc} : ∀ k, (∃ i s, Holds d i s ∧ key s = k) → k.2 < 2 ^ 32 := by
  rintro k ⟨i, s, _, rfl⟩
  exact FUniq.number_lt s

/-- Giving an id to an object that has none. -/
theorem inv_insert {d : Doc} (h : Inv d) (hc : Calm d) (i : Nat) (hi : i < d.objs.length) (hn : ∀ s, ¬ Holds d i s) (w : List Ch) :
    ∃ m' s', FUniq.insert d.names w = some (m', s') ∧ Inv ⟨m', d.put i (some ⟨s', true⟩)⟩ ∧ base s' = base w ∧
      (s' = w ∨ ∃ n, s' = base w ++ FBld.decimal n) := by
  obtain ⟨m', s', e, hk, hb, h1, h2⟩ := FUniq.insert_keeps h.keeps inv_bound w
  have hnew : ∀ j t, Holds d j t → key s' ≠ key t := by
    intro j t ht hkey
    by_cases hs : ∃ i s, Holds d i s ∧ key s = key w
    · obtain ⟨n, hn', rfl, hmax, hlast⟩ := h2 hs
      rw [FUniq.key_decimal _ (FUniq.base_base w) n hn'] at hkey
      rcases hmax n ⟨j, t, ht, hkey.symm⟩ with rfl | hlt
      · rcases hlast with hl | ⟨a, b, hab, hl⟩
        · exact absurd hl (by decide)
        · exact hc a b hab (congrArg Prod.snd hl)
      · omega
    · rw [h1 hs] at hkey
      exact hs ⟨j, t, ht, hkey.symm⟩
  have hform : s' = w ∨ ∃ n, s' = base w ++ FBld.decimal n := by
    by_cases hs : ∃ i s, Holds d i s ∧ key s = key w
    · obtain ⟨n, _, e, _⟩ := h2 hs
      exact .inr ⟨n, e⟩
    · exact .inl (h1 hs)
  have hh : ∀ j t, Holds ⟨m', d.put i (some ⟨s', true⟩)⟩ j t ↔ (j = i ∧ t = s') ∨ Holds d j t := by
    intro j t
    unfold Holds
    rw [obj_put d m' i j _ hi]
    split
    · rename_i hj; subst hj
      have := hn t
      unfold Holds at this
      constructor
      · intro e
        simp only [Option.some.injEq, Obj.mk.injEq, and_true] at e
        exact .inl ⟨rfl, e.symm⟩
      · rintro (⟨_, rfl⟩ | e)
        · rfl
        · exact absurd e this
    · rename_i hj
      constructor
      · exact .inr
      · rintro (⟨e, _⟩ | e)
        · exact absurd e hj
        · exact e
  refine ⟨m', s', e, ⟨FUniq.keeps_congr hk fun k => ?_, ?_⟩, hb, hform⟩
  · constructor
    · rintro (rfl | ⟨j, t, ht, rfl⟩)
      · exact ⟨i, s', (hh i s').2 (.inl ⟨rfl, rfl⟩), rfl⟩
      · exact ⟨j, t, (hh j t).2 (.inr ht), rfl⟩
    · rintro ⟨j, t, ht, rfl⟩
      rcases (hh j t).1 ht with ⟨_, rfl⟩ | ht
      · exact .inl rfl
      · exact .inr ⟨j, t, ht, rfl⟩
  · intro a b s t ha hb hkey
    rcases (hh a s).1 ha with ⟨e1, e2⟩ | ha' <;> rcases (hh b t).1 hb with ⟨e3, e4⟩ | hb'
    · rw [e1, e3]
    · rw [e2] at hkey; exact absurd hkey (hnew b t hb')
    · rw [e4] at hkey; exact absurd hkey.symm (hnew a s ha')
    · exact h.inj a b s t ha' hb' hkey

/-- Dropping the id of an object. -/
theorem inv_remove {d : Doc} (h : Inv d) (i : Nat) (o : Obj) (ho : d.obj i = some o) :
    ∃ d', removeDaeId d i = some d' ∧ Inv d' ∧ d'.objs.length = d.objs.length ∧ d'.obj i = some ⟨o.id, false⟩ ∧
      ∀ j, j ≠ i → d'.obj j = d.obj j := by
  unfold removeDaeId
  rw [ho, Option.bind_some]
  cases hu : o.unique with
  | false =>
    rw [if_neg (by simp)]
    refine ⟨d, rfl, h, rfl, ?_, fun _ _ => rfl⟩
    rw [ho]
    cases o
    simp_all
  | true =>
    rw [if_pos rfl]
    have hhold : Holds d i o.id := by
      unfold Holds; rw [ho]
      cases o
      simp_all
    obtain ⟨m', e, hk⟩ := FUniq.erase_keeps h.keeps o.id
    have hi := obj_lt ho
    rw [e, Option.map_some]
    have hh : ∀ j t, Holds ⟨m', d.put i (some ⟨o.id, false⟩)⟩ j t ↔ j ≠ i ∧ Holds d j t := by
      intro j t
      unfold Holds
      rw [obj_put d m' i j _ hi]
      split
      · rename_i hj; simp [hj]
      · rename_i hj; simp [hj]
    refine ⟨_, rfl, ⟨FUniq.keeps_congr hk fun k => ?_, ?_⟩, by simp [Doc.put], ?_, ?_⟩
    · constructor
      · rintro ⟨hne, j, t, ht, rfl⟩
        refine ⟨j, t, (hh j t).2 ⟨?_, ht⟩, rfl⟩
        rintro rfl
        unfold Holds at ht hhold
        rw [ht] at hhold
        simp only [Option.some.injEq, Obj.mk.injEq, and_true] at hhold
        exact hne (congrArg key hhold)
      · rintro ⟨j, t, ht, rfl⟩
        obtain ⟨hj, ht⟩ := (hh j t).1 ht
        exact ⟨fun hkey => hj (h.inj j i t o.id ht hhold hkey), j, t, ht, rfl⟩
    · intro a b s t ha hb hkey
      exact h.inj a b s t ((hh a s).1 ha).2 ((hh b t).1 hb).2 hkey
    · rw [obj_put d m' i i _ hi, if_pos rfl]
    · intro j hj
      rw [obj_put d m' i j _ hi, if_neg hj]

theorem cleaned_ne_zero (t : List Ch) (h : 0 ∉ t) : 0 ∉ FXml.cleaned true t := by
  unfold FXml.cleaned
  split
  · simp
  · rename_i c r e
    have hc : c ∈ t := List.mem_of_mem_take (by rw [e]; simp)
    rw [List.mem_cons, List.mem_map, not_or]
    constructor
    · split
      · rintro rfl; exact h hc
      · decide
    · rintro ⟨x, hx, hz⟩
      have hx' : x ∈ t := List.mem_of_mem_take (by rw [e]; simp [hx])
      split at hz
      · exact h (hz ▸ hx')
      · exact absurd hz (by decide)

theorem cleanId_eq (t : List Ch) (h : 0 ∉ t) : cleanId t = some (FXml.cleaned true t) := by
  obtain ⟨v, e1, e2⟩ := FXml.clean_text true t [] h
  unfold cleanId
  rw [e1, Option.bind_some, e2, Option.map_some]
  congr 1
  exact FBld.takeWhile_text _ (cleaned_ne_zero t h) []

theorem obj_create (d : Doc) (b : List Ch) (i : Nat) : (create d b).obj i = if i = d.objs.length then some ⟨b, false⟩ else d.obj i := by
  unfold create Doc.obj
  simp only
  split
  · rename_i h; subst h; simp
  · rename_i h
    by_cases hi : i < d.objs.length
    · rw [List.getElem?_append_left hi]
    · rw [List.getElem?_eq_none (by simp; omega), List.getElem?_eq_none (by omega)]

theorem inv_same {d d' : Doc} (h : Inv d) (hn : d'.names = d.names) (hh : ∀ i s, Holds d' i s ↔ Holds d i s) : Inv d' := by
  refine ⟨?_, fun i j s t hi hj hk => h.inj i j s t ((hh i s).1 hi) ((hh j t).1 hj) hk⟩
  rw [hn]
  refine FUniq.keeps_congr h.keeps fun k => ?_
  constructor
  · rintro ⟨i, s, hi, e⟩; exact ⟨i, s, (hh i s).2 hi, e⟩
  · rintro ⟨i, s, hi, e⟩; exact ⟨i, s, (hh i s).1 hi, e⟩

theorem holds_false {d : Doc} {i : Nat} {o : Obj} (h : d.obj i = some o) (hu : o.unique = false) (s : List Ch) : ¬ Holds d i s := by
  unfold Holds
  rw [h]
  intro e
  rw [Option.some.inj e] at hu
  exact absurd hu (by simp)

theorem calm_sub {d d' : Doc} (h : Calm d) (hh : ∀ i s, Holds d' i s → Holds d i s) : Calm d' := fun i s hi => h i s (hh i s hi)

theorem inv_get {d : Doc} (h : Inv d) (hc : Calm d) (i : Nat) (o : Obj) (ho : d.obj i = some o) :
    ∃ d' s, getDaeId d i = some (d', s) ∧ Inv d' ∧ Holds d' i s ∧ (∀ j, j ≠ i → d'.obj j = d.obj j) ∧
      base s = base (if o.unique = false ∧ o.id = [] then unknownObject else o.id) := by
  unfold getDaeId
  rw [ho, Option.bind_some]
  cases hu : o.unique with
  | true =>
    refine ⟨d, o.id, by rw [if_pos rfl], h, ?_, fun _ _ => rfl, by simp⟩
    unfold Holds; rw [ho]; cases o; simp_all
  | false =>
    rw [if_neg (by simp)]
    obtain ⟨m', s', e, hi, hb, _⟩ := inv_insert h hc i (obj_lt ho) (holds_false ho hu) (if o.id = [] then unknownObject else o.id)
    refine ⟨_, s', by rw [e]; rfl, hi, ?_, fun j hj => ?_, by simpa using hb⟩
    · unfold Holds; rw [obj_put d m' i i _ (obj_lt ho), if_pos rfl]
    · rw [obj_put d m' i j _ (obj_lt ho), if_neg hj]

theorem inv_set {d : Doc} (h : Inv d) (hc : Calm d) (i : Nat) (o : Obj) (ho : d.obj i = some o) (id : List Ch) (h0 : 0 ∉ id) :
    ∃ d' s, setDaeId d i id = some d' ∧ Inv d' ∧ Holds d' i s ∧ (∀ j, j ≠ i → d'.obj j = d.obj j) ∧
      (s = FXml.cleaned true id ∨ ∃ n, s = base (FXml.cleaned true id) ++ FBld.decimal n) := by
  obtain ⟨d1, e1, hi1, hl, ho1, hoth⟩ := inv_remove h i o ho
  have hc1 : Calm d1 := calm_sub hc (by
    intro j s hj
    by_cases e : j = i
    · subst e; exact absurd hj (holds_false ho1 rfl s)
    · unfold Holds at hj ⊢; rw [← hoth j e]; exact hj)
  obtain ⟨m', s', e, hi, _, hb⟩ := inv_insert hi1 hc1 i (obj_lt ho1) (holds_false ho1 rfl) (FXml.cleaned true id)
  refine ⟨_, s', ?_, hi, ?_, fun j hj => ?_, hb⟩
  · unfold setDaeId
    rw [e1, Option.bind_some, cleanId_eq id h0, Option.bind_some, e]
    rfl
  · unfold Holds; rw [obj_put d1 m' i i _ (obj_lt ho1), if_pos rfl]
  · rw [obj_put d1 m' i j _ (obj_lt ho1), if_neg hj, hoth j hj]

theorem inv_destroy {d : Doc} (h : Inv d) (i : Nat) (o : Obj) (ho : d.obj i = some o) :
    ∃ d', destroy d i = some d' ∧ Inv d' ∧ d'.obj i = none ∧ ∀ j, j ≠ i → d'.obj j = d.obj j := by
  obtain ⟨d1, e1, hi1, hl, ho1, hoth⟩ := inv_remove h i o ho
  have hput := fun j => obj_put d1 d1.names i j none (obj_lt ho1)
  refine ⟨⟨d1.names, d1.put i none⟩, by unfold destroy; rw [e1]; rfl, inv_same hi1 rfl fun j s => ?_, by rw [hput i, if_pos rfl], fun j hj => by rw [hput j, if_neg hj, hoth j hj]⟩
  unfold Holds
  rw [hput j]
  split
  · rename_i e; subst e
    rw [ho1]; simp
  · exact Iff.rfl

theorem inv_clone {d : Doc} (h : Inv d) (i j : Nat) (hj : ∀ s, ¬ Holds d j s) (o c : Obj) (ho : d.obj i = some o) (hc : d.obj j = some c) :
    ∃ d', clone d i j = some d' ∧ Inv d' := by
  have hcu : c.unique = false := by
    cases hu : c.unique with
    | false => rfl
    | true => exact absurd (show Holds d j c.id by unfold Holds; rw [hc]; cases c; simp_all) (hj c.id)
  have hput := fun k => obj_put d d.names j k (some { c with id := o.id }) (obj_lt hc)
  have hinv : Inv ⟨d.names, d.put j (some { c with id := o.id })⟩ := by
    refine inv_same h rfl fun k s => ?_
    unfold Holds
    rw [hput k]
    split
    · rename_i e; subst e
      constructor
      · intro e
        simp [hcu] at e
      · intro e
        exact absurd e (hj s)
    · rfl
  have hoi : ∃ o', (Doc.obj ⟨d.names, d.put j (some { c with id := o.id })⟩ i) = some o' := by
    rw [hput i]
    split
    · exact ⟨_, rfl⟩
    · exact ⟨o, ho⟩
  obtain ⟨o', ho'⟩ := hoi
  obtain ⟨d', e, hi, _⟩ := inv_remove hinv i o' ho'
  exact ⟨d', by unfold clone; rw [ho, Option.bind_some, hc, Option.bind_some]; exact e, hi⟩

theorem obj_of_some {α : Type} {d : Doc} {i : Nat} {f : Obj → Option α} {x : α} (h : (d.obj i).bind f = some x) : ∃ o, d.obj i = some o := by
  obtain ⟨o, ho, _⟩ := Option.bind_eq_some_iff.1 h
  exact ⟨o, ho⟩

theorem remove_obj {d d' : Doc} {i : Nat} (h : removeDaeId d i = some d') : ∃ o, d.obj i = some o := obj_of_some h

theorem reach_inv {d : Doc} (h : Reach d) : Inv d := by
  induction h with
  | empty =>
    have : ∀ i s, ¬ Holds ⟨FTree.Map.empty, []⟩ i s := by intro i s; simp [Holds, Doc.obj]
    refine ⟨FUniq.keeps_congr FUniq.keeps_empty fun k => ?_, fun i j s t hi => absurd hi (this i s)⟩
    simp only [false_iff]
    rintro ⟨i, s, hi, _⟩
    exact this i s hi
  | @create d b _ ih =>
    refine inv_same ih rfl fun i s => ?_
    unfold Holds
    rw [obj_create]
    split
    · rename_i e
      subst e
      constructor
      · intro e; simp at e
      · intro e; exact absurd (obj_lt e) (by omega)
    · rfl
  | @get d i d' s _ hc e ih =>
    obtain ⟨o, ho⟩ := obj_of_some e
    obtain ⟨d1, s1, e1, hi, _⟩ := inv_get ih hc i o ho
    rw [e] at e1
    simp only [Option.some.injEq, Prod.mk.injEq] at e1
    rw [e1.1]; exact hi
  | @set d i id d' _ h0 hc e ih =>
    obtain ⟨d0, hr, _⟩ := Option.bind_eq_some_iff.1 e
    obtain ⟨o, ho⟩ := remove_obj hr
    obtain ⟨d1, s1, e1, hi, _⟩ := inv_set ih hc i o ho id h0
    rw [e] at e1
    rw [Option.some.inj e1]; exact hi
  | @remove d i d' _ e ih =>
    obtain ⟨o, ho⟩ := remove_obj e
    obtain ⟨d1, e1, hi, _⟩ := inv_remove ih i o ho
    rw [e] at e1
    rw [Option.some.inj e1]; exact hi
  | @destroy d i d' _ e ih =>
    obtain ⟨d0, hr, _⟩ := Option.map_eq_some_iff.1 e
    obtain ⟨o, ho⟩ := remove_obj hr
    obtain ⟨d1, e1, hi, _⟩ := inv_destroy ih i o ho
    rw [e] at e1
    rw [Option.some.inj e1]; exact hi
  | @clone d i j d' _ hj e ih =>
    obtain ⟨o, ho, h2⟩ := Option.bind_eq_some_iff.1 e
    obtain ⟨c, hc, _⟩ := Option.bind_eq_some_iff.1 h2
    obtain ⟨d1, e1, hi⟩ := inv_clone ih i j hj o c ho hc
    rw [e] at e1
    rw [Option.some.inj e1]; exact hi

theorem start_not_digit (c : Int) (h : FXml.startChar c = true) : ¬ FConv.IsDigit c := by
  simp only [FXml.startChar, FXml.letter, Bool.or_eq_true, Bool.and_eq_true, decide_eq_true_eq, beq_iff_eq] at h
  unfold FConv.IsDigit
  intro hd
  have h1 : (48 : Int) ≤ c := hd.1
  have h2 : (c : Int) ≤ 57 := hd.2
  omega

end Verif.FIds
