import Verif.SubIdsSpec
import Verif.UniqueProps

/-!
# C189: the sub-ids of instances are unique in their scope
-/

namespace Verif.FSub

open Verif.FStr (Ch)
open Verif.FUniq (Names Keeps Reach key base number)

theorem empty_keeps : Keeps FTree.Map.empty (fun k => k ∈ ([] : List (List Ch)).map key) := FUniq.keeps_congr FUniq.keeps_empty (by simp)

/-- One name: it is always given, has the base of the wanted one, and is not empty. -/
theorem one_total {m : Names} {held : List (List Ch)} (h : Keeps m (fun k => k ∈ held.map key)) (s : List Ch) (hs : s ≠ []) :
    ∃ m' s', cleanOne m s = some (m', s') ∧ Keeps m' (fun k => k ∈ (s' :: held).map key) ∧ base s' = base s ∧ s' ≠ [] ∧ (key s ∉ held.map key → s' = s) := by
  obtain ⟨m', s', e, hk, hb, h1, h2⟩ := FUniq.insert_keeps h (by
    intro k hm
    obtain ⟨y, _, rfl⟩ := List.mem_map.1 hm
    exact FUniq.number_lt y) s
  refine ⟨m', s', by unfold cleanOne; rw [if_neg hs]; exact e, FUniq.keeps_congr hk (by simp), hb, ?_, h1⟩
  by_cases hm : key s ∈ held.map key
  · obtain ⟨n, hn, e, _⟩ := h2 hm
    rw [e]
    intro h0
    have := (List.append_eq_nil_iff.1 h0).2
    have hk := FUniq.key_decimal [] rfl n hn
    rw [this] at hk
    have : number [] = n := congrArg Prod.snd hk
    have h3 : number [] = 2 ^ 32 - 1 := rfl
    rw [h3] at this
    subst this
    revert h0
    rw [List.append_eq_nil_iff]
    rintro ⟨-, h⟩
    revert h
    decide +kernel
  · rw [h1 hm]
    exact hs

theorem clean_like : ∀ (is : Insts) (m : Names) (held : List (List Ch)), Keeps m (fun k => k ∈ held.map key) → ∃ m' is', clean m is = some (m', is') ∧ is.Like is'
  | .nil, m, _, _ => ⟨m, .nil, rfl, trivial⟩
  | .cons s own rest, m, held, h => by
    obtain ⟨mo, own', eo, lo⟩ := clean_like own _ [] empty_keeps
    by_cases hs : s = []
    · obtain ⟨mr, rest', er, lr⟩ := clean_like rest m held h
      refine ⟨mr, .cons s own' rest', ?_, rfl, Iff.rfl, lo, lr⟩
      unfold clean cleanOne
      rw [if_pos hs]
      simp only [Option.bind_some, eo, er, Option.map_some]
    · obtain ⟨m1, s', e1, hk, hb, hne, -⟩ := one_total h s hs
      obtain ⟨mr, rest', er, lr⟩ := clean_like rest m1 (s' :: held) hk
      refine ⟨mr, .cons s' own' rest', ?_, hb, ⟨fun h => absurd h hs, fun h => absurd h hne⟩, lo, lr⟩
      unfold clean
      simp only [e1, Option.bind_some, eo, er, Option.map_some]

/-- **C189.** The cleaning always succeeds and changes nothing but the numbers at the end of the sub-ids; empty ones stay empty. -/
theorem clean_changes (is : Insts) : ∃ is', cleanScope is = some is' ∧ is.Like is' := by
  obtain ⟨m', is', e, h⟩ := clean_like is _ [] empty_keeps
  exact ⟨is', by unfold cleanScope; rw [e]; rfl, h⟩

/-- **C189.** The same for the nodes of a scene. -/
theorem clean_nodes_changes : ∀ ns : Nodes, ∃ ns', cleanNodes ns = some ns' ∧ ns.Like ns'
  | .nil => ⟨.nil, rfl, trivial⟩
  | .cons is children rest => by
    obtain ⟨a, ea, ha⟩ := clean_changes is
    obtain ⟨b, eb, hb⟩ := clean_nodes_changes children
    obtain ⟨c, ec, hc⟩ := clean_nodes_changes rest
    refine ⟨.cons a b c, ?_, ha, hb, hc⟩
    unfold cleanNodes
    simp only [ea, eb, ec, Option.bind_some, Option.map_some]

theorem clean_cons {m : Names} {s : List Ch} {own rest : Insts} {m' : Names} {is' : Insts} (h : clean m (.cons s own rest) = some (m', is')) :
    ∃ m1 s' mo own' rest', cleanOne m s = some (m1, s') ∧ clean FTree.Map.empty own = some (mo, own') ∧ clean m1 rest = some (m', rest') ∧ is' = .cons s' own' rest' := by
  unfold clean at h
  obtain ⟨⟨m1, s'⟩, e1, h⟩ := Option.bind_eq_some_iff.1 h
  obtain ⟨⟨mo, own'⟩, e2, h⟩ := Option.bind_eq_some_iff.1 h
  obtain ⟨⟨mr, rest'⟩, e3, h⟩ := Option.map_eq_some_iff.1 h
  simp only [Prod.mk.injEq] at h
  obtain ⟨rfl, rfl⟩ := h
  exact ⟨m1, s', mo, own', rest', e1, e2, e3, rfl⟩

theorem clean_reach : ∀ (is : Insts) (m : Names) (held : List (List Ch)) (m' : Names) (is' : Insts), Reach m held → clean m is = some (m', is') → is'.Each Small → Small held →
    (∃ held', Reach m' held' ∧ held'.Perm (is'.names ++ held)) ∧ is'.Inside List.Nodup
  | .nil, m, held, m', is', h, e, _, _ => by
    simp only [clean, Option.some.injEq, Prod.mk.injEq] at e
    obtain ⟨rfl, rfl⟩ := e
    exact ⟨⟨held, h, List.Perm.refl _⟩, trivial⟩
  | .cons s own rest, m, held, m', is', h, e, hs, hh => by
    obtain ⟨m1, s', mo, own', rest', e1, e2, e3, rfl⟩ := clean_cons e
    obtain ⟨hn, ho, hio, hir⟩ := hs
    obtain ⟨⟨heldo, ro, po⟩, io⟩ := clean_reach own _ [] mo own' Reach.empty e2 ⟨ho, hio⟩ (fun y hy => absurd hy List.not_mem_nil)
    have no : own'.names.Nodup := by
      have := List.Nodup.of_map key (FUniq.reach_keeps ro).2
      rw [List.append_nil] at po
      exact po.nodup_iff.1 this
    unfold cleanOne at e1
    split at e1
    · next h0 =>
      simp only [Option.some.injEq, Prod.mk.injEq] at e1
      obtain ⟨rfl, rfl⟩ := e1
      have en : (Insts.cons s own' rest').names = rest'.names := by rw [Insts.names, if_pos h0]
      rw [en] at hn ⊢
      obtain ⟨hr, ir⟩ := clean_reach rest m held m' rest' h e3 ⟨hn, hir⟩ hh
      exact ⟨hr, no, io, ir⟩
    · next h0 =>
      have hne : s' ≠ [] := by
        obtain ⟨m2, s2, e, _, _, hne, _⟩ := one_total (FUniq.reach_keeps h).1 s h0
        unfold cleanOne at e
        rw [if_neg h0, e1] at e
        simp only [Option.some.injEq, Prod.mk.injEq] at e
        rw [e.2]
        exact hne
      have en : (Insts.cons s' own' rest').names = s' :: rest'.names := by rw [Insts.names, if_neg hne]
      rw [en] at hn ⊢
      have hs' : Small (s' :: held) := by
        intro y hy
        rcases List.mem_cons.1 hy with rfl | hy
        · exact hn y List.mem_cons_self
        · exact hh y hy
      obtain ⟨⟨held', hr, hp⟩, ir⟩ := clean_reach rest m1 (s' :: held) m' rest' (Reach.insert s h hh e1) e3 ⟨fun y hy => hn y (List.mem_cons_of_mem s' hy), hir⟩ hs'
      exact ⟨⟨held', hr, hp.trans List.perm_middle⟩, no, io, ir⟩

/-- **C189, partial.** After the cleaning, the sub-ids are pairwise different in each scope. Missing: scopes in which a name ends in the number 4294967294 (`sub_ids_violated`). -/
theorem sub_ids_unique_partial (is is' : Insts) (h : cleanScope is = some is') (hs : is'.Each Small) : is'.Each List.Nodup := by
  obtain ⟨⟨m', r⟩, e, rfl⟩ := Option.map_eq_some_iff.1 h
  obtain ⟨⟨held, hr, hp⟩, hi⟩ := clean_reach is _ [] m' r Reach.empty e hs (fun y hy => absurd hy List.not_mem_nil)
  refine ⟨?_, hi⟩
  rw [List.append_nil] at hp
  exact hp.nodup_iff.1 (List.Nodup.of_map key (FUniq.reach_keeps hr).2)

/-- **C189, partial.** The same for the nodes of a scene. -/
theorem node_sub_ids_unique_partial : ∀ (ns ns' : Nodes), cleanNodes ns = some ns' → ns'.Each Small → ns'.Each List.Nodup
  | .nil, ns', h, _ => by
    simp only [cleanNodes, Option.some.injEq] at h
    rw [← h]
    trivial
  | .cons is children rest, ns', h, hs => by
    unfold cleanNodes at h
    obtain ⟨a, ea, h⟩ := Option.bind_eq_some_iff.1 h
    obtain ⟨b, eb, h⟩ := Option.bind_eq_some_iff.1 h
    obtain ⟨c, ec, rfl⟩ := Option.map_eq_some_iff.1 h
    exact ⟨sub_ids_unique_partial is a ea hs.1, node_sub_ids_unique_partial children b eb hs.2.1, node_sub_ids_unique_partial rest c ec hs.2.2⟩

theorem clean_same : ∀ (is : Insts) (m : Names) (held : List (List Ch)), Keeps m (fun k => k ∈ held.map key) → is.Inside Distinct → Distinct (is.names ++ held) → ∃ m', clean m is = some (m', is)
  | .nil, m, _, _, _, _ => ⟨m, rfl⟩
  | .cons s own rest, m, held, h, hi, hd => by
    obtain ⟨ho, hio, hir⟩ := hi
    obtain ⟨mo, eo⟩ := clean_same own _ [] empty_keeps hio (by rw [List.append_nil]; exact ho)
    by_cases hs : s = []
    · rw [Insts.names, if_pos hs] at hd
      obtain ⟨mr, er⟩ := clean_same rest m held h hir hd
      refine ⟨mr, ?_⟩
      unfold clean cleanOne
      rw [if_pos hs]
      simp only [Option.bind_some, eo, er, Option.map_some]
    · rw [Insts.names, if_neg hs] at hd
      obtain ⟨m1, s', e1, hk, -, -, hsame⟩ := one_total h s hs
      have hd' : Distinct (rest.names ++ s :: held) := by
        unfold Distinct at hd ⊢
        exact ((List.perm_middle (l₁ := rest.names)).map key).nodup_iff.2 hd
      have hnot : key s ∉ held.map key := by
        unfold Distinct at hd
        rw [List.cons_append, List.map_cons, List.nodup_cons, List.map_append] at hd
        exact fun hm => hd.1 (List.mem_append_right _ hm)
      obtain rfl := hsame hnot
      obtain ⟨mr, er⟩ := clean_same rest m1 (s' :: held) hk hir hd'
      refine ⟨mr, ?_⟩
      unfold clean
      simp only [e1, Option.bind_some, eo, er, Option.map_some]

/-- **C189.** If the sub-ids in each scope are already different in base or number, nothing changes. -/
theorem clean_keeps (is : Insts) (h : is.Each Distinct) : cleanScope is = some is := by
  obtain ⟨m', e⟩ := clean_same is _ [] empty_keeps h.2 (by rw [List.append_nil]; exact h.1)
  unfold cleanScope
  rw [e]
  rfl

/-- **C189.** The same for the nodes of a scene. -/
theorem clean_nodes_keeps : ∀ ns : Nodes, ns.Each Distinct → cleanNodes ns = some ns
  | .nil, _ => rfl
  | .cons is children rest, h => by
    unfold cleanNodes
    simp only [clean_keeps is h.1, clean_nodes_keeps children h.2.1, clean_nodes_keeps rest h.2.2, Option.bind_some, Option.map_some]

/-! ## What does not hold -/

/-- Instances without others in their scope. -/
def flat : List (List Ch) → Insts
  | [] => .nil
  | s :: ss => .cons s .nil (flat ss)

/-- **C189, violated.** With such a number, two sub-ids can become equal. -/
theorem sub_ids_violated : cleanScope (flat [[97] ++ FBld.decimal 4294967294, [97], [97], [97]]) = some (flat [[97] ++ FBld.decimal 4294967294, [97], [97] ++ FBld.decimal 4294967295, [97] ++ FBld.decimal 4294967295]) := by decide +kernel

/-- **C189, violated.** A sub-id that is unique as a text changes if it differs from another one in leading zeros only. -/
theorem zeros_violated : cleanScope (flat [[97, 49], [97, 48, 49]]) = some (flat [[97, 49], [97, 50]]) := by decide +kernel

example : cleanNodes (.cons (.cons [97] (flat [[97], [97]]) (flat [[], [97], []])) (.cons (flat [[97]]) .nil .nil) .nil) =
    some (.cons (.cons [97] (flat [[97], [97, 49]]) (flat [[], [97, 49], []])) (.cons (flat [[97]]) .nil .nil) .nil) := by decide +kernel

example : (Insts.cons [97] (flat [[97], [97, 49]]) (flat [[], [97, 49], []])).Each Small := by
  simp only [Insts.Each, Insts.Inside, Insts.names, flat, Small]
  decide +kernel

end Verif.FSub
