import Verif.ArcSidLemmas

/-!
# Sub-ids given to written elements (C148)
-/

namespace Verif.FArc

open Verif.FEff (Text text)

/-- **C148, partial.** An element without id and sub-id gets the wanted sub-id, if no element in its scope has it, and otherwise that with the least number from 2 to 99 behind it that none has; what is
returned is the sub-id given. The scope is the nearest element around it with an id or a sub-id, or the outermost element. With fewer than 99 sub-ids in the scope a sub-id is always given. Missing: sub-ids
with `%`, elements that have an id themselves, and scopes in which all 99 are in use, where none is given (`sid_violated`). -/
theorem sid_given_partial (node : Node) (inner outer : List Node) (scope : Node) (hn : node.has (text "id") = false ∧ node.has (text "sid") = false)
    (hi : ∀ k ∈ inner, k.has (text "id") = false ∧ k.has (text "sid") = false) (hs : scope.has (text "id") = true ∨ scope.has (text "sid") = true ∨ outer = []) (hp : PlainSids scope)
    (wanted : Text) (hw : wanted ≠ []) :
    ∃ r, addNodeSid (node :: (inner ++ scope :: outer)) wanted = some r ∧
      (¬ HasSid wanted scope → r = (some wanted, wanted)) ∧
      (HasSid wanted scope →
        (∃ c, 2 ≤ c ∧ c ≤ 99 ∧ r = (some (wanted ++ natText c), wanted ++ natText c) ∧ ¬ HasSid (wanted ++ natText c) scope ∧ ∀ d, 2 ≤ d → d < c → HasSid (wanted ++ natText d) scope) ∨
        (r = (none, []) ∧ ∀ d, 2 ≤ d → d ≤ 99 → HasSid (wanted ++ natText d) scope)) ∧
      (FewSids 99 scope → r.1 ≠ none) := by
  have hfind : ∀ l : List Node, (∀ k ∈ l, k.has (text "id") = false ∧ k.has (text "sid") = false) → l.find? isScope = none := by
    intro l hl
    rw [List.find?_eq_none]
    intro k hk
    simp [isScope, hl k hk]
  have hsc : scopeOf (node :: (inner ++ scope :: outer)) = some scope := by
    unfold scopeOf
    rw [show node :: (inner ++ scope :: outer) = (node :: inner) ++ scope :: outer from rfl, List.find?_append, hfind (node :: inner) (by simpa using ⟨hn, hi⟩), Option.none_or]
    by_cases h : isScope scope = true
    · rw [List.find?_cons_of_pos h]; rfl
    · have ho : outer = [] := by
        rcases hs with h' | h' | h'
        · simp [isScope, h'] at h
        · simp [isScope, h'] at h
        · exact h'
      subst ho
      rw [List.find?_cons_of_neg h, List.find?_nil, Option.none_or, List.getLast?_append]
      rfl
  have hns : isScope node = false := by simp [isScope, hn]
  unfold addNodeSid
  simp only [hns, Bool.false_eq_true, if_false]
  rw [hsc, Option.bind_some]
  obtain ⟨b, h1, h2⟩ := findSid_iff wanted hw scope hp
  rw [h1, Option.bind_some]
  cases b with
  | false =>
    have : ¬ HasSid wanted scope := fun hh => by simpa using h2.2 hh
    exact ⟨_, rfl, fun _ => rfl, fun h => absurd h this, fun _ => by simp⟩
  | true =>
    have hwt := h2.1 rfl
    simp only [if_true]
    rcases trySids_spec scope hp wanted hw (List.range' 2 98) with ⟨pre, c, post, e, h3, h4, h5⟩ | ⟨h3, h4⟩
    · refine ⟨_, h5, fun h => absurd hwt h, fun _ => .inl ⟨c, ?_⟩, fun _ => by simp⟩
      have hlen : pre.length < 98 := by
        have := congrArg List.length e
        simp at this
        omega
      have hget : ∀ i, i < pre.length → pre[i]? = some (2 + i) := by
        intro i hi
        have := congrArg (·[i]?) e
        simp only [List.getElem?_range' (show i < 98 by omega), List.getElem?_append_left hi] at this
        rw [← this]; simp
      have hc : c = 2 + pre.length := by
        have := congrArg (·[pre.length]?) e
        simp only [List.getElem?_range' (show pre.length < 98 by omega)] at this
        simp at this
        omega
      refine ⟨by omega, by omega, rfl, h4, fun d hd1 hd2 => h3 d ?_⟩
      have := hget (d - 2) (by omega)
      rw [show 2 + (d - 2) = d by omega] at this
      exact List.mem_of_getElem? this
    · have h3' : ∀ d, 2 ≤ d → d ≤ 99 → HasSid (wanted ++ natText d) scope := fun d hd1 hd2 => h3 d (by rw [List.mem_range'_1]; omega)
      refine ⟨_, h4, fun h => absurd hwt h, fun _ => .inr ⟨rfl, h3'⟩, ?_⟩
      rintro ⟨l, l1, l2⟩
      exfalso
      have hinj : ∀ a ∈ List.range' 2 98, ∀ b ∈ List.range' 2 98, wanted ++ natText a = wanted ++ natText b → a = b := by
        intro a ha b hb h
        rw [List.mem_range'_1] at ha hb
        exact natText_different (by omega) (by omega) (List.append_cancel_left h)
      have hnd : (wanted :: (List.range' 2 98).map (fun c => wanted ++ natText c)).Nodup := by
        rw [List.nodup_cons]
        refine ⟨?_, ?_⟩
        · rw [List.mem_map]
          rintro ⟨c, hc, h⟩
          rw [List.mem_range'_1] at hc
          exact natText_nonempty c (by omega) (List.append_cancel_left (h.trans (List.append_nil _).symm))
        · exact List.Nodup.map_on hinj List.nodup_range'
      have hsub : wanted :: (List.range' 2 98).map (fun c => wanted ++ natText c) ⊆ l := by
        intro s hs
        rcases List.mem_cons.1 hs with rfl | hs
        · exact l2 _ hwt
        · obtain ⟨c, hc, rfl⟩ := List.mem_map.1 hs
          exact l2 _ (h3 c hc)
      have := (hnd.subperm hsub).length_le
      simp at this
      omega

/-- An element with the given attributes and children. -/
def plainElem (as : List (Text × Text)) (ks : List Node) : Node := .elem (text "e") as [] ks

/-- A scope with the sub-ids `a` and `a2`, and the sub-id `a3` of the scope itself. -/
def sampleScope : Node := plainElem [(text "sid", text "a3")] [plainElem [(text "sid", text "a")] [plainElem [(text "sid", text "a2")] []], plainElem [] []]

example : addNodeSid [plainElem [] [], sampleScope] (text "a") = some (some (text "a4"), text "a4") ∧ addNodeSid [plainElem [] [], sampleScope] (text "b") = some (some (text "b"), text "b") ∧
    (plainElem [] []).has (text "id") = false ∧ FewSids 99 sampleScope ∧ PlainSids sampleScope := by
  have hsid : ∀ s, HasSid s sampleScope → s ∈ [text "a3", text "a", text "a2"] := by
    intro s h
    simp only [sampleScope, plainElem, hasSid_iff, raw_cons, raw_nil, List.mem_cons, List.not_mem_nil, or_false, exists_eq_or_imp, exists_eq_left, false_and, exists_false, if_true,
      Option.some.injEq, reduceCtorEq, or_self] at h
    rcases h with h | h | h <;> simp [← h]
  refine ⟨by decide +kernel, by decide +kernel, by decide +kernel, ⟨_, by decide, hsid⟩, fun s h => ?_⟩
  have := hsid s h
  simp only [List.mem_cons, List.not_mem_nil, or_false] at this
  rcases this with rfl | rfl | rfl <;> intro c hc <;>
    (have : ∀ c ∈ [text "a3", text "a", text "a2"].flatten, ((-128 ≤ c ∧ c ≤ 127 ∧ c ≠ 0) ∧ c ≠ 37) := by decide +kernel
     exact this c (by simp [hc]))

/-- **C148.** An element that has an id or a sub-id is given the wanted sub-id without a look at the others, unless it has one: then the wanted one is returned although it is not the one of the element. -/
theorem sid_own (node : Node) (around : List Node) (wanted : Text) :
    (node.has (text "sid") = true → addNodeSid (node :: around) wanted = some (none, wanted)) ∧
    (node.has (text "sid") = false → node.has (text "id") = true → addNodeSid (node :: around) wanted = some (some wanted, wanted)) := by
  constructor
  · intro h
    simp [addNodeSid, isScope, h]
  · intro h h'
    simp [addNodeSid, isScope, h, h']

/-- The sub-ids `a`, `a2` and so on to `a99`. -/
def full : Node := plainElem [(text "id", text "x")] ((text "a" :: (List.range' 2 98).map fun c => text "a" ++ natText c).map fun s => plainElem [(text "sid", s)] [])

/-- **C148, violated.** An element with an id gets a sub-id that another element in the scope has; in a scope with all of `a`, `a2` to `a99` no sub-id is given and the empty text is returned; and a sub-id
with `%` is given although it is read back as one that is in use. -/
theorem sid_violated :
    (addNodeSid [plainElem [(text "id", text "y")] [], sampleScope] (text "a") = some (some (text "a"), text "a") ∧ findSid (text "a") sampleScope = some true) ∧
    addNodeSid [plainElem [] [], full] (text "a") = some (none, []) ∧
    (addNodeSid [plainElem [] [], sampleScope] (text "%61") = some (some (text "%61"), text "%61") ∧ prop (some (plainElem [(text "sid", text "%61")] [])) (text "sid") = some (text "a")) := by
  refine ⟨?_, ?_, ?_⟩ <;> decide +kernel

end Verif.FArc
