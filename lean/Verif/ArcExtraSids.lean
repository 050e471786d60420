import Verif.ArcFxSids
import Verif.ArcExtraProps

/-! # The sub-ids in the elements of extra trees -/

namespace Verif.FArc

open Verif.FEff (Text text)

/-- The attributes called `sid` in an extra tree have no `%` in them. -/
def ExtraSids (e : FExtra.Extra) : Prop := ∀ t ∈ e, ∀ x ∈ t.techs, ∀ c ∈ x.node.children, ∀ m, FExtra.Within c m → ∀ a ∈ m.attrs, a.name = text "sid" → Plain a.value

mutual
theorem enode_sids : ∀ c : FExtra.Node, (∀ m, FExtra.Within c m → ∀ a ∈ m.attrs, a.name = text "sid" → Plain a.value) → PlainSids (writeENode c)
  | .mk n c as cs => fun h => by
    rw [writeENode]
    refine plainSids_elem (fun s hs => ?_) (enodes_sids cs fun k hk m hm => h m (.deeper (n := .mk n c as cs) hk hm))
    have : ∀ l : List FExtra.Attr, (∀ a ∈ l, a.name = text "sid" → Plain a.value) → (Node.elem n (l.map fun a => (a.name, a.value)) (encode c) (writeENodes cs)).raw (text "sid") = some s → Plain s := by
      intro l
      induction l with
      | nil => intro _ e; rw [List.map_nil, raw_nil] at e; cases e
      | cons a l ih =>
        intro hl e
        rw [List.map_cons, raw_cons] at e
        by_cases ha : a.name = text "sid"
        · rw [if_pos ha] at e
          obtain rfl := Option.some.inj e
          exact hl a (by simp) ha
        · rw [if_neg ha] at e
          exact ih (fun b hb => hl b (by simp [hb])) e
    exact this as (h _ (.here _)) hs
theorem enodes_sids : ∀ cs : List FExtra.Node, (∀ c ∈ cs, ∀ m, FExtra.Within c m → ∀ a ∈ m.attrs, a.name = text "sid" → Plain a.value) → ∀ k ∈ writeENodes cs, PlainSids k
  | [] => fun _ k hk => by rw [writeENodes] at hk; cases hk
  | c :: cs => fun h k hk => by
    rw [writeENodes] at hk
    rcases List.mem_cons.1 hk with rfl | hk
    · exact enode_sids c (h c (by simp))
    · exact enodes_sids cs (fun x hx => h x (by simp [hx])) k hk
end

/-- The elements written for an extra have only the sub-ids of the attributes in it. -/
theorem extra_sids {e : FExtra.Extra} (h : Saveable e ∨ FExtra.hasContent e = false) (hs : ExtraSids e) : ∀ k ∈ writeExtra e, PlainSids k := by
  intro k hk
  unfold writeExtra at hk
  rcases h with h | h
  · split at hk
    · obtain ⟨t, ht, hw⟩ := List.mem_filterMap.1 hk
      obtain ⟨-, h2, h3⟩ := h.2.2 t ht
      rw [writeType_eq t h2 h3] at hw
      split at hw
      · cases hw
      · obtain rfl := Option.some.inj hw
        refine plainSids_elem (fun s e => ?_) fun x hx => ?_
        · split at e
          · cases e
          · rw [raw_cons, if_neg (text_ne (by decide)), raw_nil] at e; cases e
        · obtain ⟨y, hy, rfl⟩ := List.mem_map.1 hx
          exact plainSids_elem (fun s e => by rw [raw_cons, if_neg (text_ne (by decide)), raw_nil] at e; cases e) (enodes_sids _ (hs t ht y hy))
    · cases hk
  · rw [h] at hk; simp at hk

end Verif.FArc
