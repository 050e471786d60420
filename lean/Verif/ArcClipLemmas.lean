import Verif.ArcClipSpec
import Verif.ArcPlainEnt
import Verif.ArcInstLemmas

/-! # Lemmas for the properties of saved clips -/

namespace Verif.FArc

open Verif.FEff (Text text)
open Verif.FConv (Ov DateTime Formats shown)

theorem noteAnims : ∀ (cs : List (Option Nat)) (l : List Nat), cs.foldl noteAnim l = l ++ ((cs.filterMap id).filter fun a => !decide (a ∈ l)).eraseDups
  | [], l => by simp
  | none :: cs, l => by
    rw [List.foldl_cons, show noteAnim l none = l from rfl, noteAnims cs l]
    rfl
  | some a :: cs, l => by
    rw [List.foldl_cons]
    by_cases h : a ∈ l
    · rw [show noteAnim l (some a) = l from if_pos h, noteAnims cs l]
      simp [h]
    · rw [show noteAnim l (some a) = l ++ [a] from if_neg h, noteAnims cs (l ++ [a])]
      rw [show (some a :: cs).filterMap id = a :: cs.filterMap id from rfl, List.filter_cons, if_pos (by simpa using h), List.eraseDups_cons, List.filter_filter]
      simp only [List.append_assoc, List.singleton_append]
      congr 3
      refine List.filter_congr fun b _ => ?_
      by_cases hb : b = a <;> simp [hb]

theorem anim_back (ov : Ov) (ids : Nat → Text) (a : Nat) (h : FXml.ValidId true (ids a)) : loadInst ov (animNode ids a) = some { id := ids a } := by
  have hb : GoodBase { id := ids a } := ⟨h, plain_nil, trivial, .inl rfl⟩
  have hx := inst_back ov hb (text "instance_animation") [(text "url", 35 :: ids a)] [] FExtra.newExtra (by simp [raw_cons]) (by simp [raw_cons, text_inj]) (by simp [raw_cons, text_inj])
    (by rw [children_other (by simp)]; rfl)
  exact hx

theorem setAnimName_end (l : List Text) (t : Text) : setAnimName l l.length t = l ++ [t] := by
  unfold setAnimName
  rw [if_pos (Nat.le_refl _), show l.length + 1 - l.length = 1 by omega]
  exact set_mid l [] [] t

theorem loadAnims (ov : Ov) (ids : Nat → Text) : ∀ (l : List Nat) (c : Clip), (∀ a ∈ l, FXml.ValidId true (ids a)) → c.names.length = c.anims.length →
    (l.map (animNode ids)).foldlM (loadClipAnim ov) c = some { c with anims := c.anims ++ l.map fun a => { id := ids a }, names := c.names ++ l.map fun _ => [] }
  | [], c, _, _ => by simp
  | a :: l, c, h, hc => by
    have h1 : loadClipAnim ov c (animNode ids a) = some { c with anims := c.anims ++ [{ id := ids a }], names := c.names ++ [[]] } := by
      unfold loadClipAnim
      rw [anim_back ov ids a (h a (by simp)), Option.bind_some, prop_absent (by simp [animNode, raw_cons, text_inj]), Option.map_some]
      rw [show (c.anims ++ [({ id := ids a } : IBase)]).length - 1 = c.names.length by simp [hc], setAnimName_end]
    rw [List.map_cons, List.foldlM_cons, h1]
    simp only [Option.bind_eq_bind, Option.bind_some]
    rw [loadAnims ov ids l _ (fun b hb => h b (by simp [hb])) (by simp [hc])]
    simp

theorem loadAnims_curves (ov : Ov) : ∀ (ks : List Node) (c d : Clip), ks.foldlM (loadClipAnim ov) c = some d → d.curves = c.curves
  | [], c, d, h => by obtain rfl := Option.some.inj h; rfl
  | k :: ks, c, d, h => by
    rw [List.foldlM_cons] at h
    obtain ⟨e, he, h⟩ := Option.bind_eq_some_iff.1 h
    rw [loadAnims_curves ov ks e d h]
    unfold loadClipAnim at he
    obtain ⟨b, -, he⟩ := Option.bind_eq_some_iff.1 he
    obtain ⟨t, -, rfl⟩ := Option.map_eq_some_iff.1 he
    rfl

end Verif.FArc
