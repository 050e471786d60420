import Verif.ArcStateLemmas
import Verif.PassLemmas

/-!
# C164: render states survive saving and loading

The data of a render state whose documented fields hold values come back with the same values in the same places, whichever of the 107 kinds of state it is (`render_state_roundtrip_partial`), and every attribute of the element
replaces what was in the data before (`render_state_replaced`). LIGHT_SPOT_DIRECTION is documented with four floats, of which three are saved (`spot_direction_saved_violated`).
-/

namespace Verif.FArc

open Verif.FEff (Text text)
open Verif.FConv (Ov Formats shown)
open Verif.FPass (Cell)

/-- Loading what was saved gives the saved values again, whatever the data held before. TEXTURE_ENV_MODE (44) is left out: its text does not replace the whole of a longer one (`texture_env_mode_violated`). -/
theorem render_state_replaced (ov : Ov) {fmt rnd} (hf : Formats fmt rnd) (t : Nat) (ht : t < 108) (h29 : t ≠ 29) (h44 : t ≠ 44) (vs : List SV) (hv : List.Forall₂ GoodSV (docScal t) vs) (old : List Cell)
    (ho : old.length = FPass.dataSize t) :
    ∃ n, saveState fmt t (dataOf (docScal t) vs) = some n ∧ stateOf n.name = some t ∧ loadState ov t n old = some (dataOf (docScal t) (vs.map (roundSV rnd))) := by
  have hok := states_ok t ht h29 h44
  unfold stateOk at hok
  simp only [Bool.and_eq_true, decide_eq_true_eq, List.all_eq_true] at hok
  obtain ⟨⟨⟨⟨⟨⟨⟨h1, h2⟩, h3⟩, h4⟩, h5⟩, h6⟩, h7⟩, h8⟩ := hok
  rw [← h2] at hv
  obtain ⟨vss, rfl, hg⟩ := flds_split _ _ hv
  have hs := save_fold fmt (dataOf (docScal t) vss.flatten) (saveTable t) h5 0 vss (stateText t) [] [] [] h3 hg (by rw [List.drop_zero, h2, List.append_nil])
  rw [List.nil_append, List.nil_append] at hs
  refine ⟨fldsNode (stateText t) (fldTexts fmt (saveTable t) vss), hs, h8, ?_⟩
  have hfst := fldTexts_fst fmt _ _ hg
  have hpw : (fldTexts fmt (saveTable t) vss).Pairwise fun a b => ¬ (a.1.child = b.1.child ∧ a.1.index = b.1.index) := by
    unfold apart at h4
    rw [decide_eq_true_eq, ← hfst, List.pairwise_map] at h4
    exact h4
  have hi : ∀ x ∈ fldTexts fmt (saveTable t) vss, x.1.child ≠ none → x.1.index = false := fun x hx => h6 x.1 (by rw [← hfst]; exact List.mem_map_of_mem hx)
  have := load_fold ov hf (fldsNode (stateText t) (fldTexts fmt (saveTable t) vss)) (saveTable t) h5 vss [] old h3 hg (fun x hx => hasFld _ hi hpw x.1 x.2 hx _) (by rw [ho, h7])
  rw [List.drop_eq_nil_of_le (by rw [ho, h7]), List.append_nil] at this
  unfold loadState
  rw [← h1, ← h2]
  simpa using this

theorem char_byte (c : FStr.Ch) (h : FXml.IsChar c) : charOf (byteOf c) = c ∧ byteOf c ≠ 0 := by
  obtain ⟨a, b, d⟩ := h
  unfold charOf byteOf
  split <;> constructor <;> first | omega | (simp only [FStr.Ch] at *; omega)

theorem cString_back (t : Text) (h : Plain t) (r : List Cell) : cString (t.map (fun c => .byte (byteOf c)) ++ .byte 0 :: r) = some t := by
  induction t with
  | nil => rfl
  | cons c t ih =>
    have hc := char_byte c (h c (by simp)).1
    have ih := ih fun d hd => h d (by simp [hd])
    rw [List.map_cons, List.cons_append, cString, ih, Option.map_some, hc.1]
    rintro e
    exact hc.2 e

theorem env_save (fmt : ℚ → Text) (i : Nat) (hi : i < 2 ^ 8) (t : Text) (ht : Plain t) (hl : t.length ≤ 254) :
    saveState fmt 44 (dataOf (docScal 44) [.nat i, .str t]) = some (.elem (text "texture_env_mode") [(text "index", natText i), (text "value", t)] [] []) := by
  have e1 : dataOf (docScal 44) [.nat i, .str t] = .byte (i % 256) :: (t.map (fun c => .byte (byteOf c)) ++ .byte 0 :: List.replicate (254 - t.length) (.byte 0)) := by
    have : 255 - t.length = 254 - t.length + 1 := by omega
    show FPass.le 1 i ++ ((t.map (fun c => Cell.byte (byteOf c)) ++ List.replicate (255 - t.length) (.byte 0)) ++ []) = _
    rw [this, List.replicate_succ]
    simp [FPass.le]
  have hm : i % 256 = i := Nat.mod_eq_of_lt (show i < 256 by omega)
  have htk : t.take 254 = t := List.take_of_length_le hl
  unfold saveState
  rw [e1, hm]
  show [(⟨none, true, 0, .u8⟩ : Fld), ⟨none, false, 1, .chars⟩].foldlM (addFld fmt _) _ = _
  rw [List.foldlM_cons, addFld]
  simp only [List.drop_zero, FKind.scal, readScals, readScal, Option.bind_some, Option.map_some, Option.bind_eq_bind, fldText]
  rw [List.foldlM_cons, addFld]
  simp only [List.drop_succ_cons, List.drop_zero, FKind.scal, readScals, readScal, cString_back t ht, Option.bind_some, Option.map_some, Option.bind_eq_bind, fldText, htk, List.foldlM_nil]
  rfl

theorem env_load (ov : Ov) (i : Nat) (hi : i < 2 ^ 8) (t : Text) (ht : Plain t) (hl : t.length ≤ 254) (old : List Cell) (ho : old.length = 256) :
    loadState ov 44 (.elem (text "texture_env_mode") [(text "index", natText i), (text "value", t)] [] []) old =
      some ((.byte i :: t.map fun c => .byte (byteOf c)) ++ (old.drop (1 + t.length)).take (254 - t.length) ++ [.byte 0]) := by
  obtain ⟨x, old, rfl⟩ : ∃ x r, old = x :: r := by cases old with
    | nil => simp at ho
    | cons x r => exact ⟨x, r, rfl⟩
  have hlen : old.length = 255 := by simpa using ho
  set n := Node.elem (text "texture_env_mode") [(text "index", natText i), (text "value", t)] [] [] with hn
  have r1 : n.raw (text "index") = some (natText i) := by rw [hn, raw_cons, if_pos rfl]
  have r2 : n.raw (text "value") = some t := by rw [hn, raw_cons, if_neg (by rw [text_inj]; decide), raw_cons, if_pos rfl]
  unfold loadState
  show [(⟨none, true, 0, .u8⟩ : Fld), ⟨none, false, 1, .chars⟩].foldlM (loadFld ov n) _ = _
  have s1 : loadFld ov n (x :: old) ⟨none, true, 0, .u8⟩ = some (.byte i :: old) := by
    unfold loadFld fldNode
    simp only
    rw [show (⟨none, true, 0, .u8⟩ : Fld).attr = text "index" from rfl, if_pos (by rw [Node.has, r1]; rfl), prop_raw r1 (natText_plain i), Option.bind_some]
    simp only [fldOf, readNat_natText i (by omega), Option.map_some, Option.bind_some, Nat.mod_eq_of_lt (show i < 256 by omega)]
    unfold storeFld putBytes
    rw [if_neg (by decide), scals_bytes _ (by decide), show dataOf FKind.u8.scal [SV.nat i] = [.byte (i % 256)] from rfl, Nat.mod_eq_of_lt (show i < 256 by omega), if_pos (by simp)]
    rfl
  have s2 : loadFld ov n (.byte i :: old) ⟨none, false, 1, .chars⟩ = some ((.byte i :: t.map fun c => .byte (byteOf c)) ++ (old.drop t.length).take (254 - t.length) ++ [.byte 0]) := by
    unfold loadFld fldNode
    simp only
    rw [show (⟨none, false, 1, .chars⟩ : Fld).attr = text "value" from rfl, if_pos (by rw [Node.has, r2]; rfl), prop_raw r2 ht, Option.bind_some]
    simp only [fldOf, Option.bind_some, List.take_of_length_le (show t.length ≤ 255 by omega)]
    unfold storeFld
    rw [if_pos rfl, show scalsBytes FKind.chars.scal [SV.str t] = t.map (fun c => Cell.byte (byteOf c)) ++ [] from rfl, List.append_nil]
    unfold putBytes
    simp only [List.length_map, List.length_cons, hlen]
    rw [if_pos (by omega), Option.bind_some, if_pos (by simp [hlen]; omega)]
    have e1 : List.take 1 (Cell.byte i :: old) ++ t.map (fun c => Cell.byte (byteOf c)) ++ List.drop (1 + t.length) (Cell.byte i :: old) = (Cell.byte i :: t.map fun c => Cell.byte (byteOf c)) ++ old.drop t.length := by
      rw [show 1 + t.length = t.length + 1 by omega]; rfl
    rw [e1]
    congr 1
    rw [List.take_append, List.take_of_length_le (l := Cell.byte i :: t.map fun c => Cell.byte (byteOf c)) (by simp; omega), List.drop_eq_nil_of_le (i := 255 + (([] : List Cell).length + 1)) (by simp [hlen]; omega), List.append_nil]
    simp only [List.length_cons, List.length_map]
    rw [show 255 - (t.length + 1) = 254 - t.length by omega]
  rw [List.foldlM_cons, s1, Option.bind_eq_bind, Option.bind_some, List.foldlM_cons, s2, Option.bind_eq_bind, Option.bind_some, List.foldlM_nil, show 1 + t.length = t.length + 1 by omega]
  rfl

theorem construct44 : FPass.construct 44 = some (List.replicate 256 (.byte 0)) := by decide +kernel

/-- Saving a render state whose documented fields hold values and loading it into a new state of the kind that its element names gives the same values again, floats with the digits that are written.
Partial: LIGHT_SPOT_DIRECTION (29) loses its fourth float. -/
theorem render_state_roundtrip_partial (ov : Ov) {fmt rnd} (hf : Formats fmt rnd) (t : Nat) (ht : t < 108) (h29 : t ≠ 29) (vs : List SV) (hv : List.Forall₂ GoodSV (docScal t) vs) :
    ∃ n d, saveState fmt t (dataOf (docScal t) vs) = some n ∧ stateOf n.name = some t ∧ FPass.construct t = some d ∧ loadState ov t n d = some (dataOf (docScal t) (vs.map (roundSV rnd))) := by
  by_cases h44 : t = 44
  · subst h44
    rcases hv with _ | @⟨_, v1, _, _, a1, _ | @⟨_, v2, _, _, a2, _ | _⟩⟩
    cases v1 <;> simp only [GoodSV] at a1
    cases v2 <;> simp only [GoodSV] at a2
    next i s =>
      refine ⟨_, _, env_save fmt i a1 s a2.1 a2.2, (by decide +kernel : stateOf (text "texture_env_mode") = some 44), construct44, ?_⟩
      rw [env_load ov i a1 s a2.1 a2.2 _ List.length_replicate]
      have : 255 - s.length = 254 - s.length + 1 := by have := a2.2; omega
      show _ = some (FPass.le 1 i ++ ((s.map (fun c => Cell.byte (byteOf c)) ++ List.replicate (255 - s.length) (.byte 0)) ++ []))
      rw [this, List.replicate_succ' (n := 254 - s.length), List.drop_replicate, List.take_replicate, show min (254 - s.length) (256 - (1 + s.length)) = 254 - s.length by omega]
      simp [FPass.le, Nat.mod_eq_of_lt (show i < 256 by omega)]
  · obtain ⟨d, hd, hl⟩ := FPass.construct_isSome t
    obtain ⟨n, h1, h2, h3⟩ := render_state_replaced ov hf t ht h29 h44 vs hv d hl
    exact ⟨n, d, h1, h2, hd, h3⟩

-- The hypotheses hold for a stencil function, and the values come back.
example : List.Forall₂ GoodSV (docScal 15) [.nat 0x203, .nat 7, .nat 255] :=
  .cons (by simp [GoodSV, enumValues]) (.cons (by simp [GoodSV]) (.cons (by simp [GoodSV]) .nil))
example : loadState .strict 15 (.elem (text "stencil_func") [] [] [.elem (text "func") [(text "value", text "LEQUAL")] [] [], .elem (text "ref") [(text "value", text "7")] [] [],
    .elem (text "mask") [(text "value", text "255")] [] []]) (List.replicate 6 .raw) = some (dataOf (docScal 15) [.nat 0x203, .nat 7, .nat 255]) := by decide +kernel
-- … and for a texture environment.
example : List.Forall₂ GoodSV (docScal 44) [.nat 2, .str (text "MODULATE")] := .cons (by simp [GoodSV]) (.cons ⟨hplain _ (by decide +kernel), by decide⟩ .nil)

/-- The elements of two different states have different names: no state is loaded as another. -/
theorem state_names_distinct (a b : Nat) (ha : a < 108) (hb : b < 108) (h : stateText a = stateText b) : a = b := by
  have hs : ∀ t < 108, stateOf (stateText t) = some t := by decide +kernel
  have := hs a ha
  rw [h, hs b hb] at this
  exact (Option.some.inj this).symm

example : stateText 3 = text "blend_equation" := rfl

/-- LIGHT_SPOT_DIRECTION is documented as an index and a vector of four floats, of which the last is neither saved nor loaded: whatever it is, the new state keeps bytes that were never written. -/
theorem spot_direction_saved_violated (ov : Ov) {fmt rnd} (hf : Formats fmt rnd) (i : Nat) (hi : i < 2 ^ 8) (a b c d : ℚ) :
    ∃ n e r, saveState fmt 29 (dataOf (docScal 29) [.nat i, .fl a, .fl b, .fl c, .fl d]) = some n ∧ FPass.construct 29 = some e ∧ loadState ov 29 n e = some r ∧ r.drop 13 = [.raw, .raw, .raw, .raw] := by
  have hok : contigF 0 (saveTable 29) = true ∧ apart (saveTable 29) = true := by decide +kernel
  have h5 : ∀ f ∈ saveTable 29, plainFld f = true := by decide +kernel
  have hg : GoodFlds (saveTable 29) [[.nat i], [.fl a, .fl b, .fl c]] :=
    .cons (.cons hi .nil) (.cons (.cons trivial (.cons trivial (.cons trivial .nil))) .nil)
  have hs := save_fold fmt (dataOf (docScal 29) [.nat i, .fl a, .fl b, .fl c, .fl d]) (saveTable 29) h5 0 _ (stateText 29) [] [] (valBytes .float (.fl d)) hok.1 hg
    (by simp [docScal, saveTable, FKind.scal, dataOf, List.append_assoc])
  rw [List.nil_append, List.nil_append] at hs
  obtain ⟨m, hm⟩ : ∃ m, FPass.construct 29 = some m ∧ m.length = 17 ∧ m.drop 13 = [.raw, .raw, .raw, .raw] := ⟨_, rfl, by decide +kernel, by decide +kernel⟩
  have hfst := fldTexts_fst fmt _ _ hg
  have hpw : (fldTexts fmt (saveTable 29) [[.nat i], [.fl a, .fl b, .fl c]]).Pairwise fun a b => ¬ (a.1.child = b.1.child ∧ a.1.index = b.1.index) := by
    have h4 := hok.2
    unfold apart at h4
    rw [decide_eq_true_eq, ← hfst, List.pairwise_map] at h4
    exact h4
  have hi2 : ∀ x ∈ fldTexts fmt (saveTable 29) [[.nat i], [.fl a, .fl b, .fl c]], x.1.child ≠ none → x.1.index = false := fun x hx =>
    (by decide +kernel : ∀ f ∈ saveTable 29, f.child ≠ none → f.index = false) x.1 (by rw [← hfst]; exact List.mem_map_of_mem hx)
  have hl := load_fold ov hf (fldsNode (stateText 29) (fldTexts fmt (saveTable 29) [[.nat i], [.fl a, .fl b, .fl c]])) (saveTable 29) h5 _ [] m hok.1 hg
    (fun x hx => hasFld _ hi2 hpw x.1 x.2 hx _) (by rw [hm.2.1]; decide)
  rw [List.nil_append, List.nil_append] at hl
  refine ⟨_, m, _, hs, hm.1, hl, ?_⟩
  have hs : ((saveTable 29).map fldSize).sum = 13 := by decide +kernel
  have hlen : (dataOf ((saveTable 29).flatMap fun f => f.kind.scal) (([[SV.nat i], [.fl a, .fl b, .fl c]] : List (List SV)).flatten.map (roundSV rnd))).length = 13 := rfl
  rw [hs, List.drop_append_of_le_length (by rw [hlen]), List.drop_eq_nil_of_le (by rw [hlen]), List.nil_append]
  exact hm.2.2

-- The fourth float is part of what the header documents.
example : (docScal 29).length = 5 ∧ (FPass.dataSize 29) = 17 := by decide

/-- A shorter text of TEXTURE_ENV_MODE loaded into a state that holds a longer one leaves the rest of the longer one behind: the text is copied without its end. -/
theorem texture_env_mode_violated (ov : Ov) : ∃ r, loadState ov 44 (.elem (text "texture_env_mode") [(text "index", text "2"), (text "value", text "ADD")] [] []) (dataOf (docScal 44) [.nat 2, .str (text "MODULATE")]) = some r ∧
    r = dataOf (docScal 44) [.nat 2, .str (text "ADDULATE")] := by
  refine ⟨_, ?_, rfl⟩
  cases ov <;> decide +kernel

end Verif.FArc
