import Verif.XmlTextSpec
import Verif.XmlText
import Verif.ConvProps
import Verif.StrLemmas

/-! # Lemmas for the properties in XmlTextProps -/

namespace Verif.FXml

open Verif.FStr (Ch)

theorem filename_table : ∀ i : Fin 256, filenameTable.getD i.val false = filenameOk i.val := by decide +kernel

theorem content_table : ∀ i : Fin 256, xmlTable.getD i.val false = contentOk i.val := by decide +kernel

theorem high_table : ∀ i : Fin 256, 128 ≤ i.val → filenameOk i.val = false ∧ contentOk i.val = false := by decide +kernel

theorem u8_cases (c : Int) (h : IsChar c) : (0 < c ∧ c < 128 ∧ (u8 c : Int) = c) ∨ (c < 0 ∧ 128 ≤ u8 c ∧ u8 c < 256) := by
  obtain ⟨h1, h2, h3⟩ := h
  unfold u8
  omega

theorem toChar_u8 (c : Int) (h : IsChar c) : toChar (u8 c) = c := by
  obtain ⟨h1, h2, h3⟩ := h
  show Int.bmod ((c % 256).toNat : Int) 256 = c
  have : (((c % 256).toNat : Nat) : Int) = c % 256 := by omega
  rw [this, Int.bmod_def]
  split <;> omega

theorem u8_lt (c : Int) : u8 c < 256 := by
  unfold u8
  omega

theorem filename_lookup (c : Int) (h : IsChar c) : filenameTable.getD (u8 c) false = filenameOk c := by
  rw [filename_table ⟨u8 c, u8_lt c⟩]
  rcases u8_cases c h with ⟨_, _, e⟩ | ⟨h1, h2, h3⟩
  · simp only [e]
  · rw [(high_table ⟨u8 c, h3⟩ h2).1]
    symm
    simp only [filenameOk, Bool.or_eq_false_iff, Bool.and_eq_false_iff, decide_eq_false_iff_not, List.contains_eq_mem, List.mem_cons,
      List.not_mem_nil, or_false, not_or]
    refine ⟨⟨⟨?_, ?_⟩, ?_⟩, ?_⟩ <;> omega

theorem content_lookup (c : Int) (h : IsChar c) : xmlTable.getD (u8 c) false = contentOk c := by
  rw [content_table ⟨u8 c, u8_lt c⟩]
  rcases u8_cases c h with ⟨_, _, e⟩ | ⟨h1, h2, h3⟩
  · simp only [e]
  · rw [(high_table ⟨u8 c, h3⟩ h2).2]
    symm
    simp only [contentOk, Bool.or_eq_false_iff, Bool.and_eq_false_iff, decide_eq_false_iff_not, beq_eq_false_iff_ne]
    refine ⟨⟨?_, ?_⟩, .inl (.inl ?_)⟩ <;> omega

theorem hexPair_eq (n : Nat) (h : n < 256) : FBld.hexPair n = [FBld.hexDigit (n / 16 % 16), FBld.hexDigit (n % 16)] :=
  (FBld.hexDigit_table ⟨n, h⟩).symm

theorem escapeLoop_holds (table : List Bool) (ok : Ch → Bool) (t post : List Ch) (ht : ∀ c ∈ t, IsChar c)
    (hok : ∀ c ∈ t, table.getD (u8 c) false = ok c) : ∀ {b : FBld.Bld} {l}, FBld.Holds b l →
    ∃ b', escapeLoop table b (t ++ 0 :: post) = some b' ∧ FBld.Holds b' (l ++ escaped ok t) := by
  induction t with
  | nil => intro b l h; exact ⟨b, rfl, by simpa [escaped] using h⟩
  | cons c t ih =>
    intro b l h
    have hc := ht c (by simp)
    have ih := @ih (fun x hx => ht x (by simp [hx])) (fun x hx => hok x (by simp [hx]))
    rw [List.cons_append, escapeLoop, if_neg hc.2.2, hok c (by simp)]
    have he : escaped ok (c :: t) = (if ok c then [c] else 37 :: hexOf c) ++ escaped ok t := by simp [escaped]
    rw [he]
    cases hk : ok c with
    | true =>
      obtain ⟨b1, e1, h1⟩ := FBld.appendChar_holds h c
      obtain ⟨b2, e2, h2⟩ := ih h1
      exact ⟨b2, by rw [if_pos rfl, e1, Option.bind_some, e2], by simpa using h2⟩
    | false =>
      obtain ⟨b1, e1, h1⟩ := FBld.appendChar_holds h 37
      obtain ⟨b2, e2, h2⟩ := FBld.appendHex8_holds h1 (u8 c)
      obtain ⟨b3, e3, h3⟩ := ih h2
      refine ⟨b3, by rw [if_neg (by simp), e1, Option.bind_some, e2, Option.bind_some, e3], ?_⟩
      rw [← hexPair_eq _ (u8_lt c)] at h3
      simpa [hexOf, u8] using h3

theorem hexOf_read (c : Ch) (rest : List Ch) : FConv.hexToUInt32 (hexOf c ++ rest) 2 = some (u8 c, rest) := by
  obtain ⟨_, _, _, h⟩ := FConv.hex_roundtrip_partial 0 (u8 c) (u8_lt c)
  exact h rest

theorem decodeLoop_holds (ok : Ch → Bool) (t post : List Ch) (ht : ∀ c ∈ t, IsChar c) (h37 : ∀ c ∈ t, ok c = true → c ≠ 37) :
    ∀ {b : FBld.Bld} {l} (fuel : Nat), FBld.Holds b l → (escaped ok t).length < fuel →
    ∃ b', decodeLoop fuel b (escaped ok t ++ 0 :: post) = some b' ∧ FBld.Holds b' (l ++ t) := by
  induction t with
  | nil =>
    intro b l fuel h hf
    obtain ⟨f, rfl⟩ : ∃ f, fuel = f + 1 := ⟨fuel - 1, by omega⟩
    exact ⟨b, rfl, by simpa using h⟩
  | cons c t ih =>
    intro b l fuel h hf
    obtain ⟨f, rfl⟩ : ∃ f, fuel = f + 1 := ⟨fuel - 1, by omega⟩
    have hc := ht c (by simp)
    have ih := @ih (fun x hx => ht x (by simp [hx])) (fun x hx => h37 x (by simp [hx]))
    have he : escaped ok (c :: t) = (if ok c then [c] else 37 :: hexOf c) ++ escaped ok t := by simp [escaped]
    rw [he] at hf ⊢
    cases hk : ok c with
    | true =>
      rw [hk] at hf
      simp only [if_true, List.cons_append, List.nil_append, List.length_cons] at hf ⊢
      obtain ⟨b1, e1, h1⟩ := FBld.appendChar_holds h c
      obtain ⟨b2, e2, h2⟩ := ih f h1 (by omega)
      refine ⟨b2, ?_, by simpa using h2⟩
      rw [decodeLoop, if_neg hc.2.2, if_pos (h37 c (by simp) hk), e1, Option.bind_some, e2]
    | false =>
      rw [hk] at hf
      simp only [Bool.false_eq_true, if_false, List.cons_append, List.length_cons, List.length_append] at hf ⊢
      obtain ⟨b1, e1, h1⟩ := FBld.appendChar_holds h (toChar (u8 c))
      obtain ⟨b2, e2, h2⟩ := ih f h1 (by omega)
      refine ⟨b2, ?_, by rw [toChar_u8 c hc] at h2; simpa using h2⟩
      rw [decodeLoop, if_neg (by decide), if_neg (by simp), List.append_assoc, hexOf_read, Option.bind_some, e1, Option.bind_some, e2]

theorem toText_holds {b : FBld.Bld} {l : List Ch} (h : FBld.Holds b l) (h0 : 0 ∉ l) : FBld.toText b = some l := by
  obtain ⟨v', j, e, hb, _⟩ := FBld.toCharPtr_holds h
  unfold FBld.toText
  rw [e, Option.bind_some, hb]
  exact FBld.textAt_of l h0 j

theorem hexOf_ne (c : Ch) : ∀ x ∈ hexOf c, (48 ≤ x ∧ x ≤ 57) ∨ (65 ≤ x ∧ x ≤ 70) := by
  have : ∀ i : Fin 256, ∀ x ∈ FBld.hexPair i.val, (48 ≤ x ∧ x ≤ 57) ∨ (65 ≤ x ∧ x ≤ 70) := by decide +kernel
  exact this ⟨u8 c, u8_lt c⟩

theorem escaped_ne_zero (ok : Ch → Bool) (t : List Ch) (ht : ∀ c ∈ t, IsChar c) : 0 ∉ escaped ok t := by
  intro h
  obtain ⟨c, hc, h⟩ := List.mem_flatMap.1 h
  split at h
  · exact (ht c hc).2.2 (List.mem_singleton.1 h).symm
  · rcases List.mem_cons.1 h with h | h
    · exact absurd h (by decide)
    · rcases hexOf_ne c 0 h with h | h <;> exact absurd h.1 (by decide)

theorem ofReserve_holds (n : Nat) : FBld.Holds (FBld.ofReserve n) [] := by
  simpa [FBld.ofReserve] using FBld.reserve_holds FBld.holds_null n

theorem firstOk_eq (c : Ch) : firstOk c = startChar c := by
  unfold firstOk startChar letter
  cases h1 : decide (c ≥ 97) <;> cases h2 : decide (c ≤ 122) <;> cases h3 : decide (c ≥ 65) <;> cases h4 : decide (c ≤ 90) <;> simp_all

theorem otherOk_eq (dot : Bool) (c : Ch) : otherOk dot c = nameChar dot c := by
  unfold otherOk nameChar letter
  cases h1 : decide (c ≥ 97) <;> cases h2 : decide (c ≤ 122) <;> cases h3 : decide (c ≥ 65) <;> cases h4 : decide (c ≤ 90) <;> simp_all

theorem idLength_eq (n : Nat) (t post : List Ch) (h : 0 ∉ t) : idLength n (t ++ 0 :: post) = some (t.take n).length := by
  induction n generalizing t with
  | zero => simp [idLength]
  | succ n ih =>
    cases t with
    | nil => simp [idLength]
    | cons c t =>
      have hc : c ≠ 0 := by rintro rfl; simp at h
      rw [List.cons_append, idLength, if_neg hc, ih t (fun e => h (by simp [e]))]
      simp

theorem poke_rep {v : FStr.Str} {A B : List (Option Ch)} {o : Option Ch} (h : FVec.Rep true v (A ++ o :: B)) (c : Ch) :
    ∃ v', poke v A.length c = some v' ∧ FVec.Rep true v' (A ++ some c :: B) := by
  obtain ⟨tail, h1, h2, _⟩ := h
  refine ⟨_, if_pos (by rw [h2]; simp), tail, ?_, by rw [h2]; simp, by simp⟩
  show v.buf.set A.length (some c) = _
  rw [h1]
  simp

theorem cleanLoop_rep (dot : Bool) (t post : List Ch) (x : Option Ch) (z : List (Option Ch)) : ∀ (v : FStr.Str) (A : List (Option Ch)),
    FVec.Rep true v (A ++ List.replicate t.length x ++ z) →
    ∃ v', cleanLoop dot A.length t.length (t ++ post) v = some v' ∧
      FVec.Rep true v' (A ++ (t.map fun c => some (if nameChar dot c then c else 95)) ++ z) := by
  induction t with
  | nil => intro v A h; exact ⟨v, by simp [cleanLoop], by simpa using h⟩
  | cons c t ih =>
    intro v A h
    rw [List.length_cons, List.replicate_succ, List.append_assoc, List.cons_append] at h
    obtain ⟨v1, e1, h1⟩ := poke_rep h (if nameChar dot c then c else 95)
    obtain ⟨v2, e2, h2⟩ := ih v1 (A ++ [some (if nameChar dot c then c else 95)]) (by simpa using h1)
    refine ⟨v2, ?_, by simpa using h2⟩
    rw [List.length_append, List.length_singleton] at e2
    rw [List.length_cons, List.cons_append, cleanLoop, otherOk_eq, e1, Option.bind_some, e2]

theorem nameChar_under (dot : Bool) : nameChar dot 95 = true := by cases dot <;> decide

end Verif.FXml
