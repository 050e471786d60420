import Verif.XmlTextAux
import Verif.XmlText
import Verif.ConvProps
import Verif.StrLemmas

/-!
# XML text, file name and identifier properties (C25-C27, C68)
-/

namespace Verif.FXml

open Verif.FStr (Ch)

/-! ## Specification -/

/-! ## Tables -/

/-! ## The loops -/

/-! ## Properties -/

/-- The text written for a content is the specified escaping. -/
theorem content_escaped (t post : List Ch) (ht : ∀ c ∈ t, IsChar c) : addContent (t ++ 0 :: post) = some (escaped contentOk t) := by
  obtain ⟨b, e, h⟩ := escapeLoop_holds xmlTable contentOk t post ht (fun c hc => content_lookup c (ht c hc)) (ofReserve_holds 32)
  rw [addContent, e, Option.bind_some]
  exact toText_holds (by simpa using h) (escaped_ne_zero _ t ht)

/-- **C25, partial.** Content without `%` is read back unchanged. Missing: content with `%`, see `content_violated`. -/
theorem content_roundtrip_partial (t post post' : List Ch) (ht : ∀ c ∈ t, IsChar c) (h37 : 37 ∉ t) :
    ∃ x, addContent (t ++ 0 :: post) = some x ∧ xmlToString (x ++ 0 :: post') = some t := by
  refine ⟨_, content_escaped t post ht, ?_⟩
  obtain ⟨b, e, h⟩ := decodeLoop_holds contentOk t post' ht (fun c hc _ e => h37 (e ▸ hc)) ((escaped contentOk t ++ 0 :: post').length + 1)
    (ofReserve_holds 32) (by simp; omega)
  rw [xmlToString, e, Option.bind_some]
  exact toText_holds (by simpa using h) (fun h0 => (ht 0 h0).2.2 rfl)

/-- "a\"<é>" meets the hypotheses. -/
example : (∀ c ∈ [97, 34, 60, -61, -87, 62], IsChar c) ∧ (37 : Ch) ∉ [97, 34, 60, -61, -87, 62] ∧
    addContent ([97, 34, 60, -61, -87, 62] ++ [0]) = some [97, 37, 50, 50, 37, 51, 67, 37, 67, 51, 37, 65, 57, 37, 51, 69] := by
  unfold IsChar
  decide +kernel

/-- **C25, violated.** `%` counts as a valid character, so it is written as itself and read as an escape: "%41" comes back as "A" and
"100%" loses its last character. -/
theorem content_violated :
    (addContent [37, 52, 49, 0]).bind (fun x => xmlToString (x ++ [0])) = some [65] ∧
    (addContent [49, 48, 48, 37, 0]).bind (fun x => xmlToString (x ++ [0])) = some [49, 48, 48] := by decide +kernel

/-- **C26.** A converted file name is the text with every character other than letters, digits and `- . / : _` written as `%XX`. -/
theorem filename_escaped (t post : List Ch) (ht : ∀ c ∈ t, IsChar c) : convertFilename (t ++ 0 :: post) = some (escaped filenameOk t) := by
  obtain ⟨b, e, h⟩ := escapeLoop_holds filenameTable filenameOk t post ht (fun c hc => filename_lookup c (ht c hc)) (ofReserve_holds 32)
  rw [convertFilename, e, Option.bind_some]
  exact toText_holds (by simpa using h) (escaped_ne_zero _ t ht)

/-- **C26.** Every character of a converted file name is allowed or `%`, and decoding gives back the name. -/
theorem filename_roundtrip (t post post' : List Ch) (ht : ∀ c ∈ t, IsChar c) :
    ∃ x, convertFilename (t ++ 0 :: post) = some x ∧ (∀ c ∈ x, filenameOk c = true ∨ c = 37) ∧ xmlToString (x ++ 0 :: post') = some t := by
  refine ⟨_, filename_escaped t post ht, ?_, ?_⟩
  · intro x hx
    obtain ⟨c, hc, h⟩ := List.mem_flatMap.1 hx
    split at h
    · rename_i hk
      rw [List.mem_singleton.1 h]; exact .inl hk
    · rcases List.mem_cons.1 h with h | h
      · exact .inr h
      · left
        unfold filenameOk
        rcases hexOf_ne c x h with ⟨h1, h2⟩ | ⟨h1, h2⟩
        · simp [h1, h2]
        · have : x ≤ 90 := Int.le_trans h2 (by decide)
          simp [h1, this]
  · obtain ⟨b, e, h⟩ := decodeLoop_holds filenameOk t post' ht (fun c _ hk e => by rw [e] at hk; exact absurd hk (by decide))
      ((escaped filenameOk t ++ 0 :: post').length + 1) (ofReserve_holds 32) (by simp; omega)
    rw [xmlToString, e, Option.bind_some]
    exact toText_holds (by simpa using h) (fun h0 => (ht 0 h0).2.2 rfl)

/-- "my %.dae" -/
example : (∀ c ∈ [109, 121, 32, 37, 46, 100, 97, 101], IsChar c) ∧
    convertFilename ([109, 121, 32, 37, 46, 100, 97, 101] ++ [0]) = some [109, 121, 37, 50, 48, 37, 50, 53, 46, 100, 97, 101] := by
  unfold IsChar
  decide +kernel

/-! ## Identifiers -/

/-- A valid identifier, of at most 512 characters. -/
def ValidId (dot : Bool) : List Ch → Prop
  | [] => True
  | c :: t => startChar c ∧ (∀ x ∈ t, nameChar dot x) ∧ t.length < 512

/-- Cut at 512 characters and put `_` for each wrong character. -/
def cleaned (dot : Bool) (t : List Ch) : List Ch :=
  match t.take 512 with
  | [] => []
  | c :: t => (if startChar c then c else 95) :: t.map fun x => if nameChar dot x then x else 95

/-- **C27.** `CleanId` (with `'.'`) and `CleanSubId` return the cleaned text, for every text, without a wild write. -/
theorem clean_text (dot : Bool) (t post : List Ch) (h : 0 ∉ t) :
    ∃ v, clean dot (t ++ 0 :: post) = some v ∧ FStr.cStr v = some (cleaned dot t ++ [0]) := by
  unfold clean
  rw [idLength_eq 512 t post h, Option.bind_some]
  cases t with
  | nil =>
    obtain ⟨v, e, hv⟩ := FStr.ofRepeat_holds 0 0
    refine ⟨v, ?_, ?_⟩
    · simp only [List.take_nil, List.length_nil, List.nil_append]
      rw [e, Option.bind_some]
      exact if_pos trivial
    · rcases hv with ⟨hb, _⟩ | ⟨_, hv⟩
      · exact absurd hb (by decide)
      · have hc := FStr.cells_eq v [0] (by simpa using hv)
        have hs := FStr.rep_sized hv
        rw [FStr.cStr, if_neg (by rw [hs]; simp), hc]
        rfl
  | cons c t =>
    have hc : c ≠ 0 := by rintro rfl; simp at h
    obtain ⟨v, e, hv⟩ := FStr.ofRepeat_holds ((c :: t).take 512).length c
    rcases hv with ⟨hb, _⟩ | ⟨_, hv⟩
    · exact absurd hb (by decide)
    have hl : ((c :: t).take 512).length = (t.take 511).length + 1 := by simp
    rw [hl, List.replicate_succ] at hv
    obtain ⟨v1, e1, h1⟩ := poke_rep (A := []) (by simpa using hv) (if startChar c then c else 95)
    obtain ⟨v2, e2, h2⟩ := cleanLoop_rep dot (t.take 511) (t.drop 511 ++ 0 :: post) (some c) [some 0] v1 [some (if startChar c then c else 95)]
      (by simpa using h1)
    obtain ⟨v3, e3, h3⟩ := poke_rep (B := []) h2 0
    refine ⟨v3, ?_, ?_⟩
    · simp only [List.cons_append]
      rw [e, Option.bind_some, if_neg hc, firstOk_eq]
      rw [List.length_nil] at e1
      rw [e1, Option.bind_some, hl, Nat.add_sub_cancel]
      rw [← List.append_assoc, List.take_append_drop] at e2
      rw [List.length_singleton] at e2
      rw [e2, Option.bind_some]
      rw [List.length_append, List.length_map, List.length_singleton] at e3
      rw [Nat.add_comm, e3]
    · have hcells := FStr.cells_eq v3 (cleaned dot (c :: t) ++ [0]) (by simpa [cleaned, Function.comp_def] using h3)
      have hs := FStr.rep_sized h3
      rw [FStr.cStr, if_neg (by rw [hs]; simp), hcells]

/-- **C27.** Cleaned identifiers are valid; valid identifiers are left alone, so cleaning is idempotent; the length is kept up to 512. -/
theorem clean_valid (dot : Bool) (t : List Ch) : ValidId dot (cleaned dot t) ∧ (ValidId dot t → cleaned dot t = t) ∧
    cleaned dot (cleaned dot t) = cleaned dot t ∧ (cleaned dot t).length = min t.length 512 := by
  have hv : ∀ t, ValidId dot (cleaned dot t) := by
    intro t
    unfold cleaned
    split
    · trivial
    · rename_i c r e
      refine ⟨?_, ?_, ?_⟩
      · split
        · assumption
        · decide
      · intro x hx
        obtain ⟨y, _, rfl⟩ := List.mem_map.1 hx
        split
        · assumption
        · exact nameChar_under dot
      · have := congrArg List.length e
        rw [List.length_take, List.length_cons] at this
        rw [List.length_map]
        omega
  have hk : ∀ t, ValidId dot t → cleaned dot t = t := by
    intro t h
    cases t with
    | nil => rfl
    | cons c t =>
      obtain ⟨h1, h2, h3⟩ := h
      have : (c :: t).take 512 = c :: t := List.take_of_length_le (by simp; omega)
      unfold cleaned
      rw [this]
      simp only [h1, if_true]
      congr 1
      conv_rhs => rw [← List.map_id t]
      apply List.map_congr_left
      intro x hx
      simp [h2 x hx]
  refine ⟨hv t, hk t, hk _ (hv t), ?_⟩
  unfold cleaned
  split
  · rename_i e
    have := congrArg List.length e
    rw [List.length_take, List.length_nil] at this
    simp; omega
  · rename_i c r e
    have := congrArg List.length e
    rw [List.length_take] at this
    simp at this ⊢
    omega

example : ValidId true [97, 46, 45, 48] ∧ ¬ ValidId false [97, 46] ∧ ¬ ValidId true [48, 97] := by
  refine ⟨⟨by decide, by decide, by decide⟩, ?_, ?_⟩
  · rintro ⟨_, h, _⟩; exact absurd (h 46 (by simp)) (by decide)
  · rintro ⟨h, _⟩; exact absurd h (by decide)

/-- "1a b.c" -/
example : (clean true [49, 97, 32, 98, 46, 99, 0]).bind FStr.cStr = some [95, 97, 95, 98, 46, 99, 0] := by decide +kernel

/-! ## `FUUri::Escape` (C68) -/

/-- **C68, violated.** No text but the empty one survives `Escape` as specified: every character, even a plain letter, gets `%` and its
code in decimal. -/
theorem uri_escape_violated (t : List Ch) (h : t ≠ []) (hp : ∀ c ∈ t, uriPlain c = true) : uriEscape t ≠ t := by
  have hl : ∀ t : List Ch, (∀ c ∈ t, uriPlain c = true) → 2 * t.length ≤ (uriEscape t).length := by
    intro t
    induction t with
    | nil => simp
    | cons c t ih =>
      intro hp
      have := ih (fun x hx => hp x (by simp [hx]))
      rw [uriEscape, if_pos (hp c (by simp))]
      simp only [List.length_append, List.length_cons, List.length_nil]
      omega
  intro e
  have h1 := hl t hp
  rw [e] at h1
  have : t.length ≠ 0 := fun e => h (List.length_eq_zero_iff.1 e)
  omega

example : uriEscape [97] = [97, 37, 57, 55] ∧ uriPlain 97 = true := by decide +kernel

end Verif.FXml
