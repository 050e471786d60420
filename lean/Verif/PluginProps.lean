import Verif.PluginSpec
import Verif.PathProps
import Verif.UriProps

/-!
# C181: a file goes to the archive for its extension, and objects of plug-ins survive saving

Wanted: a file is loaded and saved by the first archive that supports its extension, in any case of letters; extra extensions form a set that calls change as they report; a document with objects of plug-ins in its extra trees is the
same after saving, and after saving and loading.
-/

namespace Verif.FPlugin

open Verif.FEff (Text text)
open Verif.FStr (Ch)

theorem sameI_iff (a b : Text) : sameI a b = true ↔ SameLetters a b := by
  unfold sameI
  rw [decide_eq_true_iff]
  exact Iff.rfl

theorem supports_iff (es : List Text) (e : Text) : es.any (sameI e) = true ↔ Supports es e := by
  rw [List.any_eq_true]
  unfold Supports
  exact exists_congr fun x => and_congr_right fun _ => sameI_iff e x

/-- **C181.** The archive found for an extension is the first that supports it, in any case of letters; without one none is found. -/
theorem archive_for_extension (archives : List (List Text)) (e : Text) : match findByExt archives e with
    | some i => (∃ es, archives[i]? = some es ∧ Supports es e) ∧ ∀ j < i, ∀ es, archives[j]? = some es → ¬ Supports es e
    | none => ∀ es ∈ archives, ¬ Supports es e := by
  unfold findByExt
  cases h : archives.findIdx? fun es => es.any (sameI e) with
  | none =>
    intro es hes hs
    have := List.findIdx?_eq_none_iff.1 h es hes
    rw [(supports_iff es e).2 hs] at this
    cases this
  | some i =>
    obtain ⟨hi, h1, h2⟩ := List.findIdx?_eq_some_iff_getElem.1 h
    refine ⟨⟨archives[i], List.getElem?_eq_getElem hi, (supports_iff _ _).1 h1⟩, fun j hj es hes hs => ?_⟩
    have hj' : j < archives.length := by omega
    rw [List.getElem?_eq_getElem hj'] at hes
    cases hes
    exact h2 j hj ((supports_iff _ _).2 hs)

theorem low_low (c : Ch) : low (low c) = low c := by
  unfold low
  by_cases h : (65 : Int) ≤ c ∧ (c : Int) ≤ 90
  · rw [if_pos h]
    refine if_neg fun h2 => ?_
    have h1 : (65 : Int) ≤ c := h.1
    have h3 : (c : Int) + 32 ≤ 90 := h2.2
    exact absurd h3 (by have := Int.add_le_add_right h1 32; intro h4; exact absurd (Int.le_trans this h4) (by decide))
  · rw [if_neg h, if_neg h]

theorem supports_lower (es : List Text) (e : Text) : Supports es (FPath.lower e) ↔ Supports es e := by
  unfold Supports
  refine exists_congr fun x => and_congr_right fun _ => ?_
  have : SameLetters (FPath.lower e) x ↔ (e.map low).map low = x.map low := Iff.rfl
  rw [this, List.map_map, show low ∘ low = low from funext low_low]
  exact Iff.rfl

/-- **C181, partial.** The archive for a file with an absolute path is the first that supports what follows the last period of its name. Missing: paths with `#`, `:` or a backslash, of more than 1023 characters or with other
characters in the extension (`archive_hash_violated`, C46). -/
theorem archive_for_file_partial (ov : FConv.Ov) (archives : List (List Text)) (dir stem ext : Text) (hd : FPath.Folder dir) (h0 : dir.head? = some 47) (hf : FUri.Free [35, 58, 92] (dir ++ stem ++ 46 :: ext))
    (hp : FPath.Plain (stem ++ ext)) (he : (46 : Int) ∉ ext) (hl : (dir ++ stem ++ 46 :: ext).length ≤ 1023) (hc : ∀ c ∈ ext, -1 ≤ c) : ∃ r, findArchive ov archives (dir ++ stem ++ 46 :: ext) = some r ∧ match r with
      | some i => (∃ es, archives[i]? = some es ∧ Supports es ext) ∧ ∀ j < i, ∀ es, archives[j]? = some es → ¬ Supports es ext
      | none => ∀ es ∈ archives, ¬ Supports es ext := by
  have hh : (dir ++ stem ++ 46 :: ext).head? = some 47 := by
    cases dir with
    | nil => cases h0
    | cons c d => exact h0
  refine ⟨findByExt archives (FPath.lower ext), ?_, ?_⟩
  · unfold findArchive
    rw [(FUri.file_path_parse ov _ hh hf).1, Option.bind_some, (FPath.extension_partial dir (.inr hd)).2 stem ext hp he hl hc, Option.map_some]
  · have := archive_for_extension archives (FPath.lower ext)
    simp only [supports_lower] at this
    exact this

example : findArchive .wrap [[text "3ds"], [text "dae", text "xml"]] (text "/home/a/Duck.DAE") = some (some 1) := by decide +kernel

/-! ## Extra extensions -/

theorem extAt_nat (extra : List Text) (i : Nat) : extAt extra i = some ((builtin ++ extra)[i]?) := by
  unfold extAt
  rw [if_neg (by omega)]
  split
  · rw [List.getElem?_append_left (by show i < 2; omega)]
    rfl
  · rw [List.getElem?_append_right (by show 2 ≤ i; omega), show ((i : Int) - 2).toNat = i - 2 by omega]
    rfl

theorem supportedFrom_eq (extra : List Text) (e : Text) : ∀ (n i : Nat), i + n = (builtin ++ extra).length → supportedFrom extra e i n = some (decide (e ∈ (builtin ++ extra).drop i))
  | 0, i, h => by
    rw [List.drop_eq_nil_of_le (by omega)]
    rfl
  | n + 1, i, h => by
    have hi : i < (builtin ++ extra).length := by omega
    unfold supportedFrom
    rw [extAt_nat, Option.bind_some, List.getElem?_eq_getElem hi, supportedFrom_eq extra e n (i + 1) (by omega)]
    have hd := List.drop_eq_getElem_cons hi
    by_cases hx : (builtin ++ extra)[i] = e
    · rw [if_pos (by rw [hx])]
      rw [decide_eq_true (by rw [hd, hx]; exact List.mem_cons_self)]
    · rw [if_neg (by simpa using hx), hd]
      congr 1
      refine decide_eq_decide.2 ?_
      rw [List.mem_cons]
      exact ⟨.inr, fun h => h.resolve_left (Ne.symm hx)⟩

/-- **C181.** An extension is supported exactly if it is one of the two of the format or has been added; the case of letters counts. -/
theorem extension_supported (extra : List Text) (e : Text) : isSupported extra e = some (decide (e = text "dae" ∨ e = text "xml" ∨ e ∈ extra)) := by
  unfold isSupported
  rw [supportedFrom_eq extra e _ 0 (by unfold extCount; rw [List.length_append, show builtin.length = 2 from rfl]; omega), List.drop_zero]
  congr 1
  simp [builtin]

/-- **C181.** The extension with a number: those of the format come first, then the extra ones in order, then none. -/
theorem extension_numbered (extra : List Text) (i : Nat) : extAt extra i = some (([text "dae", text "xml"] ++ extra)[i]?) := extAt_nat extra i

/-- **C181.** Adding an extension reports whether it was new, and afterwards it is supported, as is all that was. -/
theorem extension_added (extra : List Text) (e : Text) : ∃ l b, addExt extra e = some (l, b) ∧ (b = true ↔ ¬ (e = text "dae" ∨ e = text "xml" ∨ e ∈ extra)) ∧ isSupported l e = some true ∧
    ∀ x, x ≠ e → isSupported l x = isSupported extra x := by
  unfold addExt
  rw [extension_supported, Option.map_some]
  by_cases h : e = text "dae" ∨ e = text "xml" ∨ e ∈ extra
  · rw [decide_eq_true h]
    refine ⟨extra, false, rfl, by simp [h], by rw [extension_supported, decide_eq_true h], fun _ _ => rfl⟩
  · rw [decide_eq_false h]
    refine ⟨extra ++ [e], true, rfl, by simp [h], by rw [extension_supported]; simp, fun x hx => ?_⟩
    rw [extension_supported, extension_supported]
    simp [hx]

theorem remove_mem : ∀ (l : List Text) (e x : Text), l.Nodup → (x ∈ (removeExt l e).1 ↔ x ∈ l ∧ x ≠ e)
  | [], e, x, _ => by simp [removeExt]
  | y :: l, e, x, h => by
    obtain ⟨h1, h2⟩ := List.nodup_cons.1 h
    unfold removeExt
    by_cases hy : y = e
    · subst hy
      rw [if_pos rfl]
      simp only [List.mem_cons]
      constructor
      · intro hx
        exact ⟨.inr hx, fun e => h1 (e ▸ hx)⟩
      · rintro ⟨rfl | hx, hne⟩
        · exact absurd rfl hne
        · exact hx
    · rw [if_neg hy]
      simp only [List.mem_cons, remove_mem l e x h2]
      constructor
      · rintro (rfl | ⟨a, b⟩)
        · exact ⟨.inl rfl, hy⟩
        · exact ⟨.inr a, b⟩
      · rintro ⟨rfl | a, b⟩
        · exact .inl rfl
        · exact .inr ⟨a, b⟩

theorem remove_flag : ∀ (l : List Text) (e : Text), (removeExt l e).2 = true ↔ e ∈ l
  | [], e => by simp [removeExt]
  | y :: l, e => by
    unfold removeExt
    by_cases hy : y = e
    · rw [if_pos hy]; simp [hy]
    · rw [if_neg hy, List.mem_cons]
      simp only [remove_flag l e]
      exact ⟨.inr, fun h => h.resolve_left fun x => hy x.symm⟩

theorem remove_sublist : ∀ (l : List Text) (e : Text), ((removeExt l e).1).Sublist l
  | [], e => List.Sublist.refl _
  | y :: l, e => by
    unfold removeExt
    split
    · exact List.sublist_cons_self ..
    · exact (remove_sublist l e).cons_cons y

/-- **C181.** After any calls no extension is there twice, and none of the format's is among the extra ones. -/
theorem extensions_differ (l : List Text) (h : Reach l) : (builtin ++ l).Nodup := by
  induction h with
  | start => decide +kernel
  | @add l l' e b _ h ih =>
    unfold addExt at h
    rw [extension_supported, Option.map_some] at h
    by_cases hs : e = text "dae" ∨ e = text "xml" ∨ e ∈ l
    · rw [decide_eq_true hs] at h
      cases h
      exact ih
    · rw [decide_eq_false hs] at h
      cases h
      rw [← List.append_assoc]
      refine List.nodup_append.2 ⟨ih, List.nodup_cons.2 ⟨List.not_mem_nil, List.nodup_nil⟩, ?_⟩
      intro x hx y hy hxy
      rw [hxy, List.mem_singleton.1 hy] at hx
      apply hs
      simpa [builtin, or_assoc] using hx
  | @remove l e _ ih => exact ih.sublist ((remove_sublist l e).append_left builtin)

/-- **C181.** Removing an extension reports whether it had been added, and afterwards it is not supported, unless it is one of the format; all else stays. -/
theorem extension_removed (l : List Text) (h : Reach l) (e : Text) : ((removeExt l e).2 = true ↔ e ∈ l) ∧ isSupported (removeExt l e).1 e = some (decide (e = text "dae" ∨ e = text "xml")) ∧
    ∀ x, x ≠ e → isSupported (removeExt l e).1 x = isSupported l x := by
  have hn := (List.nodup_append.1 (extensions_differ l h)).2.1
  refine ⟨remove_flag l e, ?_, fun x hx => ?_⟩
  · rw [extension_supported]
    simp [remove_mem l e e hn]
  · rw [extension_supported, extension_supported]
    simp [remove_mem l e x hn, hx]

example : ∃ l, Reach l ∧ l = [text "fxml"] := ⟨_, .add (b := true) (.remove (e := text "zip") (.add (b := true) .start (show addExt [] (text "zip") = some ([text "zip"], true) by decide +kernel)))
  (show addExt [] (text "fxml") = some ([text "fxml"], true) by decide +kernel), rfl⟩

/-! ## Objects of plug-ins -/

variable {N O : Type}

/-- **C181, partial.** A document whose techniques are as after loading is the same after saving, and after saving and loading, if the plug-ins read back what they write. Missing: techniques with an object and nodes
(`plug_nodes_violated`), objects for which no plug-in is registered (`plug_missing_violated`). -/
theorem plug_save_load_partial (ps : List (Plug N O)) (ts : List (Tech N O)) (h : ∀ t ∈ ts, Settled ps t) : (saveTechs ps ts).2 = ts ∧ loadTechs ps (saveTechs ps ts).1 = ts := by
  have one : ∀ t ∈ ts, cleanTech (writeTech ps t) = t ∧ readTech ps ⟨(writeTech ps t).1.profile, (writeTech ps t).1.nodes, none⟩ = t := by
    intro t ht
    have hs := h t ht
    obtain ⟨pr, ns, ob⟩ := t
    cases ob with
    | none =>
      unfold Settled at hs
      simp only at hs
      unfold writeTech cleanTech readTech
      refine ⟨rfl, ?_⟩
      simp only
      cases hp : plugFor ps pr with
      | none => rfl
      | some p => simp only [hs p hp]
    | some o =>
      unfold Settled at hs
      simp only at hs
      obtain ⟨rfl, p, hp, hr⟩ := hs
      unfold writeTech cleanTech readTech
      simp only [hp, hr, if_true, and_self]
  unfold saveTechs loadTechs
  constructor
  · exact (List.map_congr_left fun t ht => (one t ht).1).trans (List.map_id _)
  · rw [List.map_map]
    exact (List.map_congr_left fun t ht => (one t ht).2).trans (List.map_id _)

/-- A plug-in for numbers. -/
def samplePlug : Plug Nat Nat := ⟨text "NUM", fun ns => match ns with | [n] => some n | _ => none, fun o ns => ns ++ [o]⟩

example : ∀ t ∈ [(⟨text "NUM", [], some 5⟩ : Tech Nat Nat), ⟨text "NUM", [1, 2], none⟩, ⟨text "MAX3D", [4], none⟩], Settled [samplePlug] t := by
  have h1 : plugFor [samplePlug] (text "NUM") = some samplePlug := List.find?_cons_of_pos (by decide +kernel)
  have h2 : plugFor [samplePlug] (text "MAX3D") = none := by
    show List.find? _ [samplePlug] = none
    rw [List.find?_cons_of_neg (by decide +kernel), List.find?_nil]
  intro t ht
  rcases List.mem_cons.1 ht with rfl | ht
  · exact ⟨rfl, samplePlug, h1, rfl⟩
  · rcases List.mem_cons.1 ht with rfl | ht
    · intro p hp
      rw [h1] at hp
      cases hp
      rfl
    · rw [List.mem_singleton.1 ht]
      intro p hp
      rw [h2] at hp
      cases hp

/-- **C181.** A plug-in without a profile is refused and nothing changes. -/
theorem plug_unnamed (ps : List (Plug N O)) (p : Plug N O) (h : p.profile = []) : registerPlug ps p = (ps, false) := if_pos h

/-- **C181.** Of several plug-ins for a profile the one registered last is used. -/
theorem plug_last (ps : List (Plug N O)) (p : Plug N O) (h : p.profile ≠ []) : registerPlug ps p = (ps ++ [p], true) ∧ plugFor (ps ++ [p]) p.profile = some p := by
  refine ⟨if_neg h, ?_⟩
  unfold plugFor
  rw [List.reverse_append]
  exact List.find?_cons_of_pos (by simp)

/-! ## What does not hold -/

/-- **C181, violated.** A file whose name has a `#` is cut there, and no archive is found for it. -/
theorem archive_hash_violated (ov : FConv.Ov) : findArchive ov [builtin] (text "/a/b#1.dae") = some none := by cases ov <;> decide +kernel

/-- **C181, violated.** Files are matched in any case of letters but extensions are added and removed by exact case: one that is supported is added again, and it is still there after it has been removed in another case. -/
theorem extension_case_violated : findByExt [builtin] (text "DAE") = some 0 ∧ addExt [] (text "DAE") = some ([text "DAE"], true) ∧ removeExt [text "ZAE"] (text "zae") = ([text "ZAE"], false) ∧
    findByExt [builtin ++ [text "ZAE"]] (text "zae") = some 0 := by decide +kernel

/-- **C181, violated.** A negative number is undefined behaviour. -/
theorem extension_number_violated (extra : List Text) (i : Int) (h : i < 0) : extAt extra i = none := if_pos h

/-- **C181, violated.** The nodes of a technique that has an object are lost when the document is saved: they are released afterwards. -/
theorem plug_nodes_violated (ps : List (Plug N O)) (t : Tech N O) (o : O) (p : Plug N O) (h : t.obj = some o) (hp : plugFor ps t.profile = some p) : (saveTechs ps [t]).2 = [⟨t.profile, [], some o⟩] := by
  show [cleanTech (writeTech ps t)] = _
  unfold writeTech
  rw [h, hp]
  rfl

/-- **C181, violated.** An object for which there is no plug-in is not saved. -/
theorem plug_missing_violated (ps : List (Plug N O)) (t : Tech N O) (hp : plugFor ps t.profile = none) : loadTechs ps (saveTechs ps [t]).1 = [⟨t.profile, t.nodes, none⟩] := by
  show [readTech ps ⟨(writeTech ps t).1.profile, (writeTech ps t).1.nodes, none⟩] = _
  have : writeTech ps t = (t, false) := by
    unfold writeTech
    rw [hp]
    cases t.obj <;> rfl
  rw [this]
  unfold readTech
  rw [hp]

/-- **C181, violated.** Plug-ins are found by a hash of 32 bits of the profile: one is given the techniques of another profile with the same hash. -/
theorem plug_hash_violated (p : Plug N O) (h : p.profile = text "plumless") : plugFor [p] (text "buckeroo") = some p := by
  unfold plugFor
  refine List.find?_cons_of_pos ?_
  rw [h]
  decide +kernel

end Verif.FPlugin
