import Verif.PathLemmas

/-!
# C46: path helpers and the stack of root paths
-/

namespace Verif.FPath

open Verif.FStr (Ch)
open Verif.FUri

/-! ## The parts of a path -/

/-- The full statement for `StripFileFromPath`: a path is its folder, which may be missing, followed by the name of the file; the folder is returned. -/
def StripsFile : Prop := ∀ dir name, (dir = [] ∨ Folder dir) → Plain name → stripFile (dir ++ name) = dir

/-- What holds: folders of 1 to 1024 characters. Missing: a file name alone, which is returned instead of nothing, and longer folders, which are cut. -/
theorem strip_partial (dir name : List Ch) (hd : Folder dir) (hn : Plain name) (hl : dir.length ≤ 1024) : stripFile (dir ++ name) = dir :=
  stripFile_folder hd hn hl

example : Folder (txt "/home/me\\") ∧ Plain (txt "a.dae") ∧ stripFile (txt "/home/me\\a.dae") = txt "/home/me\\" :=
  ⟨⟨txt "/home/me", .inr (by decide +kernel)⟩, by unfold Plain; decide +kernel, by decide +kernel⟩

/-- It fails for every file name without a folder: the name is taken for the folder. -/
theorem strip_name_violated (name : List Ch) (hn : Plain name) (hl : name.length ≤ 1024) : stripFile name = name := by
  rw [stripFile, List.take_of_length_le hl, lastSlash_none hn]

example : ¬ StripsFile := fun h => absurd (h [] (txt "a.dae") (.inl rfl) (by unfold Plain; decide +kernel)) (by decide +kernel)

/-- It fails for folders of more than 1024 characters: the result is a folder above. -/
theorem strip_long_violated : ∃ dir name, Folder dir ∧ Plain name ∧ stripFile (dir ++ name) ≠ dir ∧ stripFile (dir ++ name) = [47] := by
  refine ⟨47 :: List.replicate 1024 97 ++ [47], [98], ⟨_, .inl rfl⟩, by unfold Plain; decide, ?_, ?_⟩ <;> decide +kernel

/-- The full statement for `GetFileExtension`: the text after the last period of the file name in lower case, or nothing without a period. -/
def FindsExtension : Prop :=
  ∀ dir, (dir = [] ∨ Folder dir) →
    (∀ name, Plain name → 46 ∉ name → extension (dir ++ name) = some []) ∧
    (∀ stem ext, Plain (stem ++ ext) → 46 ∉ ext → extension (dir ++ stem ++ 46 :: ext) = some (lower ext))

/-- What holds: paths of at most 1023 characters, and extensions without negative characters below -1. Missing: longer paths, which are cut, and other
characters, for which `tolower` is undefined. -/
theorem extension_partial (dir : List Ch) (hd : dir = [] ∨ Folder dir) :
    (∀ name, Plain name → 46 ∉ name → (dir ++ name).length ≤ 1023 → extension (dir ++ name) = some []) ∧
    (∀ stem ext, Plain (stem ++ ext) → 46 ∉ ext → (dir ++ stem ++ 46 :: ext).length ≤ 1023 → (∀ c ∈ ext, -1 ≤ c) →
      extension (dir ++ stem ++ 46 :: ext) = some (lower ext)) := by
  constructor
  · intro name hn hp hl
    rw [extension, List.take_of_length_le hl, lastIndex_append, lastIndex_none hp]
    simp only
    cases h : lastIndex 46 dir with
    | none => rfl
    | some i =>
      have hi := lastIndex_lt h
      rcases hd with rfl | hd
      · simp at hi
      · simp only [lastSlash_folder hd hn, slashAfter]
        have : i ≠ dir.length - 1 := by
          rintro rfl
          obtain ⟨d, rfl | rfl⟩ := hd
          all_goals
            rw [lastIndex_append] at h
            have e : lastIndex 46 d = some d.length := by simpa [lastIndex] using h
            exact absurd (lastIndex_lt e) (Nat.lt_irrefl _)
        rw [if_pos]
        simp only [decide_eq_true_eq]
        omega
  · intro stem ext hn hp hl hc
    rw [extension, List.take_of_length_le hl, lastIndex_at _ _ _ hp]
    simp only
    have hs : slashAfter (lastSlash (dir ++ stem ++ 46 :: ext)) (dir ++ stem).length = false := by
      have hpl : Plain (stem ++ 46 :: ext) := by
        constructor
        · have := hn.1
          simp only [List.mem_append, List.mem_cons, not_or] at this ⊢
          exact ⟨this.1, by decide, this.2⟩
        · have := hn.2
          simp only [List.mem_append, List.mem_cons, not_or] at this ⊢
          exact ⟨this.1, by decide, this.2⟩
      rw [List.append_assoc]
      rcases hd with rfl | hd
      · rw [List.nil_append, lastSlash_none hpl]
        rfl
      · rw [lastSlash_folder hd hpl]
        simp only [slashAfter, List.length_append, decide_eq_false_iff_not]
        omega
    rw [hs, if_neg (by simp)]
    have hdrop : (dir ++ stem ++ 46 :: ext).drop ((dir ++ stem).length + 1) = ext := by
      rw [← List.drop_drop, List.drop_left]
      rfl
    rw [hdrop, mapM_lower hc]

example : extension (txt "/home/me.x/a.tar.DAE") = some (txt "dae") ∧ extension (txt "/home/me.x/a") = some [] ∧
    extension (txt ".DAE") = some (txt "dae") := by decide +kernel

/-- It fails for longer paths: the extension is cut or missing. -/
theorem extension_long_violated : ∃ stem ext, Plain (stem ++ ext) ∧ 46 ∉ ext ∧ (∀ c ∈ ext, 0 ≤ c) ∧
    extension (stem ++ 46 :: ext) = some [100] ∧ ext = [100, 97, 101] := by
  refine ⟨List.replicate 1021 97, [100, 97, 101], ?_, ?_, ?_, ?_, rfl⟩
  · unfold Plain; decide +kernel
  · decide
  · decide
  · decide +kernel

/-- It fails for an extension with a character outside ASCII, where `tolower` is given a negative value: undefined behaviour. -/
theorem extension_character_violated : extension (txt "a.d" ++ [-61, -92]) = none := by decide +kernel

theorem finds_extension_violated : ¬ FindsExtension := fun h =>
  absurd ((h [] (.inl rfl)).2 (txt "a") ([100, -61, -92]) (by unfold Plain; decide +kernel) (by decide)) (by decide +kernel)

/-- `GetFolderFromPath` is the folder without its last separator. -/
theorem folder_partial (dir name : List Ch) (c : Ch) (hc : c = 47 ∨ c = 92) (hn : Plain name) (hl : dir.length < 1024) :
    folderOf (dir ++ c :: name) = dir := by
  have : stripFile (dir ++ c :: name) = dir ++ [c] := by
    rw [List.append_cons]
    refine stripFile_folder ⟨dir, ?_⟩ hn (by simp; omega)
    rcases hc with rfl | rfl <;> simp
  rw [folderOf, this]
  rcases hc with rfl | rfl <;> simp

example : folderOf (txt "C:/dirname/file.ext") = txt "C:/dirname" := by decide +kernel

/-! ## The stack -/

/-- Every push adds exactly one path above the others, every pop after a push removes it, and the last path stays whatever the history. -/
theorem stack_history (ov : FConv.Ov) (stack : List Uri) (h : stack ≠ []) :
    (∀ p s, pushPath ov stack p = some s → (∃ u, s = stack ++ [u]) ∧ pop s = stack) ∧
    (∀ f s, pushFile ov stack f = some s → (∃ u, s = stack ++ [u]) ∧ pop s = stack) ∧
    (∀ history s, calls ov stack history = some s → s ≠ [] ∧ s.head? = stack.head?) ∧
    (∀ history s, Nested history → calls ov stack history = some s → s = stack) := by
  have pp : ∀ (stack : List Uri) (p : List Ch) (s : List Uri), stack ≠ [] → pushPath ov stack p = some s → (∃ u, s = stack ++ [u]) ∧ pop s = stack := by
    intro stack p s h e
    simp only [pushPath, Option.bind_eq_some_iff, Option.map_eq_some_iff] at e
    obtain ⟨_, _, _, _, u, _, rfl⟩ := e
    refine ⟨⟨u, rfl⟩, ?_⟩
    have := List.length_pos_of_ne_nil h
    rw [pop, if_pos (by simp; omega), List.dropLast_concat]
  have pf : ∀ (stack : List Uri) (p : List Ch) (s : List Uri), stack ≠ [] → pushFile ov stack p = some s → (∃ u, s = stack ++ [u]) ∧ pop s = stack := by
    intro stack p s h e
    simp only [pushFile, Option.bind_eq_some_iff] at e
    obtain ⟨_, _, _, _, e⟩ := e
    exact pp _ _ _ h e
  have one : ∀ (stack : List Uri) (c : Call) (s : List Uri), stack ≠ [] → call ov stack c = some s → s ≠ [] ∧ s.head? = stack.head? := by
    intro stack c s h e
    have grow : (∃ u, s = stack ++ [u]) → s ≠ [] ∧ s.head? = stack.head? := by
      rintro ⟨u, rfl⟩
      refine ⟨by simp, ?_⟩
      obtain ⟨a, l, rfl⟩ := List.exists_cons_of_ne_nil h
      rfl
    cases c with
    | pushPath p => exact grow (pp _ _ _ h e).1
    | pushFile p => exact grow (pf _ _ _ h e).1
    | pop =>
      obtain rfl : FPath.pop stack = s := by simpa [call] using e
      rw [FPath.pop]
      split
      · rename_i hl
        obtain ⟨a, l, rfl⟩ := List.exists_cons_of_ne_nil h
        obtain ⟨b, l, rfl⟩ := List.exists_cons_of_ne_nil (l := l) (by rintro rfl; simp at hl)
        simp
      · exact ⟨h, rfl⟩
  have many : ∀ (history : List Call) (stack s : List Uri), stack ≠ [] → calls ov stack history = some s → s ≠ [] ∧ s.head? = stack.head? := by
    intro history
    induction history with
    | nil =>
      intro stack s h e
      obtain rfl : stack = s := by simpa [calls] using e
      exact ⟨h, rfl⟩
    | cons c rest ih =>
      intro stack s h e
      rw [calls, Option.bind_eq_some_iff] at e
      obtain ⟨s1, e1, e2⟩ := e
      have h1 := one _ _ _ h e1
      have h2 := ih _ _ h1.1 e2
      exact ⟨h2.1, h2.2.trans h1.2⟩
  have app : ∀ (a b : List Call) (stack s : List Uri), calls ov stack (a ++ b) = some s → ∃ m, calls ov stack a = some m ∧ calls ov m b = some s := by
    intro a
    induction a with
    | nil => exact fun b stack s e => ⟨stack, rfl, e⟩
    | cons c a ih =>
      intro b stack s e
      rw [List.cons_append, calls, Option.bind_eq_some_iff] at e
      obtain ⟨s1, e1, e2⟩ := e
      obtain ⟨m, h1, h2⟩ := ih _ _ _ e2
      exact ⟨m, by rw [calls, e1, Option.bind_some, h1], h2⟩
  have nest : ∀ history, Nested history → ∀ stack s, stack ≠ [] → calls ov stack history = some s → s = stack := by
    intro history hn
    induction hn with
    | nil => intro stack s _ e; simpa [calls] using e.symm
    | path p _ _ ih1 ih2 =>
      intro stack s h e
      rw [List.cons_append, calls, Option.bind_eq_some_iff] at e
      obtain ⟨s1, e1, e2⟩ := e
      obtain ⟨⟨u, hu⟩, hpop⟩ := pp _ _ _ h e1
      obtain ⟨m, h1, h2⟩ := app _ _ _ _ e2
      have := ih1 s1 m (by simp [hu]) h1
      subst this
      rw [calls, call, Option.bind_some, hpop] at h2
      exact ih2 _ _ h h2
    | file p _ _ ih1 ih2 =>
      intro stack s h e
      rw [List.cons_append, calls, Option.bind_eq_some_iff] at e
      obtain ⟨s1, e1, e2⟩ := e
      obtain ⟨⟨u, hu⟩, hpop⟩ := pf _ _ _ h e1
      obtain ⟨m, h1, h2⟩ := app _ _ _ _ e2
      have := ih1 s1 m (by simp [hu]) h1
      subst this
      rw [calls, call, Option.bind_some, hpop] at h2
      exact ih2 _ _ h h2
  exact ⟨fun p s => pp _ p s h, fun f s => pf _ f s h, fun hi s => many hi _ s h, fun hi s hn => nest hi hn _ s h⟩

example (ov : FConv.Ov) : Nested [.pushFile (txt "/a/b.dae"), .pushPath (txt "c"), .pop, .pop] ∧
    calls ov [folderUri []] [.pushFile (txt "/a/b.dae"), .pushPath (txt "cc")] =
      some [folderUri [], folderUri [txt "a"], folderUri [txt "a", txt "cc"]] :=
  ⟨.file _ (.path _ .nil .nil) .nil, by cases ov <;> decide +kernel⟩

/-- Pushing a document makes its folder the current path, whether the document is given by an absolute path or relative to the current folder; pushing a
folder makes it the current path. -/
theorem push_current (ov : FConv.Ov) (stack : List Uri) (D F : List (List Ch)) (n : List Ch) (hs : stack ≠ [])
    (hD : ∀ c ∈ D, Name c) (hF : ∀ c ∈ F, Name c) (hn : Name n) (hl : (abs (D ++ F)).length < 1024) (hsz : (down F n).length < 2 ^ 63) :
    pushFile ov stack (abs (D ++ F ++ [n])) = some (stack ++ [folderUri (D ++ F)]) ∧
    (stack.getLast? = some (folderUri D) → pushFile ov stack (down F n) = some (stack ++ [folderUri (D ++ F)])) ∧
    pushPath ov stack (abs D ++ [47]) = some (stack ++ [folderUri D]) ∧
    (D ≠ [] → pushPath ov stack (abs D) = some (stack ++ [folderUri D])) := by
  have hDF : ∀ c ∈ D ++ F, Name c := by
    intro c hc
    rcases List.mem_append.1 hc with hc | hc
    · exact hD c hc
    · exact hF c hc
  have hDFn : ∀ c ∈ D ++ F ++ [n], Name c := by
    intro c hc
    rcases List.mem_append.1 hc with hc | hc
    · exact hDF c hc
    · rw [List.mem_singleton.1 hc]; exact hn
  obtain ⟨cur, hc⟩ := Option.ne_none_iff_exists'.1 (mt List.getLast?_eq_none_iff.1 hs)
  refine ⟨?_, ?_, pushPath_folder ov stack D hs hD, ?_⟩
  · exact pushFile_abs ov stack _ n hs hDFn hl
  · intro e
    rw [pushFile, e, Option.bind_some, down_absolute ov D F n hD hF hn hsz, Option.bind_some, strip_abs _ _ hn hl]
    exact pushPath_folder ov stack _ hs hDF
  · intro hne
    rw [pushPath, hc, Option.bind_some, abs_absolute ov cur _ hD hne, Option.bind_some, endSlash_abs D hD hne, folder_parse ov D hD]
    rfl

example (ov : FConv.Ov) : pushFile ov [folderUri [txt "home"]] (txt "me/a.dae") = some [folderUri [txt "home"], folderUri [txt "home", txt "me"]] := by
  cases ov <;> decide +kernel

/-- File names in a document are found from the folder of the document: after pushing the document, a relative path leads below its folder, and a URI written
by `CleanUri` leads back to the file and element it came from. -/
theorem names_in_document (ov : FConv.Ov) (stack s : List Uri) (C D F : List (List Ch)) (doc fn id : List Ch) (r : Uri) (hs : stack ≠ [])
    (hpush : pushFile ov stack (abs (C ++ D ++ [doc])) = some s) (hl : (abs (C ++ D)).length < 1024)
    (hC : C ≠ []) (hsplit : D = [] ∨ F = [] ∨ D.head? ≠ F.head?)
    (hD : ∀ c ∈ C ++ D ++ [doc], Name c) (hF : ∀ c ∈ F ++ [fn], Name c) (hid : id ≠ []) (hid' : Free [58, 63, 92] id)
    (hr : parse ov (abs (C ++ F ++ [fn]) ++ 35 :: id) = some r) (hsz : (rel D.length F fn ++ 35 :: id).length < 2 ^ 63)
    (hsz' : (down F fn).length < 2 ^ 63) :
    ∃ cur, s.getLast? = some cur ∧ makeAbsolute ov cur (down F fn) = some (abs (C ++ D ++ F ++ [fn])) ∧
      ∃ t, cleanUri ov s false r = some t ∧ (parse ov t).bind (makeAbsUri cur) = some r := by
  have hCD : ∀ c ∈ C ++ D, Name c := fun c hc => hD c (List.mem_append.2 (.inl hc))
  have hpush' := pushFile_abs ov stack (C ++ D) doc hs hD hl
  rw [hpush'] at hpush
  obtain rfl := Option.some.inj hpush
  have hsame := folder_same (C ++ D) doc hD
  have hdoc := (file_path_parse ov _ (abs_head (C ++ D ++ [doc]) (by simp)) (abs_free _ hD)).1
  obtain ⟨h1, h2, _, _⟩ := relative_uri_fragment ov C D F doc fn id _ r hC hsplit hD hF hid hid' hdoc hr hsz
  have hsch : r.scheme = .file := by
    have hCF : ∀ c ∈ C ++ F ++ [fn], Name c := by
      intro c hc
      rw [List.append_assoc] at hc
      rcases List.mem_append.1 hc with hc | hc
      · exact hD c (by simp [hc])
      · exact hF c hc
    rw [(file_path_parse ov _ (abs_head (C ++ F ++ [fn]) (by simp)) (abs_free _ hCF)).2 id (fun c hc => hid' c (by
      simp only [List.mem_cons, List.not_mem_nil, or_false] at hc ⊢; tauto))] at hr
    rw [← Option.some.inj hr]
  refine ⟨folderUri (C ++ D), by simp, ?_, rel D.length F fn ++ 35 :: id, ?_, ?_⟩
  · exact down_absolute ov (C ++ D) F fn hCD (fun c hc => hF c (by simp [hc])) (hF fn (by simp)) hsz'
  · rw [cleanUri, if_neg (by rw [hsch]; decide), if_neg (by simp), List.getLast?_concat, Option.bind_some, ← h1]
    simp only [relativeUri, hsame.makeRelative]
  · rw [← h2]
    exact congrArg _ (funext fun u => hsame.makeAbsUri u)

example (ov : FConv.Ov) : (pushFile ov [folderUri []] (txt "/home/me/a.dae")).bind (fun s =>
    (parse ov (txt "/home/images/b.png#x")).bind fun r => cleanUri ov s false r) = some (txt "../images/b.png#x") := by
  cases ov <;> decide +kernel

end Verif.FPath
