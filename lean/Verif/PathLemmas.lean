import Verif.PathSpec

/-!
# Lemmas for the path helpers
-/

namespace Verif.FPath

open Verif.FStr (Ch)
open Verif.FUri

theorem lastIndex_none {c : Ch} {t : List Ch} (h : c ∉ t) : lastIndex c t = none := by
  induction t with
  | nil => rfl
  | cons x t ih =>
    simp only [List.mem_cons, not_or] at h
    simp [lastIndex, ih h.2, Ne.symm h.1]

theorem lastIndex_append (c : Ch) (a b : List Ch) :
    lastIndex c (a ++ b) = match lastIndex c b with
      | some i => some (a.length + i)
      | none => lastIndex c a := by
  induction a with
  | nil => cases h : lastIndex c b <;> simp [lastIndex, h]
  | cons x a ih =>
    simp only [List.cons_append, lastIndex, ih]
    cases h : lastIndex c b
    · simp
    · simp
      omega

theorem lastIndex_at (c : Ch) (a b : List Ch) (h : c ∉ b) : lastIndex c (a ++ c :: b) = some a.length := by
  rw [lastIndex_append]
  simp [lastIndex, lastIndex_none h]

theorem lastIndex_lt {c : Ch} {t : List Ch} {i : Nat} (h : lastIndex c t = some i) : i < t.length := by
  induction t generalizing i with
  | nil => simp [lastIndex] at h
  | cons x t ih =>
    rw [lastIndex] at h
    cases h' : lastIndex c t with
    | none =>
      rw [h'] at h
      by_cases hx : x = c
      · simp only [hx, if_true, Option.some.injEq] at h
        simp [← h]
      · simp [hx] at h
    | some j =>
      rw [h'] at h
      have := ih h'
      simp only [Option.some.injEq] at h
      simp only [List.length_cons]
      omega

theorem lastSlash_none {t : List Ch} (h : Plain t) : lastSlash t = none := by
  simp [lastSlash, lastIndex_none h.1, lastIndex_none h.2, later]

theorem lastSlash_folder {dir name : List Ch} (hd : Folder dir) (hn : Plain name) : lastSlash (dir ++ name) = some (dir.length - 1) := by
  obtain ⟨d, rfl | rfl⟩ := hd
  · have h1 : lastIndex 47 (d ++ [47] ++ name) = some d.length := by
      rw [List.append_assoc]
      exact lastIndex_at 47 d name hn.1
    have h2 : lastIndex 92 (d ++ [47] ++ name) = lastIndex 92 d := by
      rw [List.append_assoc, lastIndex_append, lastIndex_none]
      simp [hn.2]
    rw [lastSlash, h1, h2]
    cases h3 : lastIndex 92 d with
    | none => simp [later]
    | some i =>
      have := lastIndex_lt h3
      simp only [later, List.length_append, List.length_singleton, Nat.add_sub_cancel, Option.some.injEq]
      omega
  · have h1 : lastIndex 92 (d ++ [92] ++ name) = some d.length := by
      rw [List.append_assoc]
      exact lastIndex_at 92 d name hn.2
    have h2 : lastIndex 47 (d ++ [92] ++ name) = lastIndex 47 d := by
      rw [List.append_assoc, lastIndex_append, lastIndex_none]
      simp [hn.1]
    rw [lastSlash, h1, h2]
    cases h3 : lastIndex 47 d with
    | none => simp [later]
    | some i =>
      have := lastIndex_lt h3
      simp only [later, List.length_append, List.length_singleton, Nat.add_sub_cancel, Option.some.injEq]
      omega

theorem Folder.pos {dir : List Ch} (h : Folder dir) : 0 < dir.length := by
  obtain ⟨d, rfl | rfl⟩ := h <;> simp

theorem Plain.take {t : List Ch} (h : Plain t) (n : Nat) : Plain (t.take n) :=
  ⟨fun e => h.1 (List.mem_of_mem_take e), fun e => h.2 (List.mem_of_mem_take e)⟩

theorem stripFile_folder {dir name : List Ch} (hd : Folder dir) (hn : Plain name) (hl : dir.length ≤ 1024) : stripFile (dir ++ name) = dir := by
  have h := lastSlash_folder hd (hn.take (1024 - dir.length))
  have e : (dir ++ name).take 1024 = dir ++ name.take (1024 - dir.length) := by
    rw [List.take_append, List.take_of_length_le hl]
  have := hd.pos
  rw [stripFile, e, h]
  simp only
  rw [Nat.sub_add_cancel this, List.take_left']
  rfl

theorem mapM_lower {t : List Ch} (h : ∀ c ∈ t, -1 ≤ c) : t.mapM toLower = some (lower t) := by
  induction t with
  | nil => rfl
  | cons c t ih =>
    have hc := h c (by simp)
    have h1 : toLower c = some (if 65 ≤ c ∧ c ≤ 90 then c + 32 else c) := by
      rw [toLower, if_neg (Int.not_lt.2 hc)]
      split <;> rfl
    rw [List.mapM_cons, h1, ih fun x hx => h x (by simp [hx])]
    rfl

/-! ## Folders of URIs -/

theorem stack_end (incl : Bool) : ∀ (L : List (List Ch)) (fuel : Nat), (∀ c ∈ L, Comp c) → (folders L).length < fuel →
    stackLoop incl fuel (folders L) = some L := by
  intro L
  induction L with
  | nil =>
    intro fuel _ hf
    obtain ⟨f, rfl⟩ : ∃ f, fuel = f + 1 := ⟨fuel - 1, by omega⟩
    simp [folders, stackLoop]
  | cons c L ih =>
    intro fuel hL hf
    obtain ⟨f, rfl⟩ : ∃ f, fuel = f + 1 := ⟨fuel - 1, by omega⟩
    have hc := hL c (by simp)
    have e : folders (c :: L) = c ++ 47 :: folders L := by simp [folders]
    rw [e] at hf ⊢
    have hlen : c.length ≠ 0 := fun h => hc.1 (List.length_eq_zero_iff.1 h)
    obtain ⟨m, hm⟩ : ∃ m, c.length = m + 1 := ⟨c.length - 1, by omega⟩
    have hd : (c ++ 47 :: folders L).drop (c.length + 1) = folders L := by
      rw [← List.drop_drop, List.drop_left]; rfl
    rw [List.length_append, List.length_cons] at hf
    have := ih f (fun x hx => hL x (by simp [hx])) (by omega)
    have hne : c ++ 47 :: folders L ≠ [] := by simp
    simp only [stackLoop, if_neg hne, find_at0 _ _ _ hc.2]
    rw [hm] at hd ⊢
    simp only [hd, this, Option.map_some]
    rw [← hm, List.take_left]

theorem abs_end (L : List (List Ch)) : abs L ++ [47] = 47 :: folders L := by
  induction L with
  | nil => rfl
  | cons c L ih =>
    have : abs (c :: L) = 47 :: (c ++ abs L) := by simp [abs]
    rw [this, List.cons_append, List.append_assoc, ih]
    simp [folders]

theorem folder_stack (incl : Bool) (L : List (List Ch)) (h : ∀ c ∈ L, Name c) : pathStack (abs L ++ [47]) incl = some L := by
  have h92 : 92 ∉ abs L ++ [47] := by
    simp only [List.mem_append, List.mem_singleton, not_or]
    exact ⟨abs_free L h 92 (by decide), by decide⟩
  rw [pathStack, slashes_eq _ h92, abs_end, stackLoop, if_neg (by simp)]
  have hf : find 47 (47 :: folders L) 0 = some 0 := find_at0 47 [] _ (by simp)
  simp only [hf, List.drop_succ_cons, List.drop_zero, List.length_cons]
  exact stack_end incl L _ (fun c hc => (h c hc).comp) (Nat.lt_succ_self _)

theorem folder_free (L : List (List Ch)) (h : ∀ c ∈ L, Name c) : Free [35, 58, 92] (abs L ++ [47]) := by
  intro x hx hm
  rcases List.mem_append.1 hm with hm | hm
  · exact abs_free L h x hx hm
  · rw [List.mem_singleton.1 hm] at hx
    exact absurd hx (by decide)

theorem folder_head (L : List (List Ch)) : (abs L ++ [47]).head? = some 47 := by
  rw [abs_end]
  rfl

theorem folder_parse (ov : FConv.Ov) (L : List (List Ch)) (h : ∀ c ∈ L, Name c) : parse ov (abs L ++ [47]) = some (folderUri L) :=
  (file_path_parse ov _ (folder_head L) (folder_free L h)).1

theorem folder_absolute (ov : FConv.Ov) (b : Uri) (L : List (List Ch)) (h : ∀ c ∈ L, Name c) :
    makeAbsolute ov b (abs L ++ [47]) = some (abs L ++ [47]) := by
  rw [makeAbsolute, if_neg (by simp), folder_parse ov L h, Option.bind_some, makeAbsUri, if_pos (by simp [folderUri])]
  rfl

theorem endSlash_folder (L : List (List Ch)) : endSlash (abs L ++ [47]) = abs L ++ [47] := by
  rw [endSlash, if_neg]
  simp

theorem endSlash_abs (L : List (List Ch)) (h : ∀ c ∈ L, Name c) (hne : L ≠ []) : endSlash (abs L) = abs L ++ [47] := by
  obtain ⟨L', n, rfl⟩ : ∃ L' n, L = L' ++ [n] := ⟨L.dropLast, L.getLast hne, (List.dropLast_append_getLast hne).symm⟩
  have hn := h n (by simp)
  have hl : (abs (L' ++ [n])).getLast? = n.getLast? := by
    rw [abs_append]
    have : abs [n] = [47] ++ n := by simp [abs]
    rw [this, ← List.append_assoc, List.getLast?_append_of_ne_nil _ hn.1]
  rw [endSlash, if_pos]
  refine ⟨by simp [abs], ?_, ?_⟩
  · rw [hl]
    exact fun e => hn.2.1 92 (by decide) (List.mem_of_getLast? e)
  · rw [hl]
    exact fun e => hn.2.1 47 (by decide) (List.mem_of_getLast? e)

theorem abs_name (L : List (List Ch)) (n : List Ch) : abs (L ++ [n]) = (abs L ++ [47]) ++ n := by
  rw [abs_append]
  simp [abs]

theorem name_plain {n : List Ch} (h : Name n) : Plain n := ⟨h.2.1 47 (by decide), h.2.1 92 (by decide)⟩

theorem strip_abs (L : List (List Ch)) (n : List Ch) (hn : Name n) (hl : (abs L).length < 1024) : stripFile (abs (L ++ [n])) = abs L ++ [47] := by
  rw [abs_name]
  exact stripFile_folder ⟨_, .inl rfl⟩ (name_plain hn) (by simp; omega)

theorem down_eq (F : List (List Ch)) (n : List Ch) : down F n = folders F ++ n := by rw [down, folders_flat]

theorem down_free (F : List (List Ch)) (n : List Ch) (hF : ∀ c ∈ F, Name c) (hn : Name n) : Free [35, 58, 63, 92, 124] (down F n) := by
  rw [down_eq]
  intro x hx hm
  have hx47 : x ≠ 47 := by rintro rfl; revert hx; decide
  have hx' : x ∈ ([35, 47, 58, 63, 92, 124] : List Ch) := by
    simp only [List.mem_cons, List.not_mem_nil, or_false] at hx ⊢
    tauto
  rcases List.mem_append.1 hm with hm | hm
  · rcases mem_folders hm with e | ⟨c, hc, e⟩
    · exact hx47 e
    · exact (hF c hc).2.1 x hx' e
  · exact hn.2.1 x hx' hm

theorem down_head (F : List (List Ch)) (n : List Ch) (hF : ∀ c ∈ F, Name c) (hn : Name n) : (down F n).head? ≠ some 47 := by
  rw [down_eq]
  cases F with
  | nil =>
    intro e
    exact hn.2.1 47 (by decide) (List.mem_of_head? e)
  | cons c F =>
    obtain ⟨x, c', rfl⟩ := List.exists_cons_of_ne_nil (hF c (by simp)).1
    intro e
    have : x = 47 := by simpa [folders] using e
    exact (hF (x :: c') (by simp)).2.1 47 (by decide) (by simp [this])

/-- A relative path resolves below the folder. -/
theorem down_absolute (ov : FConv.Ov) (D F : List (List Ch)) (n : List Ch) (hD : ∀ c ∈ D, Name c) (hF : ∀ c ∈ F, Name c) (hn : Name n)
    (hsz : (down F n).length < 2 ^ 63) : makeAbsolute ov (folderUri D) (down F n) = some (abs (D ++ F ++ [n])) := by
  have hfree := down_free F n hF hn
  have hhead := down_head F n hF hn
  have hne : down F n ≠ [] := by rw [down_eq]; simp [hn.1]
  have hlast : (down F n).getLast? ≠ some 47 := by rw [down_eq]; exact getLast_name _ _ hn
  have hwalk : walk D (F ++ [n]) = D ++ F ++ [n] := by
    rw [walk_names, List.append_assoc]
    intro c hc
    rcases List.mem_append.1 hc with hc | hc
    · exact (hF c hc).2.2
    · rw [List.mem_singleton.1 hc]; exact hn.2.2
  have hdoc : pathStack (folderUri D).path false = some D := folder_stack false D hD
  -- the path as parsed, with a slash after a single character
  obtain ⟨p, hp, hstack, hph, hpc⟩ : ∃ p, parse ov (down F n) = some { path := p } ∧ pathStack p true = some (F ++ [n]) ∧
      p.head? ≠ some 47 ∧ 58 ∉ p ∧ 92 ∉ p := by
    by_cases hl : 2 ≤ (down F n).length
    · refine ⟨down F n, ?_, ?_, hhead, hfree 58 (by decide), hfree 92 (by decide)⟩
      · have := relative_parse ov (down F n) .nothing hhead hl hlast hfree (by intro c _; simp [Tail.q]) (by intro c _; simp [Tail.f])
          (by simpa [Tail.text] using hsz)
        simpa only [Tail.text, List.append_nil, Tail.q, Tail.f] using this
      · rw [down_eq, stack_relative true F n (fun c hc => (hF c hc).comp) hn.comp (by rw [← down_eq]; exact hfree 92 (by decide))]
        simp
    · have hFn : F = [] := by
        cases F with
        | nil => rfl
        | cons c F =>
          exfalso
          have h1 : c.length ≠ 0 := fun h => (hF c (by simp)).1 (List.length_eq_zero_iff.1 h)
          rw [down_eq] at hl
          simp only [folders, List.length_append, List.length_cons] at hl
          omega
      subst hFn
      have hd : down [] n = n := by simp [down]
      rw [hd] at hl hfree hhead ⊢
      obtain ⟨x, rfl⟩ : ∃ x, n = [x] := by
        obtain ⟨x, c, rfl⟩ := List.exists_cons_of_ne_nil hn.1
        refine ⟨x, ?_⟩
        simp only [List.length_cons] at hl
        rw [List.length_eq_zero_iff.1 (by omega : c.length = 0)]
      have hx : ∀ y ∈ ([35, 47, 58, 63, 92, 124] : List Ch), x ≠ y := fun y hy e => hn.2.1 y hy (by simp [e])
      refine ⟨[x, 47], ?_, ?_, by simp [hx 47 (by decide)], ?_, ?_⟩
      · rw [parse, if_neg (by simp)]
        simp only [slashes_eq _ (hfree 92 (by decide)), find_none0 _ _ (hfree 58 (by decide)), if_neg hhead]
        rw [hostPart, if_pos rfl, finish, find_none0 _ _ (hfree 63 (by decide)), find_none0 _ _ (hfree 35 (by decide))]
        simp [fixBar, isFile]
      · have : ([x, 47] : List Ch) = folders [[x]] := rfl
        have h92 : (92 : Ch) ∉ ([x, 47] : List Ch) := by simp [(hx 92 (by decide)).symm]
        rw [pathStack, slashes_eq _ h92, this, stack_end true [[x]] _ _ (Nat.lt_succ_self _)]
        · rfl
        · intro c hc
          rw [List.mem_singleton.1 hc]
          exact hn.comp
      · simp [(hx 58 (by decide)).symm]
      · simp [(hx 92 (by decide)).symm]
  rw [makeAbsolute, if_neg hne, hp, Option.bind_some, makeAbsUri, if_neg (by simp)]
  simp only
  rw [if_neg, if_neg, hdoc, Option.bind_some, hstack, Option.map_some, Option.map_some, hwalk, abs_joined]
  · rfl
  · rintro ⟨e, _⟩
    exact absurd e (by simp [folderUri])
  · rintro ⟨_, (e | e) | ⟨_, e⟩⟩
    · exact hpc.2 (List.mem_of_head? e)
    · exact hph e
    · exact hpc.1 (List.mem_of_getElem? e)

theorem pushPath_folder (ov : FConv.Ov) (stack : List Uri) (L : List (List Ch)) (hs : stack ≠ []) (h : ∀ c ∈ L, Name c) :
    pushPath ov stack (abs L ++ [47]) = some (stack ++ [folderUri L]) := by
  obtain ⟨cur, hc⟩ := Option.ne_none_iff_exists'.1 (mt List.getLast?_eq_none_iff.1 hs)
  rw [pushPath, hc, Option.bind_some, folder_absolute ov cur L h, Option.bind_some, endSlash_folder, folder_parse ov L h]
  rfl

theorem pushFile_abs (ov : FConv.Ov) (stack : List Uri) (L : List (List Ch)) (n : List Ch) (hs : stack ≠ []) (h : ∀ c ∈ L ++ [n], Name c)
    (hl : (abs L).length < 1024) : pushFile ov stack (abs (L ++ [n])) = some (stack ++ [folderUri L]) := by
  obtain ⟨cur, hc⟩ := Option.ne_none_iff_exists'.1 (mt List.getLast?_eq_none_iff.1 hs)
  rw [pushFile, hc, Option.bind_some, abs_absolute ov cur _ h (by simp), Option.bind_some, strip_abs _ _ (h n (by simp)) hl]
  exact pushPath_folder ov stack _ hs fun c hc => h c (by simp [hc])

/-! ## Bases in the same folder -/

/-- Two URIs that differ only in what follows the last folder. -/
def SameBase (b b' : Uri) : Prop :=
  b.scheme = b'.scheme ∧ b.delim = b'.delim ∧ b.host = b'.host ∧ b.port = b'.port ∧ pathStack b.path false = pathStack b'.path false

theorem SameBase.makeAbsUri {b b' : Uri} (h : SameBase b b') (u : Uri) : makeAbsUri b u = makeAbsUri b' u := by
  obtain ⟨h1, h2, h3, h4, h5⟩ := h
  simp only [FUri.makeAbsUri, h1, h2, h3, h4, h5]

theorem SameBase.makeRelative {b b' : Uri} (h : SameBase b b') (ov : FConv.Ov) (p : List Ch) : makeRelative ov b p = makeRelative ov b' p := by
  have ha : makeAbsolute ov b p = makeAbsolute ov b' p := by simp only [makeAbsolute, h.makeAbsUri]
  obtain ⟨h1, _, h3, _, h5⟩ := h
  simp only [FUri.makeRelative, ha, h1, h3, h5]

theorem folder_same (D : List (List Ch)) (n : List Ch) (hD : ∀ c ∈ D ++ [n], Name c) :
    SameBase (folderUri D) { scheme := .file, delim := [58, 47, 47], path := abs (D ++ [n]) } := by
  refine ⟨rfl, rfl, rfl, rfl, ?_⟩
  have h92 := abs_free _ hD 92 (by decide)
  have h := folder_stack false D fun c hc => hD c (by simp [hc])
  rw [abs_joined] at h92 ⊢
  rw [stack_joined false D n (fun c hc => (hD c (by simp [hc])).comp) (hD n (by simp)).comp h92]
  simpa [folderUri] using h

end Verif.FPath
