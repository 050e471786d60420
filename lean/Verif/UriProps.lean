import Verif.UriAux
import Verif.UriLemmas

/-!
# URI properties (C23, C24)
-/

namespace Verif.FUri

open Verif.FStr (Ch)

/-! ## Specification -/

/-- The components hold no delimiter; the path is absolute and names a file. -/
structure Parts.Ok (p : Parts) : Prop where
  scheme : p.scheme ≠ .none
  host : Free [35, 47, 58, 63, 92, 124] p.host
  portHost : p.port ≠ none → p.host ≠ []
  port : ∀ n, p.port = some n → 0 < n ∧ n < 65536
  root : p.path.head? = some 47
  len : 2 ≤ p.path.length
  last : p.path.getLast? ≠ some 47
  path : Free [35, 63, 92, 124] p.path
  query : Free [35, 92] p.tail.q
  fragment : Free [63, 92] p.tail.f
  size : p.text.length < 2 ^ 63

/-- The record that parsing should give. -/
def Parts.uri (p : Parts) : Uri :=
  { scheme := p.scheme, delim := [58, 47, 47], host := p.host, port := p.port.getD 0, path := p.path, query := p.tail.q, fragment := p.tail.f }

/-- **C23, partial.** Parsing the text of a URI recovers its scheme, host, port, path and query or fragment. Missing: user information,
a query together with a fragment, and a path that ends with a slash; see `uri_parse_violated`. -/
theorem uri_parse_partial (ov : FConv.Ov) (p : Parts) (h : p.Ok) : parse ov p.text = some p.uri := by
  obtain ⟨s, host, port, P, t⟩ := p
  obtain ⟨h1, h2, h3, h4, h5, h6, h7, h8, h9, h10, h11⟩ := h
  simp only at h1 h2 h3 h4 h5 h6 h7 h8 h9 h10
  obtain ⟨P', rfl⟩ : ∃ P', P = 47 :: P' := by
    cases P with
    | nil => simp at h5
    | cons c P' => exact ⟨P', by simpa using h5⟩
  have hs := scheme_free s
  have hport : Free [35, 47, 63, 92] (portText port) := by
    cases port with
    | none => intro c _; simp [portText]
    | some n =>
      intro c hc
      rw [portText, List.mem_cons, not_or]
      refine ⟨?_, decimal_free n c ?_⟩
      · rintro rfl; revert hc; decide
      · revert hc; simp only [List.mem_cons, List.not_mem_nil, or_false]; tauto
  have hA : ∀ c ∈ [35, 47, 63, 92], c ∉ host ++ portText port := by
    intro c hc
    rw [List.mem_append, not_or]
    refine ⟨h2 c ?_, hport c hc⟩
    revert hc; simp only [List.mem_cons, List.not_mem_nil, or_false]; tauto
  have htext : Parts.text ⟨s, host, port, 47 :: P', t⟩ =
      (schemeText s ++ [58, 47, 47] ++ (host ++ portText port)) ++ (47 :: P') ++ t.text := by
    simp [Parts.text, scheme_text]
  rw [htext] at h11 ⊢
  generalize hAd : host ++ portText port = A at hA h11
  have h92 : 92 ∉ (schemeText s ++ [58, 47, 47] ++ A) ++ (47 :: P') ++ t.text := by
    simp only [List.mem_append, not_or]
    exact ⟨⟨⟨⟨hs 92 (by decide), by decide⟩, hA 92 (by decide)⟩, h8 92 (by decide)⟩, tail_free t h9 h10⟩
  have hpre : Free [35, 63] (schemeText s ++ [58, 47, 47] ++ A) := by
    intro c hc
    simp only [List.mem_append, not_or]
    simp only [List.mem_cons, List.not_mem_nil, or_false] at hc
    rcases hc with rfl | rfl
    · exact ⟨⟨hs 35 (by decide), by decide⟩, hA 35 (by decide)⟩
    · exact ⟨⟨hs 63 (by decide), by decide⟩, hA 63 (by decide)⟩
  have hfin := fun r => finish_tail (schemeText s ++ [58, 47, 47] ++ A) (47 :: P') t r hpre h8 (isFile_of h6 h7) h9 h10 h11
  have hcol : find 58 ((schemeText s ++ [58, 47, 47] ++ A) ++ (47 :: P') ++ t.text) 0 = some (schemeText s).length := by
    have := find_at0 58 (schemeText s) ([47, 47] ++ A ++ (47 :: P') ++ t.text) (hs 58 (by decide))
    simpa using this
  have hlen : 1 < (schemeText s).length := by cases s <;> first | exact absurd rfl h1 | decide
  have hprelen : (schemeText s ++ [58, 47, 47]).length = (schemeText s).length + 3 := by simp
  have hhd : find 47 ((schemeText s ++ [58, 47, 47] ++ A) ++ (47 :: P') ++ t.text) ((schemeText s).length + 3) =
      some ((schemeText s ++ [58, 47, 47] ++ A).length) := by
    have := find_at 47 (schemeText s ++ [58, 47, 47]) A (P' ++ t.text) (hA 47 (by decide))
    rw [hprelen] at this
    rw [List.length_append, hprelen, ← this]
    simp
  have htake : ((schemeText s ++ [58, 47, 47] ++ A) ++ (47 :: P') ++ t.text).take (schemeText s).length = schemeText s := by
    simp only [List.append_assoc, List.take_left]
  have hdel : sub ((schemeText s ++ [58, 47, 47] ++ A) ++ (47 :: P') ++ t.text) (schemeText s).length 3 = [58, 47, 47] := by
    rw [sub]
    simp only [List.append_assoc, List.drop_left]
    rfl
  have hsub : sub ((schemeText s ++ [58, 47, 47] ++ A) ++ (47 :: P') ++ t.text) ((schemeText s).length + 3)
      ((schemeText s ++ [58, 47, 47] ++ A).length - ((schemeText s).length + 3)) = A := by
    rw [sub, ← hprelen, List.length_append (bs := A), Nat.add_sub_cancel_left]
    simp only [List.append_assoc]
    rw [← List.append_assoc (schemeText s), List.drop_left, List.take_left]
  have hbar : ∀ {c}, host[1]? = some c → c ∈ [35, 47, 58, 63, 92, 124] → False := fun e hc => h2 _ hc (List.mem_of_getElem? e)
  have hAlen : (schemeText s ++ [58, 47, 47] ++ A).length = (schemeText s).length + 3 + A.length := by
    rw [List.length_append, hprelen]
  have hport' := portOf_text ov host port (h2 58 (by decide)) h4
  rw [hAd] at hport'
  have hAnil : A = [] ↔ host = [] := by
    rw [← hAd]
    constructor
    · intro e; exact (List.append_eq_nil_iff.1 e).1
    · rintro rfl
      cases port with
      | none => rfl
      | some n => exact absurd rfl (h3 (by simp))
  generalize (schemeText s ++ [58, 47, 47] ++ A) ++ (47 :: P') ++ t.text = u at *
  have hu : u ≠ [] := by rintro rfl; simp [find] at hcol
  unfold parse
  rw [if_neg hu]
  simp only [slashes_eq u h92, hcol, if_pos hlen, htake, hdel, schemeOf_text s h1]
  unfold hostPart
  simp only [if_neg h1, hhd, Option.getD_some, hsub]
  by_cases hh : host = []
  · have hA0 := hAnil.2 hh
    rw [if_neg (by rw [hAlen, hA0]; simp), hfin]
    subst hh
    have : port = none := by
      by_contra hp
      exact h3 hp rfl
    subst this
    rfl
  · have hA0 : A.length ≠ 0 := fun e => hh (hAnil.1 (List.length_eq_zero_iff.1 e))
    rw [if_pos (by rw [hAlen]; omega), hport', Option.map_some]
    simp only [hh, false_and, if_false]
    unfold finishHost
    rw [if_neg (by
      rintro ⟨_, e | e⟩
      · exact hbar e (by decide)
      · exact hbar e (by decide)), hfin]
    rfl

/-- **C23, partial.** Writing the parsed URI back gives the text, unless its query or fragment is present but empty. -/
theorem uri_roundtrip_partial (ov : FConv.Ov) (p : Parts) (h : p.Ok) (hq : ∀ q, p.tail = .query q → q ≠ []) (hf : ∀ f, p.tail = .fragment f → f ≠ []) :
    (parse ov p.text).map (absoluteUri · true) = some p.text := by
  rw [uri_parse_partial ov p h, Option.map_some]
  obtain ⟨s, host, port, P, t⟩ := p
  have hp : authority (Parts.uri ⟨s, host, port, P, t⟩) = host ++ portText port := by
    cases port with
    | none => simp [authority, userInfo, Parts.uri, portText]
    | some n =>
      have := (h.port n rfl).1
      have : n ≠ 0 := by omega
      simp [authority, userInfo, Parts.uri, portText, this]
  rw [absoluteUri, hp]
  cases t with
  | nothing => simp [Parts.uri, Tail.q, Tail.f, Tail.text, Parts.text, scheme_text]
  | query q => simp [Parts.uri, Tail.q, Tail.f, Tail.text, Parts.text, scheme_text, hq q rfl]
  | fragment f => simp [Parts.uri, Tail.q, Tail.f, Tail.text, Parts.text, scheme_text, hf f rfl]

/-- A text, for witnesses. -/
def txt (s : String) : List Ch := s.toList.map fun c => (c.toNat : Int)

/-- `http://www.feelingsoftware.com:80/a/b.dae#node` meets the hypotheses. -/
example : Parts.Ok ⟨.http, txt "www.feelingsoftware.com", some 80, txt "/a/b.dae", .fragment (txt "node")⟩ := by
  refine ⟨by decide, by unfold Free; decide +kernel, by decide +kernel, ?_, by decide +kernel, by decide +kernel, by decide +kernel,
    by unfold Free; decide +kernel, by unfold Free; decide +kernel, by unfold Free; decide +kernel, by decide +kernel⟩
  intro n hn
  rw [← Option.some.inj hn]
  decide

/-- **C23, violated.** A query followed by a fragment keeps the `#`; user information stays in the host name; a path that ends with a
slash, or is empty, gets one more; a `?` after the `#` makes the fragment part of the path. -/
theorem uri_parse_violated (ov : FConv.Ov) :
    (parse ov (txt "http://h/p?q#f")).map (fun u => (u.query, u.fragment)) = some (txt "q#", txt "f") ∧
    (parse ov (txt "ftp://me@host/p")).map (fun u => (u.user, u.host)) = some ([], txt "me@host") ∧
    (parse ov (txt "http://h/")).map (·.path) = some (txt "//") ∧
    (parse ov (txt "#id")).map (fun u => (u.path, u.fragment)) = some (txt "/", txt "id") ∧
    (parse ov (txt "a.dae#x?y")).map (·.path) = some (txt "a.dae#x") := by
  cases ov <;> decide +kernel

/-! ## Paths without a scheme -/

/-- An absolute file path without `:` and `\` is kept, with the fragment split at the first `#`. -/
theorem file_path_parse (ov : FConv.Ov) (P : List Ch) (h : P.head? = some 47) (hP : Free [35, 58, 92] P) :
    parse ov P = some { scheme := .file, delim := [58, 47, 47], path := P } ∧
    ∀ F, Free [58, 92] F → parse ov (P ++ 35 :: F) = some { scheme := .file, delim := [58, 47, 47], path := P, fragment := F } := by
  have hne : P ≠ [] := by rintro rfl; simp at h
  constructor
  · rw [parse, if_neg hne]
    simp only [slashes_eq P (hP 92 (by decide)), find_none0 _ _ (hP 58 (by decide)), if_pos h]
    rw [filePath, find_none0 _ _ (hP 35 (by decide))]
  · intro F hF
    have h92 : 92 ∉ P ++ 35 :: F := by
      rw [List.mem_append, List.mem_cons]
      rintro (e | e | e)
      · exact hP 92 (by decide) e
      · exact absurd e (by decide)
      · exact hF 92 (by decide) e
    have h58 : 58 ∉ P ++ 35 :: F := by
      rw [List.mem_append, List.mem_cons]
      rintro (e | e | e)
      · exact hP 58 (by decide) e
      · exact absurd e (by decide)
      · exact hF 58 (by decide) e
    have hh : (P ++ 35 :: F).head? = some 47 := by
      cases P with
      | nil => exact absurd rfl hne
      | cons c P => simpa using h
    rw [parse, if_neg (by simp)]
    simp only [slashes_eq _ h92, find_none0 _ _ h58, if_pos hh]
    have hd : (P ++ 35 :: F).drop (P.length + 1) = F := by
      rw [← List.drop_drop, List.drop_left]; rfl
    rw [filePath, find_at0 _ _ _ (hP 35 (by decide))]
    simp only [List.take_left, hd]

/-- A relative path keeps its text, with a query or a fragment. -/
theorem relative_parse (ov : FConv.Ov) (P : List Ch) (t : Tail) (h : P.head? ≠ some 47) (hl : 2 ≤ P.length) (hlast : P.getLast? ≠ some 47)
    (hP : Free [35, 58, 63, 92, 124] P) (hq : Free [35, 58, 92] t.q) (hf : Free [58, 63, 92] t.f) (hsz : (P ++ t.text).length < 2 ^ 63) :
    parse ov (P ++ t.text) = some { path := P, query := t.q, fragment := t.f } := by
  have sb : ∀ {a b : List Ch} {x}, (∀ c ∈ a, c ∈ b) → Free b x → Free a x := fun hab hx c hc => hx c (hab c hc)
  have h92 : 92 ∉ P ++ t.text := by
    rw [List.mem_append, not_or]
    exact ⟨hP 92 (by decide), tail_free t (sb (by decide) hq) (sb (by decide) hf)⟩
  have h58 : 58 ∉ P ++ t.text := by
    rw [List.mem_append, not_or]
    refine ⟨hP 58 (by decide), ?_⟩
    cases t with
    | nothing => simp [Tail.text]
    | query q => rw [Tail.text, List.mem_cons, not_or]; exact ⟨by decide, hq 58 (by decide)⟩
    | fragment f => rw [Tail.text, List.mem_cons, not_or]; exact ⟨by decide, hf 58 (by decide)⟩
  have hfin := finish_tail [] P t {} (by intro c _; simp) (sb (by decide) hP) (isFile_of hl hlast) (sb (by decide) hq) (sb (by decide) hf)
    (by simpa using hsz)
  have hne : P ++ t.text ≠ [] := by
    intro e
    rw [(List.append_eq_nil_iff.1 e).1] at hl
    simp at hl
  have hh : (P ++ t.text).head? ≠ some 47 := by
    cases P with
    | nil => simp at hl
    | cons c P => simpa using h
  rw [parse, if_neg hne]
  simp only [slashes_eq _ h92, find_none0 _ _ h58, if_neg hh]
  rw [hostPart, if_pos rfl]
  exact congrArg some (by simpa using hfin)

/-! ## Relative and absolute paths (C24) -/

theorem rel_parse (ov : FConv.Ov) (up : Nat) (down : List (List Ch)) (name : List Ch) (t : Tail) (hdown : ∀ c ∈ down, Name c) (hn : Name name)
    (hq : Free [35, 58, 92] t.q) (hf : Free [58, 63, 92] t.f) (hsz : (rel up down name ++ t.text).length < 2 ^ 63) :
    parse ov (rel up down name ++ t.text) = some { path := rel up down name, query := t.q, fragment := t.f } := by
  rw [rel_folders] at hsz ⊢
  obtain ⟨hh, hl⟩ := steps_head up down name
  exact relative_parse ov _ t (by rw [hh]; decide) hl (getLast_name _ _ hn) (steps_free _ _ _ hdown hn) hq hf hsz

/-- Resolving a relative path walks up and down from the folder of the base, and keeps its scheme, host and port. -/
theorem resolve_relative (ov : FConv.Ov) (b : Uri) (C D down : List (List Ch)) (dn name : List Ch)
    (hpath : b.path = abs (C ++ D ++ [dn]))
    (hD : ∀ c ∈ C ++ D ++ [dn], Name c) (hdown : ∀ c ∈ down, Name c) (hn : Name name) (hsz : (rel D.length down name).length < 2 ^ 63) :
    makeAbsolute ov b (rel D.length down name) =
      some (absolutePath { scheme := b.scheme, delim := b.delim, host := b.host, port := b.port, path := abs (C ++ down ++ [name]) }) := by
  have hparse := rel_parse ov D.length down name .nothing hdown hn (by intro c _; simp [Tail.q]) (by intro c _; simp [Tail.f])
    (by simpa [Tail.text] using hsz)
  simp only [Tail.text, List.append_nil, Tail.q, Tail.f] at hparse
  have hne : rel D.length down name ≠ [] := by
    rw [rel_folders]; intro e; have := (steps_head D.length down name).2; rw [e] at this; simp at this
  rw [makeAbsolute, if_neg hne, hparse, Option.bind_some, makeAbsUri_rel b C D down dn name [] [] hpath hD hdown hn, Option.map_some]

theorem abs_absolute (ov : FConv.Ov) (b : Uri) (L : List (List Ch)) (h : ∀ c ∈ L, Name c) (hne : L ≠ []) :
    makeAbsolute ov b (abs L) = some (abs L) := by
  have := (file_path_parse ov (abs L) (abs_head L hne) (abs_free L h)).1
  rw [makeAbsolute, if_neg (by intro e; have := abs_head L hne; rw [e] at this; simp at this), this, Option.bind_some,
    makeAbsUri, if_pos (by simp)]
  rfl

/-- **C24, partial.** Take a document at `/C.../D.../dn` and a file at `/C.../F.../fn`, where the folders in common are exactly `C`, at
least one. The path made relative goes up once for each folder of `D` and down through `F`. Missing: a document in the root folder,
see `relative_path_violated`. -/
theorem relative_path_partial (ov : FConv.Ov) (C D F : List (List Ch)) (dn fn : List Ch) (b : Uri)
    (hC : C ≠ []) (hsplit : D = [] ∨ F = [] ∨ D.head? ≠ F.head?)
    (hD : ∀ c ∈ C ++ D ++ [dn], Name c) (hF : ∀ c ∈ F ++ [fn], Name c) (hb : parse ov (abs (C ++ D ++ [dn])) = some b) :
    makeRelative ov b (abs (C ++ F ++ [fn])) = some (rel D.length F fn) := by
  have hCF : ∀ c ∈ C ++ F ++ [fn], Name c := by
    intro c hc
    rw [List.append_assoc] at hc
    rcases List.mem_append.1 hc with hc | hc
    · exact hD c (by simp [hc])
    · exact hF c hc
  have hneF : C ++ F ++ [fn] ≠ [] := by simp
  have hb' := (file_path_parse ov _ (abs_head (C ++ D ++ [dn]) (by simp)) (abs_free _ hD)).1
  rw [hb'] at hb
  obtain rfl := Option.some.inj hb
  have hdoc : pathStack (abs (C ++ D ++ [dn])) false = some (C ++ D) := by
    have := abs_free _ hD 92 (by decide)
    rw [abs_joined] at this ⊢
    rw [stack_joined false (C ++ D) dn (fun c hc => (hD c (List.mem_append.2 (.inl hc))).comp) (hD dn (by simp)).comp this]
    simp
  have hloc : pathStack (abs (C ++ F ++ [fn])) true = some (C ++ F ++ [fn]) := by
    have := abs_free _ hCF 92 (by decide)
    rw [abs_joined] at this ⊢
    rw [stack_joined true (C ++ F) fn (fun c hc => (hCF c (List.mem_append.2 (.inl hc))).comp) (hCF fn (by simp)).comp this]
    simp
  have hne : abs (C ++ F ++ [fn]) ≠ [] := by
    intro e; have := abs_head _ hneF; rw [e] at this; simp at this
  rw [makeRelative, if_neg hne, abs_absolute ov _ _ hCF hneF, Option.bind_some,
    (file_path_parse ov _ (abs_head _ hneF) (abs_free _ hCF)).1, Option.bind_some, if_neg (by simp)]
  simp only [hdoc, hloc, Option.bind_some, and_self, if_true]
  obtain ⟨c0, C', rfl⟩ := List.exists_cons_of_ne_nil hC
  simp only [List.cons_append, ne_eq, not_true_eq_false, if_false]
  have hrel : relativePath (abs ((c0 :: C') ++ F ++ [fn])) ((c0 :: C') ++ D) ((c0 :: C') ++ F ++ [fn]) = some (rel D.length F fn) := by
    rw [relativePath, List.getLast?_append_of_ne_nil _ (by simp)]
    simp only [List.getLast?_singleton, List.dropLast_concat]
    rw [common_append _ _ _ hsplit, if_pos (by simp)]
    rw [rel, folders_flat]
    congr 3
    · simp only [List.length_append, Nat.add_sub_cancel_left]
      by_cases h : D.length = 0
      · rw [if_neg (by omega), if_pos h]
      · rw [if_pos (by omega), if_neg h]
    · rw [List.drop_left]
  simp only [List.cons_append] at hrel
  rw [hrel, Option.map_some, rel_folders]
  congr 1
  exact slashes_eq _ (steps_free _ _ _ (fun c hc => hF c (by simp [hc])) (hF fn (by simp)) 92 (by decide))

/-- **C24, partial.** Relative, then absolute again from the same document, is the file's path, whether or not the two paths share their
first folder. Missing: a document in the root folder. -/
theorem relative_absolute_partial (ov : FConv.Ov) (D F : List (List Ch)) (dn fn : List Ch) (b : Uri)
    (hD0 : D ≠ []) (hD : ∀ c ∈ D ++ [dn], Name c) (hF : ∀ c ∈ F ++ [fn], Name c) (hb : parse ov (abs (D ++ [dn])) = some b)
    (hsz : (abs (D ++ [dn])).length + (abs (F ++ [fn])).length < 2 ^ 61) :
    ∃ r, makeRelative ov b (abs (F ++ [fn])) = some r ∧ makeAbsolute ov b r = some (abs (F ++ [fn])) := by
  obtain ⟨C, D', F', hDe, hFe, h⟩ := exists_common D F
  have hb' := (file_path_parse ov _ (abs_head (D ++ [dn]) (by simp)) (abs_free _ hD)).1
  have hbb := hb
  rw [hb'] at hbb
  have hbe := Option.some.inj hbb
  by_cases hC : C = []
  · subst hC
    refine ⟨_, ?_, abs_absolute ov b _ hF (by simp)⟩
    have hneF : F ++ [fn] ≠ [] := by simp
    have hne : abs (F ++ [fn]) ≠ [] := by
      intro e; have := abs_head _ hneF; rw [e] at this; simp at this
    have hdoc : pathStack (abs (D ++ [dn])) false = some D := by
      have := abs_free _ hD 92 (by decide)
      rw [abs_joined] at this ⊢
      rw [stack_joined false D dn (fun c hc => (hD c (List.mem_append.2 (.inl hc))).comp) (hD dn (by simp)).comp this]
      simp
    have hloc : pathStack (abs (F ++ [fn])) true = some (F ++ [fn]) := by
      have := abs_free _ hF 92 (by decide)
      rw [abs_joined] at this ⊢
      rw [stack_joined true F fn (fun c hc => (hF c (List.mem_append.2 (.inl hc))).comp) (hF fn (by simp)).comp this]
      simp
    rw [makeRelative, if_neg hne, abs_absolute ov _ _ hF hneF, Option.bind_some,
      (file_path_parse ov _ (abs_head _ hneF) (abs_free _ hF)).1, Option.bind_some, ← hbe, if_neg (by simp)]
    simp only [hdoc, hloc, Option.bind_some, and_self, if_true]
    obtain ⟨d, D1, rfl⟩ := List.exists_cons_of_ne_nil hD0
    cases F with
    | nil =>
      simp only [List.nil_append]
      split
      · rfl
      · have : slashes (abs [fn]) = abs [fn] := slashes_eq _ (abs_free _ hF 92 (by decide))
        simp [relativePath, common, this]
    | cons f F1 =>
      simp only [List.nil_append] at hDe hFe
      subst hDe
      subst hFe
      have : d ≠ f := by simpa using h
      simp only [List.cons_append]
      rw [if_pos this]
  · subst hDe
    subst hFe
    have hF' : ∀ c ∈ F' ++ [fn], Name c := fun c hc => hF c (by rw [List.append_assoc]; exact List.mem_append.2 (.inr hc))
    refine ⟨_, relative_path_partial ov C D' F' dn fn b hC h hD hF' hb, ?_⟩
    rw [resolve_relative ov b C D' F' dn fn (by rw [← hbe]) hD (fun c hc => hF' c (by simp [hc])) (hF' fn (by simp)), ← hbe]
    · rfl
    · have h1 := rel_length D'.length F' fn
      have h2 := length_abs (C ++ D' ++ [dn])
      have h3 : (abs (F' ++ [fn])).length ≤ (abs (C ++ F' ++ [fn])).length := by
        rw [List.append_assoc, abs_append C]
        simp
      simp only [List.length_append] at h2
      rw [List.length_singleton] at h2
      omega

/-- A relative path can be moved with its folders: resolved from another document whose folder differs above the common ones, it finds
the file there. -/
theorem relative_moves (ov : FConv.Ov) (C C2 D F : List (List Ch)) (dn dn2 fn : List Ch) (b b2 : Uri)
    (hC : C ≠ []) (hsplit : D = [] ∨ F = [] ∨ D.head? ≠ F.head?)
    (hD : ∀ c ∈ C ++ D ++ [dn], Name c) (hD2 : ∀ c ∈ C2 ++ D ++ [dn2], Name c) (hF : ∀ c ∈ F ++ [fn], Name c)
    (hb : parse ov (abs (C ++ D ++ [dn])) = some b) (hb2 : parse ov (abs (C2 ++ D ++ [dn2])) = some b2)
    (hsz : (rel D.length F fn).length < 2 ^ 63) :
    ∃ r, makeRelative ov b (abs (C ++ F ++ [fn])) = some r ∧ makeAbsolute ov b2 r = some (abs (C2 ++ F ++ [fn])) := by
  refine ⟨_, relative_path_partial ov C D F dn fn b hC hsplit hD hF hb, ?_⟩
  rw [(file_path_parse ov _ (abs_head (C2 ++ D ++ [dn2]) (by simp)) (abs_free _ hD2)).1] at hb2
  rw [resolve_relative ov b2 C2 D F dn2 fn (by rw [← Option.some.inj hb2]) hD2 (fun c hc => hF c (by simp [hc])) (hF fn (by simp)) hsz,
    ← Option.some.inj hb2]
  rfl

/-- **C67.** A reference to an element of another document: written relative to this document, then parsed and made absolute,
it names the same document and the same element. -/
theorem relative_uri_fragment (ov : FConv.Ov) (C D F : List (List Ch)) (dn fn id : List Ch) (b r : Uri)
    (hC : C ≠ []) (hsplit : D = [] ∨ F = [] ∨ D.head? ≠ F.head?)
    (hD : ∀ c ∈ C ++ D ++ [dn], Name c) (hF : ∀ c ∈ F ++ [fn], Name c) (hid : id ≠ []) (hid' : Free [58, 63, 92] id)
    (hb : parse ov (abs (C ++ D ++ [dn])) = some b) (hr : parse ov (abs (C ++ F ++ [fn]) ++ 35 :: id) = some r)
    (hsz : (rel D.length F fn ++ 35 :: id).length < 2 ^ 63) :
    relativeUri ov r b = some (rel D.length F fn ++ 35 :: id) ∧
      (parse ov (rel D.length F fn ++ 35 :: id)).bind (makeAbsUri b) = some r ∧ r.fragment = id ∧ r.path = abs (C ++ F ++ [fn]) := by
  have hCF : ∀ c ∈ C ++ F ++ [fn], Name c := by
    intro c hc
    rw [List.append_assoc] at hc
    rcases List.mem_append.1 hc with hc | hc
    · exact hD c (by simp [hc])
    · exact hF c hc
  rw [(file_path_parse ov _ (abs_head (C ++ F ++ [fn]) (by simp)) (abs_free _ hCF)).2 id (fun c hc => hid' c (by
    simp only [List.mem_cons, List.not_mem_nil, or_false] at hc ⊢; tauto))] at hr
  have hre := (Option.some.inj hr).symm
  subst hre
  have hrel := relative_path_partial ov C D F dn fn b hC hsplit hD hF hb
  refine ⟨?_, ?_, rfl, rfl⟩
  · have hh : (rel D.length F fn).head? = some 46 := by rw [rel_folders]; exact (steps_head _ _ _).1
    rw [relativeUri]
    show (makeRelative ov b (abs (C ++ F ++ [fn]))).map _ = _
    rw [hrel, Option.map_some, if_neg (by rw [hh]; simp)]
    simp [hid]
  · have hp := rel_parse ov D.length F fn (.fragment id) (fun c hc => hF c (by simp [hc])) (hF fn (by simp)) (by intro c _; simp [Tail.q]) hid' hsz
    rw [Tail.text] at hp
    rw [hp, Option.bind_some]
    have hb' := (file_path_parse ov _ (abs_head (C ++ D ++ [dn]) (by simp)) (abs_free _ hD)).1
    rw [hb'] at hb
    have hbe := (Option.some.inj hb).symm
    subst hbe
    rw [makeAbsUri_rel _ C D F dn fn _ _ rfl hD (fun c hc => hF c (by simp [hc])) (hF fn (by simp))]
    rfl

/-- The hypotheses are met by `/home/me/scenes/a.dae` and `/home/me/images/t/b.png`. -/
example (ov : FConv.Ov) : ∃ b, parse ov (abs [txt "home", txt "me", txt "scenes", txt "a.dae"]) = some b ∧
    makeRelative ov b (txt "/home/me/images/t/b.png") = some (txt "../images/t/b.png") ∧
    makeAbsolute ov b (txt "../images/t/b.png") = some (txt "/home/me/images/t/b.png") := by
  refine ⟨_, rfl, ?_⟩
  cases ov <;> decide +kernel

example : ∀ c ∈ [txt "home", txt "me", txt "scenes", txt "a.dae"], Name c := by
  unfold Name Free
  decide +kernel

/-- **C24, violated.** For a document in the root folder the stack of folders is empty and its first element is read all the same:
undefined behaviour. -/
theorem relative_path_violated (ov : FConv.Ov) : ∃ b, parse ov (txt "/a.dae") = some b ∧ makeRelative ov b (txt "/b.png") = none := by
  refine ⟨{ scheme := .file, delim := [58, 47, 47], path := txt "/a.dae" }, ?_, ?_⟩ <;> cases ov <;> decide +kernel

end Verif.FUri
