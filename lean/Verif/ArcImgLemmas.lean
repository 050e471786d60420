import Verif.ArcImgSpec
import Verif.ArcPlainEnt
import Verif.ArcInstLemmas
import Verif.ArcFxLemmas
import Verif.PathProps

/-! # Lemmas for the properties in ArcImgProps -/

namespace Verif.FArc

open Verif.FEff (Text text)
open Verif.FConv (Ov DateTime Formats shown)
open Verif.FUri (Name abs Uri)

theorem relative_apart (ov : Ov) (D F : List Text) (dn fn : Text) (b : Uri) (h : D = [] ∨ F = [] ∨ D.head? ≠ F.head?)
    (hD0 : D ≠ []) (hD : ∀ c ∈ D ++ [dn], Name c) (hF : ∀ c ∈ F ++ [fn], Name c) (hb : FUri.parse ov (abs (D ++ [dn])) = some b) :
    FUri.makeRelative ov b (abs (F ++ [fn])) = some (abs (F ++ [fn])) := by
  open Verif.FUri in
  have hb' := (file_path_parse ov _ (abs_head (D ++ [dn]) (by simp)) (abs_free _ hD)).1
  rw [hb'] at hb
  have hbe := Option.some.inj hb
  have hneF : F ++ [fn] ≠ [] := by simp
  have hne : abs (F ++ [fn]) ≠ [] := by
    intro e; have := FUri.abs_head _ hneF; rw [e] at this; simp at this
  have hdoc : FUri.pathStack (abs (D ++ [dn])) false = some D := by
    have := FUri.abs_free _ hD 92 (by decide)
    rw [FUri.abs_joined] at this ⊢
    rw [FUri.stack_joined false D dn (fun c hc => (hD c (List.mem_append.2 (.inl hc))).comp) (hD dn (by simp)).comp this]
    simp
  have hloc : FUri.pathStack (abs (F ++ [fn])) true = some (F ++ [fn]) := by
    have := FUri.abs_free _ hF 92 (by decide)
    rw [FUri.abs_joined] at this ⊢
    rw [FUri.stack_joined true F fn (fun c hc => (hF c (List.mem_append.2 (.inl hc))).comp) (hF fn (by simp)).comp this]
    simp
  rw [FUri.makeRelative, if_neg hne, FUri.abs_absolute ov _ _ hF hneF, Option.bind_some,
    (FUri.file_path_parse ov _ (FUri.abs_head _ hneF) (FUri.abs_free _ hF)).1, Option.bind_some, ← hbe, if_neg (by simp)]
  simp only [hdoc, hloc, Option.bind_some, and_self, if_true]
  obtain ⟨d, D1, rfl⟩ := List.exists_cons_of_ne_nil hD0
  cases F with
  | nil =>
    simp only [List.nil_append]
    split
    · rfl
    · have : FUri.slashes (abs [fn]) = abs [fn] := FUri.slashes_eq _ (FUri.abs_free _ hF 92 (by decide))
      simp [FUri.relativePath, FUri.common, this]
  | cons f F1 =>
    have : d ≠ f := by simpa using h
    simp only [List.cons_append]
    rw [if_pos this]

theorem isChar_abs {F : List Text} (h : ∀ c ∈ F, ∀ x ∈ c, FXml.IsChar x) : ∀ x ∈ abs F, FXml.IsChar x := by
  intro x hx
  unfold FUri.abs at hx
  obtain ⟨c, hc, hx⟩ := List.mem_flatten.1 hx
  obtain ⟨d, hd, rfl⟩ := List.mem_map.1 hc
  rcases List.mem_cons.1 hx with rfl | hx
  · unfold FXml.IsChar; decide
  · exact h d hd x hx

theorem isChar_rel {n : Nat} {F : List Text} {fn : Text} (h : ∀ c ∈ F ++ [fn], ∀ x ∈ c, FXml.IsChar x) : ∀ x ∈ FUri.rel n F fn, FXml.IsChar x := by
  have k1 : FXml.IsChar 46 := by unfold FXml.IsChar; decide
  have k2 : FXml.IsChar 47 := by unfold FXml.IsChar; decide
  intro x hx
  unfold FUri.rel at hx
  rcases List.mem_append.1 hx with hx | hx
  · rcases List.mem_append.1 hx with hx | hx
    · split at hx
      · rcases List.mem_cons.1 hx with rfl | hx
        · exact k1
        · rw [List.mem_singleton.1 hx]; exact k2
      · obtain ⟨c, hc, hx⟩ := List.mem_flatten.1 hx
        rw [(List.mem_replicate.1 hc).2] at hx
        simp only [List.mem_cons, List.not_mem_nil, or_false] at hx
        rcases hx with rfl | rfl | rfl
        · exact k1
        · exact k1
        · exact k2
    · obtain ⟨c, hc, hx⟩ := List.mem_flatten.1 hx
      obtain ⟨d, hd, rfl⟩ := List.mem_map.1 hc
      rcases List.mem_append.1 hx with hx | hx
      · exact h d (by simp [hd]) x hx
      · rw [List.mem_singleton.1 hx]; exact k2
  · exact h fn (by simp) x hx

/-- The URI of a file, made absolute, is its path. -/
theorem file_uri_back (ov : Ov) (cur : Uri) (L : List Text) (h : ∀ c ∈ L, Name c) (hne : L ≠ []) (hsz : (abs L).length < 2 ^ 61) :
    FUri.makeAbsolute ov cur (FUri.absoluteUri { scheme := .file, delim := [58, 47, 47], path := abs L } true) = some (abs L) := by
  have he : FUri.absoluteUri { scheme := .file, delim := [58, 47, 47], path := abs L } true = FUri.fileT ++ [58, 47, 47] ++ abs L := by
    simp [FUri.absoluteUri, FUri.authority, FUri.userInfo, FUri.schemeText]
  have hfree := FUri.abs_free L h
  obtain ⟨L', x, rfl⟩ : ∃ L' x, L = L' ++ [x] := ⟨_, _, (List.dropLast_append_getLast hne).symm⟩
  have hx := h x (by simp)
  have hlast : (abs (L' ++ [x])).getLast? ≠ some 47 := by
    have : abs (L' ++ [x]) = (abs L' ++ [47]) ++ x := by simp [FUri.abs]
    rw [this]
    exact FUri.getLast_name _ _ hx
  have hlen : 2 ≤ (abs (L' ++ [x])).length := by
    have : abs (L' ++ [x]) = abs L' ++ 47 :: x := by simp [FUri.abs]
    rw [this, List.length_append, List.length_cons]
    have : 0 < x.length := List.length_pos_of_ne_nil hx.1
    omega
  have hpath : FUri.Free [35, 63, 92, 124] (abs (L' ++ [x])) := by
    intro c hc hm
    unfold FUri.abs at hm
    obtain ⟨d, hd, hm⟩ := List.mem_flatten.1 hm
    obtain ⟨e, he, rfl⟩ := List.mem_map.1 hd
    rcases List.mem_cons.1 hm with rfl | hm
    · revert hc; decide
    · refine (h e he).2.1 c ?_ hm
      simp only [List.mem_cons, List.not_mem_nil, or_false] at hc ⊢
      tauto
  have hp := FUri.uri_parse_partial ov ⟨.file, [], none, abs (L' ++ [x]), .nothing⟩
    ⟨by simp, (by intro c _; simp), by simp, by simp, FUri.abs_head _ (by simp), hlen, hlast, hpath, by intro c _; simp [FUri.Tail.q], by intro c _; simp [FUri.Tail.f], (by
      simp only [FUri.Parts.text, FUri.Scheme.text, FUri.portText, FUri.Tail.text, List.append_nil, List.length_append, List.length_map]
      have : "file".toList.length = 4 := by decide
      simp only [this, List.length_cons, List.length_nil] at *
      omega)⟩
  have ht : FUri.Parts.text ⟨.file, [], none, abs (L' ++ [x]), .nothing⟩ = FUri.fileT ++ [58, 47, 47] ++ abs (L' ++ [x]) := by
    simp only [FUri.Parts.text, FUri.portText, FUri.Tail.text, List.append_nil]
    congr 1
  rw [he, FUri.makeAbsolute, if_neg (by simp [FUri.fileT]), ← ht, hp, Option.bind_some, FUri.makeAbsUri, if_pos (by simp [FUri.Parts.uri])]
  rfl

/-- What is written for a file leads back to it. -/
theorem file_back (ov : Ov) (stack : List Uri) (D F : List Text) (fn : Text) (hs : stack.getLast? = some (FPath.folderUri D)) (hD : GoodFolder D) (h : GoodFile D F fn) :
    ∃ t, FPath.cleanUri ov stack false { scheme := .file, delim := [58, 47, 47], path := abs (F ++ [fn]) } = some t ∧ t ≠ [] ∧ (∀ x ∈ t, FXml.IsChar x) ∧
      FUri.makeAbsolute ov (FPath.folderUri D) t = some (abs (F ++ [fn])) := by
  have hd : Name [100] := ⟨by decide, by unfold FUri.Free; decide, by decide, by decide⟩
  have hDd : ∀ c ∈ D ++ [[100]], Name c := by
    intro c hc
    rcases List.mem_append.1 hc with hc | hc
    · exact hD.names c hc
    · rw [List.mem_singleton.1 hc]; exact hd
  have hsame := FPath.folder_same D [100] hDd
  have hdoc := (FUri.file_path_parse ov _ (FUri.abs_head (D ++ [[100]]) (by simp)) (FUri.abs_free _ hDd)).1
  have hmk : ∀ t, FUri.makeAbsolute ov (FPath.folderUri D) t = FUri.makeAbsolute ov { scheme := .file, delim := [58, 47, 47], path := abs (D ++ [[100]]) } t := by
    intro t
    have : FUri.makeAbsUri (FPath.folderUri D) = FUri.makeAbsUri { scheme := .file, delim := [58, 47, 47], path := abs (D ++ [[100]]) } := funext fun u => hsame.makeAbsUri u
    unfold FUri.makeAbsolute
    rw [this]
  have hclean : FPath.cleanUri ov stack false { scheme := .file, delim := [58, 47, 47], path := abs (F ++ [fn]) } =
      FUri.relativeUri ov { scheme := .file, delim := [58, 47, 47], path := abs (F ++ [fn]) } (FPath.folderUri D) := by
    rw [FPath.cleanUri, if_neg (by simp), if_neg (by simp), hs, Option.bind_some]
  rw [hclean]
  unfold FUri.relativeUri
  show ∃ t, (FUri.makeRelative ov (FPath.folderUri D) (abs (F ++ [fn]))).map _ = some t ∧ _
  rw [hsame.makeRelative]
  obtain ⟨C, D', F', hDe, hFe, hc⟩ := FUri.exists_common D F
  by_cases hC : C = []
  · subst hC
    simp only [List.nil_append] at hDe hFe
    subst hDe
    subst hFe
    rw [relative_apart ov D F [100] fn _ hc hD.ne hDd h.names hdoc, Option.map_some]
    have hh := FUri.abs_head (F ++ [fn]) (by simp)
    rw [if_pos ⟨(by intro e; rw [e] at hh; simp at hh), (by rw [hh]; decide)⟩]
    refine ⟨_, rfl, by simp [FUri.absoluteUri, FUri.schemeText, FUri.fileT], ?_, file_uri_back ov _ _ h.names (by simp) ?_⟩
    · intro x hx
      have he : FUri.absoluteUri { scheme := .file, delim := [58, 47, 47], path := abs (F ++ [fn]) } true = FUri.fileT ++ [58, 47, 47] ++ abs (F ++ [fn]) := by
        simp [FUri.absoluteUri, FUri.authority, FUri.userInfo, FUri.schemeText]
      rw [he] at hx
      rcases List.mem_append.1 hx with hx | hx
      · have : ∀ x ∈ FUri.fileT ++ [58, 47, 47], FXml.IsChar x := by unfold FXml.IsChar; decide
        exact this x hx
      · exact isChar_abs h.chars x hx
    · have := h.size; omega
  · subst hDe
    subst hFe
    have hF' : ∀ c ∈ F' ++ [fn], Name c := fun c hc => h.names c (by rw [List.append_assoc]; exact List.mem_append.2 (.inr hc))
    have hr := FUri.relative_path_partial ov C D' F' [100] fn _ hC hc hDd hF' hdoc
    have hh : (FUri.rel D'.length F' fn).head? = some 46 := by rw [FUri.rel_folders]; exact (FUri.steps_head _ _ _).1
    rw [hr, Option.map_some, if_neg (by rw [hh]; simp)]
    obtain ⟨r, hr1, hr2⟩ := FUri.relative_absolute_partial ov (C ++ D') (C ++ F') [100] fn _ hD.ne hDd h.names hdoc h.size
    rw [hr] at hr1
    obtain rfl := Option.some.inj hr1
    refine ⟨_, rfl, ?_, ?_, ?_⟩
    · simp only [ne_eq, not_true_eq_false, if_false, List.append_nil]
      intro e; rw [e] at hh; cases hh
    · simp only [ne_eq, not_true_eq_false, if_false, List.append_nil]
      exact isChar_rel fun c hc => h.chars c (by rw [List.append_assoc]; exact List.mem_append.2 (.inr hc))
    · simp only [ne_eq, not_true_eq_false, if_false, List.append_nil]
      rw [hmk, hr2]

theorem imgAttrs_raw (s : Ent) (i : Img) (ks : List Node) :
    (Node.elem (text "image") (entAttrs true s ++ imgAttrs i) [] ks).raw (text "width") = (if 0 < i.width then some (natText i.width) else none) ∧
    (Node.elem (text "image") (entAttrs true s ++ imgAttrs i) [] ks).raw (text "height") = (if 0 < i.height then some (natText i.height) else none) ∧
    (Node.elem (text "image") (entAttrs true s ++ imgAttrs i) [] ks).raw (text "depth") = (if 0 < i.depth then some (natText i.depth) else none) := by
  unfold entAttrs imgAttrs countAttr
  by_cases hz : s.name = [] <;> by_cases hw : 0 < i.width <;> by_cases hh : 0 < i.height <;> by_cases hd : 0 < i.depth <;>
    simp [raw_cons, hz, hw, hh, hd, text_inj]

theorem sizeIn_back {n : Node} {a : Text} {v : Nat} (hv : v < 2 ^ 32) (h : n.raw a = if 0 < v then some (natText v) else none) : sizeIn n a 0 = some v := by
  unfold sizeIn Node.has
  by_cases h0 : 0 < v
  · rw [if_pos h0] at h
    rw [h, if_pos (show (some (natText v)).isSome = true from rfl), prop_raw h (natText_plain v), Option.bind_some, readNat_natText v hv]
  · rw [if_neg h0] at h
    rw [h, if_neg (by simp)]
    congr 1; omega

theorem hints_load (ov : Ov) : ∀ (hs : List (Text × Text)), GoodHints hs → ∀ m : Mtl, (hs.map hintElem).foldlM (loadMtlKid ov) m = some { m with hints := m.hints ++ hs } := by
  intro hs
  induction hs with
  | nil => intro _ m; simp
  | cons h hs ih =>
    intro hg m
    have hp := hg h (by simp)
    have hk : loadMtlKid ov m (hintElem h) = some { m with hints := m.hints ++ [h] } := by
      unfold loadMtlKid
      rw [if_neg (show ¬ (hintElem h).name = text "setparam" from text_ne (by decide)), if_pos (show (hintElem h).name = text "technique_hint" from rfl),
        prop_raw (t := h.1) (by unfold hintElem; rw [raw_cons, if_pos rfl]) hp.1, Option.bind_some,
        prop_raw (t := h.2) (by unfold hintElem; rw [raw_cons, if_neg (text_ne (by decide)), raw_cons, if_pos rfl]) hp.2, Option.map_some]
    rw [List.map_cons, List.foldlM_cons, hk]
    show (hs.map hintElem).foldlM (loadMtlKid ov) _ = _
    rw [ih fun x hx => hg x (by simp [hx])]
    simp

theorem mtl_params_load (ov : Ov) {rnd : ℚ → ℚ} {ps : List Parm} {K : List Node}
    (h : List.Forall₂ (fun p k => (∀ parent, loadParm ov parent k = some (parmAfter rnd p)) ∧ k.name = (if p.role = .generator then text "newparam" else text "setparam") ∧ PlainSids k) ps K) : ∀ m : Mtl,
    K.foldlM (loadMtlKid ov) m = some { m with params := m.params ++ (ps.filter fun q => decide (q.role ≠ .generator)).map (parmAfter rnd) } := by
  induction h with
  | nil => intro m; simp
  | @cons p k ps K hc _ ih =>
    intro m
    by_cases hr : p.role = .generator
    · have hk : loadMtlKid ov m k = some m := by
        unfold loadMtlKid
        rw [hc.2.1, if_pos hr, if_neg (text_ne (by decide)), if_neg (text_ne (by decide))]
      rw [List.foldlM_cons, hk, List.filter_cons_of_neg (by simp [hr])]
      exact ih m
    · have hk : loadMtlKid ov m k = some { m with params := m.params ++ [parmAfter rnd p] } := by
        unfold loadMtlKid
        rw [hc.2.1, if_neg hr, if_pos rfl, hc.1, Option.map_some]
      rw [List.foldlM_cons, hk, List.filter_cons_of_pos (by simp [hr])]
      show K.foldlM (loadMtlKid ov) _ = _
      rw [ih]
      simp

end Verif.FArc
