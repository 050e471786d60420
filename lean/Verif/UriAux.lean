import Verif.UriSpec
import Verif.UriLemmas

/-! # Lemmas for the properties in UriProps -/

namespace Verif.FUri

open Verif.FStr (Ch)

theorem scheme_text (s : Scheme) : s.text = schemeText s := by cases s <;> rfl

theorem schemeOf_text (s : Scheme) (h : s ≠ .none) : schemeOf (schemeText s) = s := by
  cases s <;> first | exact absurd rfl h | decide +kernel

theorem scheme_free (s : Scheme) : Free [35, 47, 58, 63, 92, 124] (schemeText s) := by
  unfold Free
  cases s <;> decide +kernel

theorem decimal_free (n : Nat) : Free [35, 47, 58, 63, 92, 124] (FBld.decimal n) := by
  intro c hc hm
  have h := FConv.decimal_digits n c hm
  simp only [List.mem_cons, List.not_mem_nil, or_false] at hc
  rcases hc with rfl | rfl | rfl | rfl | rfl | rfl <;> exact absurd h (by decide)

theorem finish_tail (pre P : List Ch) (t : Tail) (r : Uri) (hpre : Free [35, 63] pre) (hP : Free [35, 63, 92, 124] P)
    (hi : isFile P = true) (hq : Free [35, 92] t.q) (hf : Free [63, 92] t.f) (hl : (pre ++ P ++ t.text).length < 2 ^ 63) :
    finish (pre ++ P ++ t.text) pre.length r = { r with query := t.q, fragment := t.f, path := P } := by
  have h1 : 63 ∉ pre ++ P := by
    simp only [List.mem_append, not_or]
    exact ⟨hpre 63 (by decide), hP 63 (by decide)⟩
  have h2 : 35 ∉ pre ++ P := by
    simp only [List.mem_append, not_or]
    exact ⟨hpre 35 (by decide), hP 35 (by decide)⟩
  have h3 := hP 124 (by decide)
  cases t with
  | nothing =>
    simp only [Tail.text, List.append_nil]
    exact finish_plain pre P r h1 h2 h3 hi
  | query q =>
    refine finish_query pre P q r h1 ?_ h3 hi hl
    rw [List.mem_append, not_or]
    refine ⟨h2, ?_⟩
    rw [List.mem_cons, not_or]
    exact ⟨by decide, hq 35 (by decide)⟩
  | fragment f =>
    refine finish_frag pre P f r ?_ h2 h3 hi hl
    rw [List.mem_append, not_or]
    refine ⟨h1, ?_⟩
    rw [List.mem_cons, not_or]
    exact ⟨by decide, hf 63 (by decide)⟩

theorem tail_free (t : Tail) (hq : Free [35, 92] t.q) (hf : Free [63, 92] t.f) : 92 ∉ t.text := by
  cases t with
  | nothing => simp [Tail.text]
  | query q => rw [Tail.text, List.mem_cons, not_or]; exact ⟨by decide, hq 92 (by decide)⟩
  | fragment f => rw [Tail.text, List.mem_cons, not_or]; exact ⟨by decide, hf 92 (by decide)⟩

theorem isFile_of {P : List Ch} (h : 2 ≤ P.length) (hl : P.getLast? ≠ some 47) : isFile P = true := by
  unfold isFile
  simp [hl]
  omega

theorem portOf_text (ov : FConv.Ov) (host : List Ch) (port : Option Nat) (h : 58 ∉ host) (hp : ∀ n, port = some n → 0 < n ∧ n < 65536) :
    portOf ov (host ++ portText port) = some (host, port.getD 0) := by
  cases port with
  | none => simp only [portText, List.append_nil, portOf_none ov host h, Option.getD_none]
  | some n => exact portOf_some ov host n h (hp n rfl).2

theorem abs_joined (l : List (List Ch)) : abs l = joined l := by
  induction l with
  | nil => rfl
  | cons c l ih => simp [abs, joined, ← ih]

theorem folders_flat (l : List (List Ch)) : (l.map (· ++ [47])).flatten = folders l := by
  induction l with
  | nil => rfl
  | cons c l ih => simp [folders, ← ih]

/-- The folder steps of a relative path. -/
def steps (up : Nat) (down : List (List Ch)) : List (List Ch) := (if up = 0 then [[46]] else List.replicate up [46, 46]) ++ down

theorem rel_folders (up : Nat) (down : List (List Ch)) (name : List Ch) : rel up down name = folders (steps up down) ++ name := by
  rw [rel, steps, folders_flat, folders_append]
  congr 2
  split
  · rfl
  · exact (folders_ups up).symm

theorem Name.comp {c : List Ch} (h : Name c) : Comp c := ⟨h.1, h.2.1 47 (by decide)⟩

theorem steps_comp (up : Nat) (down : List (List Ch)) (h : ∀ c ∈ down, Name c) : ∀ c ∈ steps up down, Comp c := by
  intro c hc
  unfold steps at hc
  rcases List.mem_append.1 hc with hc | hc
  · split at hc
    · rw [List.mem_singleton.1 hc]; exact ⟨by decide, by decide⟩
    · rw [(List.mem_replicate.1 hc).2]; exact ⟨by decide, by decide⟩
  · exact (h c hc).comp

theorem steps_free (up : Nat) (down : List (List Ch)) (name : List Ch) (h : ∀ c ∈ down, Name c) (hn : Name name) :
    Free [35, 58, 63, 92, 124] (folders (steps up down) ++ name) := by
  intro x hx hm
  have hx47 : x ≠ 47 := by rintro rfl; revert hx; decide
  have hx46 : x ≠ 46 := by rintro rfl; revert hx; decide
  have hx' : x ∈ ([35, 47, 58, 63, 92, 124] : List Ch) := by
    simp only [List.mem_cons, List.not_mem_nil, or_false] at hx ⊢
    tauto
  rcases List.mem_append.1 hm with hm | hm
  · rcases mem_folders hm with e | ⟨c, hc, e⟩
    · exact hx47 e
    · unfold steps at hc
      rcases List.mem_append.1 hc with hc | hc
      · split at hc
        · rw [List.mem_singleton.1 hc] at e
          exact hx46 (by simpa using e)
        · rw [(List.mem_replicate.1 hc).2] at e
          exact hx46 (by simpa using e)
      · exact (h c hc).2.1 x hx' e
  · exact hn.2.1 x hx' hm

theorem steps_head (up : Nat) (down : List (List Ch)) (name : List Ch) : (folders (steps up down) ++ name).head? = some 46 ∧
    2 ≤ (folders (steps up down) ++ name).length := by
  unfold steps
  split
  · simp [folders]
  · obtain ⟨n, rfl⟩ : ∃ n, up = n + 1 := ⟨up - 1, by omega⟩
    simp [List.replicate_succ, folders]

theorem getLast_name (X name : List Ch) (hn : Name name) : (X ++ name).getLast? ≠ some 47 := by
  rw [List.getLast?_append_of_ne_nil _ hn.1]
  intro e
  exact hn.2.1 47 (by decide) (List.mem_of_getLast? e)

theorem makeAbsUri_rel (b : Uri) (C D down : List (List Ch)) (dn name q f : List Ch)
    (hpath : b.path = abs (C ++ D ++ [dn]))
    (hD : ∀ c ∈ C ++ D ++ [dn], Name c) (hdown : ∀ c ∈ down, Name c) (hn : Name name) :
    makeAbsUri b { path := rel D.length down name, query := q, fragment := f } =
      some { scheme := b.scheme, delim := b.delim, host := b.host, port := b.port, path := abs (C ++ down ++ [name]), query := q, fragment := f } := by
  rw [rel_folders]
  have hfree := steps_free D.length down name hdown hn
  obtain ⟨hh, hl⟩ := steps_head D.length down name
  have hstack := stack_relative true (steps D.length down) name (steps_comp _ _ hdown) hn.comp (hfree 92 (by decide))
  generalize folders (steps D.length down) ++ name = t at *
  unfold makeAbsUri
  rw [if_neg (by simp)]
  simp only [hh]
  rw [if_neg, if_neg]
  rotate_left
  · rintro ⟨_, e⟩; exact absurd e (by decide)
  · rintro ⟨_, (e | e) | ⟨_, e⟩⟩
    · exact absurd e (by decide)
    · exact absurd e (by decide)
    · exact hfree 58 (by decide) (List.mem_of_getElem? e)
  have hdoc : pathStack b.path false = some (C ++ D) := by
    rw [hpath, abs_joined, stack_joined false (C ++ D) dn (fun c hc => (hD c (List.mem_append.2 (.inl hc))).comp) (hD dn (by simp)).comp]
    · simp
    · rw [joined_folders, List.mem_cons, not_or]
      refine ⟨by decide, ?_⟩
      rw [List.mem_append, not_or]
      refine ⟨fun e => ?_, (hD dn (by simp)).2.1 92 (by decide)⟩
      rcases mem_folders e with e | ⟨c, hc, e⟩
      · exact absurd e (by decide)
      · exact (hD c (List.mem_append.2 (.inl hc))).2.1 92 (by decide) e
  have hwalk : walk (C ++ D) (steps D.length down ++ [name]) = C ++ down ++ [name] := by
    rw [steps, List.append_assoc, walk_append]
    have : walk (C ++ D) (if D.length = 0 then [[46]] else List.replicate D.length [46, 46]) = C := by
      split
      · rename_i h
        rw [List.length_eq_zero_iff.1 h]
        simp [walk]
      · rw [walk_ups]
        simp
    rw [this, walk_names, List.append_assoc]
    intro c hc
    rcases List.mem_append.1 hc with hc | hc
    · exact (hdown c hc).2.2
    · rw [List.mem_singleton.1 hc]; exact hn.2.2
  rw [hdoc, Option.bind_some, hstack, if_pos rfl, Option.map_some, hwalk, abs_joined]

theorem abs_free (L : List (List Ch)) (h : ∀ c ∈ L, Name c) : Free [35, 58, 92] (abs L) := by
  intro x hx hm
  have hx47 : x ≠ 47 := by rintro rfl; revert hx; decide
  have hx' : x ∈ ([35, 47, 58, 63, 92, 124] : List Ch) := by
    simp only [List.mem_cons, List.not_mem_nil, or_false] at hx ⊢
    tauto
  unfold abs at hm
  obtain ⟨l, hl, hm⟩ := List.mem_flatten.1 hm
  obtain ⟨c, hc, rfl⟩ := List.mem_map.1 hl
  rcases List.mem_cons.1 hm with e | e
  · exact hx47 e
  · exact (h c hc).2.1 x hx' e

theorem abs_head (L : List (List Ch)) (h : L ≠ []) : (abs L).head? = some 47 := by
  cases L with
  | nil => exact absurd rfl h
  | cons c L => simp [abs]

theorem exists_common (D F : List (List Ch)) : ∃ C D' F', D = C ++ D' ∧ F = C ++ F' ∧ (D' = [] ∨ F' = [] ∨ D'.head? ≠ F'.head?) := by
  induction D generalizing F with
  | nil => exact ⟨[], [], F, rfl, rfl, .inl rfl⟩
  | cons d D ih =>
    cases F with
    | nil => exact ⟨[], d :: D, [], rfl, rfl, .inr (.inl rfl)⟩
    | cons f F =>
      by_cases h : d = f
      · obtain ⟨C, D', F', rfl, rfl, h3⟩ := ih F
        exact ⟨d :: C, D', F', rfl, by rw [h]; rfl, h3⟩
      · exact ⟨[], d :: D, f :: F, rfl, rfl, .inr (.inr (by simpa using h))⟩

theorem length_abs (L : List (List Ch)) : L.length ≤ (abs L).length := by
  induction L with
  | nil => simp
  | cons c L ih =>
    have : abs (c :: L) = 47 :: (c ++ abs L) := by simp [abs]
    rw [this]
    simp only [List.length_cons, List.length_append]
    omega

theorem abs_append (A B : List (List Ch)) : abs (A ++ B) = abs A ++ abs B := by simp [abs]

theorem rel_length (up : Nat) (F : List (List Ch)) (fn : List Ch) : (rel up F fn).length ≤ 3 * up + 2 + (abs (F ++ [fn])).length := by
  rw [rel, folders_flat, abs_joined, joined_folders]
  simp only [List.length_append, List.length_cons]
  have : (if up = 0 then ([46, 47] : List Ch) else (List.replicate up [46, 46, 47]).flatten).length ≤ 3 * up + 2 := by
    split
    · simp
    · simp
      omega
  omega

end Verif.FUri
