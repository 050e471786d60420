import Verif.ExtraSpec
import Mathlib.Tactic.Common

/-!
# Lemmas about extra trees
-/

namespace Verif.FExtra

open Verif.FStr (Ch)

/-! ## Names -/

theorem letter_iff (c : Int) : Letter c ↔ (97 ≤ c ∧ c ≤ 122) ∨ (65 ≤ c ∧ c ≤ 90) := by
  constructor
  · rintro ⟨k, hk, h | h⟩ <;> omega
  · rintro (h | h)
    · exact ⟨(c - 97).toNat, by omega, Or.inl (by omega)⟩
    · exact ⟨(c - 65).toNat, by omega, Or.inr (by omega)⟩

theorem digit_iff (c : Int) : Digit c ↔ 48 ≤ c ∧ c ≤ 57 := by
  constructor
  · rintro ⟨k, hk, h⟩; omega
  · intro h; exact ⟨(c - 48).toNat, by omega, by omega⟩

theorem startChar_iff (c : Int) : startChar c = true ↔ Letter c ∨ c = 95 := by
  rw [letter_iff, startChar, decide_eq_true_eq]; omega

theorem otherChar_iff (c : Int) : otherChar c = true ↔ Letter c ∨ Digit c ∨ c = 95 := by
  rw [letter_iff, digit_iff, otherChar, decide_eq_true_eq]; omega

theorem cleanName_valid (t : Text) (h : ValidName t) : cleanName t = t := by
  obtain ⟨⟨c, h1, h2⟩, h3⟩ := h
  cases t with
  | nil => rfl
  | cons d ds =>
    obtain rfl : d = c := by simpa using h1
    simp only [cleanName]
    rw [if_pos ((startChar_iff d).2 h2)]
    congr 1
    conv => rhs; rw [← List.map_id ds]
    apply List.map_congr_left
    intro x hx
    rw [if_pos ((otherChar_iff x).2 (h3 x (by simp [hx])))]
    rfl

theorem valid_cleanName (t : Text) (h : t ≠ []) : ValidName (cleanName t) := by
  cases t with
  | nil => exact absurd rfl h
  | cons d ds =>
    unfold cleanName
    refine ⟨⟨_, rfl, ?_⟩, ?_⟩
    · split
      · exact (startChar_iff d).1 (by assumption)
      · exact Or.inr rfl
    · intro c hc
      rcases List.mem_cons.1 hc with rfl | hc
      · split
        · rename_i h
          rcases (startChar_iff d).1 h with h | h
          · exact Or.inl h
          · exact Or.inr (Or.inr h)
        · exact Or.inr (Or.inr rfl)
      · obtain ⟨x, -, rfl⟩ := List.mem_map.1 hc
        split
        · exact (otherChar_iff x).1 (by assumption)
        · exact Or.inr (Or.inr rfl)

theorem cleanName_good (t : Text) : cleanName t = [] ∨ ValidName (cleanName t) := by
  by_cases h : t = []
  · subst h; exact Or.inl rfl
  · exact Or.inr (valid_cleanName t h)

theorem cleanName_fix (t : Text) (h : t = [] ∨ ValidName t) : cleanName t = t := by
  rcases h with rfl | h
  · rfl
  · exact cleanName_valid t h

/-! ## Lists with names -/

section find
variable {α : Type} (key : α → Text)

theorem findIdx_some {l : List α} {t : Text} {i : Nat} (h : l.findIdx? (fun x => key x = t) = some i) :
    ∃ x, l[i]? = some x ∧ key x = t ∧ ∀ j y, j < i → l[j]? = some y → key y ≠ t := by
  rw [List.findIdx?_eq_some_iff_getElem] at h
  obtain ⟨h1, h2, h3⟩ := h
  refine ⟨l[i], by simp [h1], by simpa using h2, ?_⟩
  intro j y hj hy
  have hlt : j < l.length := by omega
  have := h3 j hj
  rw [List.getElem?_eq_getElem hlt, Option.some.injEq] at hy
  subst hy
  simpa using this

theorem findIdx_none {l : List α} {t : Text} (h : l.findIdx? (fun x => key x = t) = none) : ∀ x ∈ l, key x ≠ t := by
  rw [List.findIdx?_eq_none_iff] at h
  intro x hx
  simpa using h x hx

theorem findIdx_isSome {l : List α} {t : Text} (h : ∃ x ∈ l, key x = t) : ∃ i, l.findIdx? (fun x => key x = t) = some i := by
  cases hf : l.findIdx? (fun x => key x = t) with
  | some i => exact ⟨i, rfl⟩
  | none =>
    obtain ⟨x, hx, he⟩ := h
    exact absurd he (findIdx_none key hf x hx)

end find

theorem map_modify_same {α β : Type} (g : α → β) (f : α → α) (h : ∀ x, g (f x) = g x) (l : List α) (i : Nat) :
    (l.modify i f).map g = l.map g := by
  apply List.ext_getElem?
  intro j
  simp only [List.getElem?_map, List.getElem?_modify]
  cases l[j]? with
  | none => rfl
  | some x => by_cases e : i = j <;> simp [e, h]

theorem mem_modify {α : Type} {f : α → α} {l : List α} {i : Nat} {y : α} (h : y ∈ l.modify i f) : y ∈ l ∨ ∃ x ∈ l, y = f x := by
  obtain ⟨j, hj⟩ := List.mem_iff_getElem?.1 h
  rw [List.getElem?_modify] at hj
  cases e : l[j]? with
  | none => rw [e] at hj; simp at hj
  | some x =>
    rw [e] at hj
    have hx := List.mem_of_getElem? e
    by_cases he : i = j
    · simp only [he, if_true, Option.map_eq_map, Option.map_some, Option.some.injEq] at hj
      exact Or.inr ⟨x, hx, hj.symm⟩
    · simp only [he, if_false, Option.map_eq_map, Option.map_some, Option.some.injEq] at hj
      exact Or.inl (hj ▸ hx)

/-! ## Attributes -/

theorem putAttribute_names (as : List Attr) (t v : Text) :
    (putAttribute as t v).map (·.name) = if cleanName t ∈ as.map (·.name) then as.map (·.name) else as.map (·.name) ++ [cleanName t] := by
  unfold putAttribute findAttribute
  cases h : as.findIdx? (fun x => x.name = cleanName t) with
  | none =>
    rw [if_neg]
    · simp
    · intro hm
      obtain ⟨x, hx, e⟩ := List.mem_map.1 hm
      exact findIdx_none Attr.name h x hx e
  | some i =>
    obtain ⟨x, h1, h2, -⟩ := findIdx_some Attr.name h
    rw [if_pos (List.mem_map.2 ⟨x, List.mem_of_getElem? h1, h2⟩)]
    exact map_modify_same Attr.name (fun x : Attr => { x with value := v }) (fun _ => rfl) as i

theorem readAttribute_some {as : List Attr} {t : Text} {i : Nat} {x : Attr} (h1 : as[i]? = some x) (h2 : x.name = t)
    (h3 : ∀ j y, j < i → as[j]? = some y → y.name ≠ t) : readAttribute as t = x.value := by
  have : findAttribute as t = some i := by
    obtain ⟨k, hk⟩ := findIdx_isSome Attr.name ⟨x, List.mem_of_getElem? h1, h2⟩
    obtain ⟨y, g1, g2, g3⟩ := findIdx_some Attr.name hk
    rcases Nat.lt_trichotomy i k with h | h | h
    · exact absurd h2 (g3 i x h h1)
    · rw [findAttribute, hk, h]
    · exact absurd g2 (h3 k y h g1)
  rw [readAttribute, this]
  simp [h1]

theorem readAttribute_none {as : List Attr} {t : Text} (h : ∀ x ∈ as, x.name ≠ t) : readAttribute as t = [] := by
  have : findAttribute as t = none := by
    cases hf : findAttribute as t with
    | none => rfl
    | some i =>
      obtain ⟨x, h1, h2, -⟩ := findIdx_some Attr.name hf
      exact absurd h2 (h x (List.mem_of_getElem? h1))
  rw [readAttribute, this]

theorem readAttribute_cases (as : List Attr) (t : Text) :
    (∃ (i : Nat) (x : Attr), as[i]? = some x ∧ x.name = t ∧ (∀ (j : Nat) (y : Attr), j < i → as[j]? = some y → y.name ≠ t) ∧ readAttribute as t = x.value) ∨
    ((∀ x ∈ as, x.name ≠ t) ∧ readAttribute as t = []) := by
  cases hf : findAttribute as t with
  | some i =>
    obtain ⟨x, h1, h2, h3⟩ := findIdx_some Attr.name hf
    exact Or.inl ⟨i, x, h1, h2, h3, readAttribute_some h1 h2 h3⟩
  | none =>
    have := findIdx_none Attr.name hf
    exact Or.inr ⟨this, readAttribute_none this⟩

theorem readAttribute_put (as : List Attr) (t v u : Text) :
    readAttribute (putAttribute as t v) u = if u = cleanName t then v else readAttribute as u := by
  unfold putAttribute
  cases hf : findAttribute as (cleanName t) with
  | none =>
    have hn := findIdx_none Attr.name hf
    simp only
    by_cases hu : u = cleanName t
    · rw [if_pos hu, readAttribute_some (i := as.length) (x := ⟨cleanName t, v⟩) (by simp) hu.symm]
      intro j y hj hy
      rw [List.getElem?_append_left hj] at hy
      exact hu ▸ hn y (List.mem_of_getElem? hy)
    · rw [if_neg hu]
      rcases readAttribute_cases as u with ⟨i, x, h1, h2, h3, h4⟩ | ⟨h1, h2⟩
      · have hi : i < as.length := by
          by_contra hge
          rw [List.getElem?_eq_none (by omega)] at h1
          simp at h1
        rw [h4, readAttribute_some (i := i) (x := x) (by rw [List.getElem?_append_left hi]; exact h1) h2]
        intro j y hj hy
        rw [List.getElem?_append_left (by omega)] at hy
        exact h3 j y hj hy
      · rw [h2, readAttribute_none]
        intro x hx
        rcases List.mem_append.1 hx with hx | hx
        · exact h1 x hx
        · simp only [List.mem_singleton] at hx
          subst hx
          exact fun e => hu e.symm
  | some k =>
    obtain ⟨x, h1, h2, h3⟩ := findIdx_some Attr.name hf
    simp only
    by_cases hu : u = cleanName t
    · rw [if_pos hu]
      rw [readAttribute_some (i := k) (x := { x with value := v }) (by simp [h1]) (by simp [h2, hu])]
      intro j y hj hy
      rw [List.getElem?_modify] at hy
      simp only [show k ≠ j by omega, if_false] at hy
      rw [hu]
      exact h3 j y hj (by simpa using hy)
    · rw [if_neg hu]
      rcases readAttribute_cases as u with ⟨i, z, g1, g2, g3, g4⟩ | ⟨g1, g2⟩
      · have hik : k ≠ i := by
          rintro rfl
          rw [h1, Option.some.injEq] at g1
          subst g1
          exact hu (g2.symm.trans h2)
        rw [g4, readAttribute_some (i := i) (x := z) (by simp [hik, g1]) g2]
        intro j y hj hy
        rw [List.getElem?_modify] at hy
        cases e : as[j]? with
        | none => rw [e] at hy; simp at hy
        | some w =>
          have := g3 j w hj e
          rw [e] at hy
          by_cases hkj : k = j
          · simp only [hkj, if_true, Option.map_eq_map, Option.map_some, Option.some.injEq] at hy
            subst hy
            exact this
          · simp only [hkj, if_false, Option.map_eq_map, Option.map_some, Option.some.injEq] at hy
            subst hy
            exact this
      · rw [g2, readAttribute_none]
        intro y hy
        rcases mem_modify hy with h | ⟨w, hw, rfl⟩
        · exact g1 y h
        · exact g1 w hw

theorem putAttribute_good (as : List Attr) (t v : Text) (h : ∀ a ∈ as, a.name = [] ∨ ValidName a.name) (hd : (as.map (·.name)).Nodup) :
    (∀ a ∈ putAttribute as t v, a.name = [] ∨ ValidName a.name) ∧ ((putAttribute as t v).map (·.name)).Nodup := by
  constructor
  · intro a ha
    have := putAttribute_names as t v
    have hm : a.name ∈ (putAttribute as t v).map (·.name) := List.mem_map.2 ⟨a, ha, rfl⟩
    rw [this] at hm
    split at hm
    · obtain ⟨b, hb, e⟩ := List.mem_map.1 hm
      exact e ▸ h b hb
    · rcases List.mem_append.1 hm with hm | hm
      · obtain ⟨b, hb, e⟩ := List.mem_map.1 hm
        exact e ▸ h b hb
      · rw [List.mem_singleton.1 hm]
        exact cleanName_good t
  · rw [putAttribute_names]
    split
    · exact hd
    · rename_i hn
      rw [List.nodup_append]
      refine ⟨hd, by simp, ?_⟩
      intro a ha b hb e
      rw [List.mem_singleton.1 hb] at e
      exact hn (e ▸ ha)

theorem putAttribute_fold (as acc : List Attr) (h : ∀ a ∈ as, a.name = [] ∨ ValidName a.name) (hd : ((acc ++ as).map (·.name)).Nodup) :
    as.foldl (fun l x => putAttribute l x.name x.value) acc = acc ++ as := by
  induction as generalizing acc with
  | nil => simp
  | cons a as ih =>
    rw [List.foldl_cons]
    have hc : cleanName a.name = a.name := cleanName_fix _ (h a (by simp))
    have hput : putAttribute acc a.name a.value = acc ++ [a] := by
      unfold putAttribute
      have : findAttribute acc (cleanName a.name) = none := by
        cases hf : findAttribute acc (cleanName a.name) with
        | none => rfl
        | some i =>
          obtain ⟨x, h1, h2, -⟩ := findIdx_some Attr.name hf
          rw [List.map_append, List.nodup_append] at hd
          exact absurd (h2.trans hc) (hd.2.2 x.name (List.mem_map.2 ⟨x, List.mem_of_getElem? h1, rfl⟩) a.name (by simp))
      rw [this, hc]
    rw [hput, ih (acc ++ [a]) (fun b hb => h b (by simp [hb])) (by simpa using hd)]
    simp

/-! ## All nodes -/

theorem within_iff (P : Node → Prop) (n : Node) : (∀ m, Within n m → P m) ↔ P n ∧ ∀ c ∈ n.children, ∀ m, Within c m → P m := by
  constructor
  · intro h
    exact ⟨h n (.here n), fun c hc m hm => h m (.deeper hc hm)⟩
  · rintro ⟨h1, h2⟩ m hm
    cases hm with
    | here => exact h1
    | deeper hc hm => exact h2 _ hc m hm

theorem atPath_all (P : Node → Prop) (hP : ∀ n c a cs cs', cs.length = cs'.length → P (.mk n c a cs) → P (.mk n c a cs')) (f : Node → Node) :
    ∀ (p : List Nat) (n : Node), (∀ k, nodeAt p n = some k → (∀ m, Within k m → P m) → ∀ m, Within (f k) m → P m) → (∀ m, Within n m → P m) →
      ∀ m, Within (atPath f p n) m → P m := by
  intro p
  induction p with
  | nil => intro n hf h; exact hf n rfl h
  | cons i p ih =>
    intro n hf h
    obtain ⟨nm, c, a, cs⟩ := n
    obtain ⟨h1, h2⟩ := (within_iff P _).1 h
    refine (within_iff P _).2 ⟨hP _ _ _ _ _ (by simp) h1, ?_⟩
    intro x hx
    obtain ⟨j, hj⟩ := List.mem_iff_getElem?.1 (show x ∈ cs.modify i (atPath f p) from hx)
    rw [List.getElem?_modify] at hj
    cases e : cs[j]? with
    | none => rw [e] at hj; simp at hj
    | some y =>
      rw [e] at hj
      have hy := h2 y (List.mem_of_getElem? e)
      by_cases hij : i = j
      · simp only [hij, if_true, Option.map_eq_map, Option.map_some, Option.some.injEq] at hj
        rw [← hj]
        refine ih y (fun k hk => hf k ?_) hy
        show (cs[i]?).bind (nodeAt p) = some k
        rw [hij, e]
        exact hk
      · simp only [hij, if_false, Option.map_eq_map, Option.map_some, Option.some.injEq] at hj
        rw [← hj]
        exact hy

theorem blank_all (P : Node → Prop) (h : P blank) : ∀ m, Within blank m → P m := (within_iff P blank).2 ⟨h, fun c hc => absurd hc (by simp [blank, Node.children])⟩

theorem runNode_good (op : NodeOp) (ht : op.Tame) (n : Node) (h : ∀ m, Within n m → GoodHere m) : ∀ m, Within (runNode op n) m → GoodHere m := by
  obtain ⟨nm, c, a, cs⟩ := n
  obtain ⟨⟨h1, h2, h3⟩, h4⟩ := (within_iff _ _).1 h
  simp only [Node.name, Node.attrs, Node.children] at h1 h2 h3 h4
  have hnew : ∀ t c', ∀ m, Within (.mk (cleanName t) c' [] []) m → GoodHere m := fun t c' =>
    (within_iff _ _).2 ⟨⟨cleanName_good t, by simp [Node.attrs], by simp [Node.attrs]⟩, by simp [Node.children]⟩
  have happ : ∀ y, (∀ m, Within y m → GoodHere m) → ∀ x ∈ cs ++ [y], ∀ m, Within x m → GoodHere m := by
    intro y hy x hx
    rcases List.mem_append.1 hx with hx | hx
    · exact h4 x hx
    · rw [List.mem_singleton.1 hx]; exact hy
  cases op with
  | setName t => exact (within_iff _ _).2 ⟨⟨cleanName_good t, h2, h3⟩, h4⟩
  | setContent t => exact (within_iff _ _).2 ⟨⟨h1, h2, h3⟩, by simp [runNode, setContent, Node.children]⟩
  | setContentDirect t => exact (within_iff _ _).2 ⟨⟨h1, h2, h3⟩, h4⟩
  | addChild => exact (within_iff _ _).2 ⟨⟨h1, h2, h3⟩, happ _ (hnew [] [])⟩
  | addChildNamed t => exact (within_iff _ _).2 ⟨⟨h1, h2, h3⟩, happ _ (hnew t [])⟩
  | addParameter t v => exact (within_iff _ _).2 ⟨⟨h1, h2, h3⟩, happ _ (hnew t v)⟩
  | addAttribute t v =>
    obtain ⟨g1, g2⟩ := putAttribute_good a t v h2 h3
    exact (within_iff _ _).2 ⟨⟨h1, g1, g2⟩, h4⟩
  | setValue i v =>
    refine (within_iff _ _).2 ⟨⟨h1, ?_, ?_⟩, h4⟩
    · intro x hx
      rcases mem_modify hx with hx | ⟨y, hy, rfl⟩
      · exact h2 x hx
      · exact h2 y hy
    · show ((a.modify i _).map (·.name)).Nodup
      rw [map_modify_same Attr.name (fun x : Attr => { x with value := v }) (fun _ => rfl)]
      exact h3
  | setAttrName i t => exact ht.elim
  | releaseAttr i =>
    refine (within_iff _ _).2 ⟨⟨h1, fun x hx => h2 x (List.mem_of_mem_eraseIdx hx), ?_⟩, h4⟩
    exact h3.sublist ((List.eraseIdx_sublist a i).map _)
  | releaseChild i => exact (within_iff _ _).2 ⟨⟨h1, h2, h3⟩, fun x hx => h4 x (List.mem_of_mem_eraseIdx hx)⟩

theorem runNode_unmixed (op : NodeOp) (n : Node) (ht : op.Careful n) (h : ∀ m, Within n m → ¬ Mixed m) : ∀ m, Within (runNode op n) m → ¬ Mixed m := by
  obtain ⟨nm, c, a, cs⟩ := n
  obtain ⟨h1, h4⟩ := (within_iff _ _).1 h
  simp only [Node.children] at h4
  have hnew : ∀ t c', ∀ m, Within (.mk t c' [] []) m → ¬ Mixed m := fun t c' =>
    (within_iff _ _).2 ⟨fun hm => hm.2 rfl, by simp [Node.children]⟩
  have happ : ∀ y, (∀ m, Within y m → ¬ Mixed m) → ∀ x ∈ cs ++ [y], ∀ m, Within x m → ¬ Mixed m := by
    intro y hy x hx
    rcases List.mem_append.1 hx with hx | hx
    · exact h4 x hx
    · rw [List.mem_singleton.1 hx]; exact hy
  cases op with
  | setName t => exact (within_iff _ _).2 ⟨h1, h4⟩
  | setContent t => exact (within_iff _ _).2 ⟨fun hm => hm.2 rfl, by simp [runNode, setContent, Node.children]⟩
  | setContentDirect t => exact (within_iff _ _).2 ⟨fun hm => hm.2 ht, h4⟩
  | addChild => exact (within_iff _ _).2 ⟨fun hm => hm.1 ht, happ _ (hnew _ _)⟩
  | addChildNamed t => exact (within_iff _ _).2 ⟨fun hm => hm.1 ht, happ _ (hnew _ _)⟩
  | addParameter t v => exact (within_iff _ _).2 ⟨fun hm => hm.1 ht, happ _ (hnew _ _)⟩
  | addAttribute t v => exact (within_iff _ _).2 ⟨h1, h4⟩
  | setValue i v => exact (within_iff _ _).2 ⟨h1, h4⟩
  | setAttrName i t => exact (within_iff _ _).2 ⟨h1, h4⟩
  | releaseAttr i => exact (within_iff _ _).2 ⟨h1, h4⟩
  | releaseChild i =>
    refine (within_iff _ _).2 ⟨fun hm => h1 ⟨hm.1, ?_⟩, fun x hx => h4 x (List.mem_of_mem_eraseIdx hx)⟩
    rintro (rfl : cs = [])
    exact hm.2 rfl

/-! ## Updating or adding by name -/

section upsert
variable {α : Type} (key : α → Text)

/-- The first entry with the name is changed, or a new entry is added and changed. -/
def upsert (f : α → α) (new : α) (t : Text) : List α → List α
  | [] => [f new]
  | y :: ys => if key y = t then f y :: ys else y :: upsert f new t ys

theorem upsert_eq (f : α → α) (new : α) (t : Text) (l : List α) :
    (match l.findIdx? (fun x => key x = t) with
      | some i => (l, i)
      | none => (l ++ [new], l.length)).1.modify (match l.findIdx? (fun x => key x = t) with
      | some i => (l, i)
      | none => (l ++ [new], l.length)).2 f = upsert key f new t l := by
  induction l with
  | nil => rfl
  | cons y ys ih =>
    rw [List.findIdx?_cons]
    by_cases h : key y = t
    · simp [h, upsert]
    · simp only [h, decide_false, Bool.false_eq_true, if_false, upsert]
      cases hf : ys.findIdx? (fun x => key x = t) with
      | none => rw [hf] at ih; simp only at ih ⊢; simp [← ih]
      | some i => rw [hf] at ih; simp only at ih ⊢; simp [← ih]

theorem upsert_keys (f : α → α) (new : α) (t : Text) (hnew : key (f new) = t) (hf : ∀ y, key y = t → key (f y) = t) (l : List α) :
    (upsert key f new t l).map key = if t ∈ l.map key then l.map key else l.map key ++ [t] := by
  induction l with
  | nil => simp [upsert, hnew]
  | cons y ys ih =>
    unfold upsert
    by_cases h : key y = t
    · simp [h, hf y h]
    · rw [if_neg h, List.map_cons, ih]
      by_cases hm : t ∈ ys.map key
      · rw [if_pos hm, if_pos (by simp only [List.map_cons, List.mem_cons]; exact Or.inr hm)]
        rfl
      · rw [if_neg hm, if_neg (by simp only [List.map_cons, List.mem_cons, not_or]; exact ⟨fun e => h e.symm, hm⟩)]
        simp

theorem upsert_find (f : α → α) (new : α) (t : Text) (hnew : key (f new) = t) (hf : ∀ y, key y = t → key (f y) = t) (l : List α) (u : Text) :
    (upsert key f new t l).find? (fun x => key x = u) =
      if u = t then some (f ((l.find? fun x => key x = t).getD new)) else l.find? fun x => key x = u := by
  induction l with
  | nil =>
    by_cases h : u = t
    · simp [upsert, hnew, h]
    · have h' : ¬ t = u := fun e => h e.symm
      simp [upsert, hnew, h, h']
  | cons y ys ih =>
    unfold upsert
    by_cases h : key y = t
    · by_cases hu : u = t
      · simp [h, hf y h, hu]
      · have hu' : ¬ t = u := fun e => hu e.symm
        rw [if_pos h, if_neg hu, List.find?_cons, List.find?_cons, hf y h, h, decide_eq_false hu']
    · rw [if_neg h, List.find?_cons, List.find?_cons, List.find?_cons, ih]
      by_cases hu : u = t
      · simp [hu, h]
      · simp only [hu, if_false]

theorem upsert_new (f : α → α) (new : α) (t : Text) (l : List α) (h : t ∉ l.map key) : upsert key f new t l = l ++ [f new] := by
  induction l with
  | nil => rfl
  | cons y ys ih =>
    simp only [List.map_cons, List.mem_cons, not_or] at h
    unfold upsert
    rw [if_neg (fun e => h.1 e.symm), ih h.2]
    rfl

variable (F : α → α → α) (new : Text → α)

theorem upserts_find (hF : ∀ x y, key y = key x → key (F x y) = key x) (hnew : ∀ t, key (new t) = t) (s l : List α) (hs : (s.map key).Nodup) (u : Text) :
    (s.foldl (fun l x => upsert key (F x) (new (key x)) (key x) l) l).find? (fun x => key x = u) =
      match s.find? (fun x => key x = u) with
      | some x => some (F x ((l.find? fun x => key x = u).getD (new u)))
      | none => l.find? fun x => key x = u := by
  induction s generalizing l with
  | nil => rfl
  | cons x s ih =>
    rw [List.map_cons, List.nodup_cons] at hs
    rw [List.foldl_cons, ih _ hs.2, upsert_find key (F x) (new (key x)) (key x) (hF x _ (hnew _)) (fun y hy => hF x y hy), List.find?_cons]
    by_cases h : key x = u
    · have : s.find? (fun x => key x = u) = none := by
        rw [List.find?_eq_none]
        intro y hy
        simp only [decide_eq_true_eq]
        intro e
        exact hs.1 (List.mem_map.2 ⟨y, hy, e.trans h.symm⟩)
      simp [this, h]
    · have h' : ¬ u = key x := fun e => h e.symm
      simp [h, h']

theorem upserts_new (hF : ∀ x y, key y = key x → key (F x y) = key x) (hnew : ∀ t, key (new t) = t) (s l : List α) (hs : ((l ++ s).map key).Nodup) :
    s.foldl (fun l x => upsert key (F x) (new (key x)) (key x) l) l = l ++ s.map fun x => F x (new (key x)) := by
  induction s generalizing l with
  | nil => simp
  | cons x s ih =>
    have hx : key x ∉ l.map key := by
      rw [List.map_append, List.nodup_append] at hs
      intro h
      exact hs.2.2 _ h (key x) (by simp) rfl
    rw [List.foldl_cons, upsert_new key _ _ _ _ hx, ih]
    · simp
    · have := hF x (new (key x)) (hnew _)
      simpa [this] using hs

end upsert

theorem cloneTechs_eq (s t : List Tech) :
    cloneTechs s t = s.foldl (fun l x => upsert Tech.profile (cloneTech x) ⟨x.profile, blank⟩ x.profile l) t := by
  unfold cloneTechs
  congr 1
  funext ts x
  rw [← upsert_eq]
  rfl

theorem cloneInto_eq (s t : Extra) :
    cloneInto s t = s.foldl (fun l x => upsert EType.name (fun y => { y with techs := cloneTechs x.techs y.techs }) ⟨x.name, []⟩ x.name l) t := by
  unfold cloneInto
  congr 1
  funext ts x
  rw [← upsert_eq]
  rfl

mutual
theorem cloneNode_blank : ∀ n : Node, (∀ m, Within n m → GoodHere m) → cloneNode n blank = n
  | .mk n c as cs, h => by
    obtain ⟨⟨-, h2, h3⟩, h4⟩ := (within_iff _ _).1 h
    have e := putAttribute_fold as [] h2 (by rw [List.nil_append]; exact h3)
    rw [List.nil_append] at e
    rw [blank, cloneNode, e, cloneNodes_same cs h4, List.nil_append]
theorem cloneNodes_same : ∀ cs : List Node, (∀ c ∈ cs, ∀ m, Within c m → GoodHere m) → cloneNodes cs = cs
  | [], _ => rfl
  | x :: xs, h => by
    rw [cloneNodes, cloneNode_blank x (h x (by simp)), cloneNodes_same xs fun c hc => h c (by simp [hc])]
end

theorem cloneTechs_new (s : List Tech) (hd : (s.map (·.profile)).Nodup) (h : ∀ x ∈ s, ∀ m, Within x.node m → GoodHere m) : cloneTechs s [] = s := by
  rw [cloneTechs_eq, upserts_new Tech.profile cloneTech (fun p => ⟨p, blank⟩) (fun _ _ _ => rfl) (fun _ => rfl) s [] (by simpa using hd), List.nil_append]
  conv => rhs; rw [← List.map_id s]
  apply List.map_congr_left
  intro x hx
  show (⟨x.profile, cloneNode x.node blank⟩ : Tech) = x
  rw [cloneNode_blank x.node (h x hx)]

/-! ## Histories -/

theorem nodeOf_modify {e : Extra} {i j : Nat} {g : Node → Node} {n : Node}
    (h : NodeOf (e.modify i fun x => { x with techs := x.techs.modify j fun y => { y with node := g y.node } }) n) :
    NodeOf e n ∨ ∃ (t : EType) (x : Tech), e[i]? = some t ∧ t.techs[j]? = some x ∧ Within (g x.node) n := by
  obtain ⟨t, ht, x, hx, hw⟩ := h
  obtain ⟨k, hk⟩ := List.mem_iff_getElem?.1 ht
  rw [List.getElem?_modify] at hk
  cases e1 : e[k]? with
  | none => rw [e1] at hk; simp at hk
  | some t' =>
    rw [e1] at hk
    by_cases hik : i = k
    · simp only [hik, if_true, Option.map_eq_map, Option.map_some, Option.some.injEq] at hk
      subst hk
      obtain ⟨l, hl⟩ := List.mem_iff_getElem?.1 hx
      rw [List.getElem?_modify] at hl
      cases e2 : t'.techs[l]? with
      | none => rw [e2] at hl; simp at hl
      | some x' =>
        rw [e2] at hl
        by_cases hjl : j = l
        · simp only [hjl, if_true, Option.map_eq_map, Option.map_some, Option.some.injEq] at hl
          subst hl
          exact Or.inr ⟨t', x', hik ▸ e1, hjl ▸ e2, hw⟩
        · simp only [hjl, if_false, Option.map_eq_map, Option.map_some, Option.some.injEq] at hl
          subst hl
          exact Or.inl ⟨t', List.mem_of_getElem? e1, x', List.mem_of_getElem? e2, hw⟩
    · simp only [hik, if_false, Option.map_eq_map, Option.map_some, Option.some.injEq] at hk
      subst hk
      exact Or.inl ⟨t', List.mem_of_getElem? e1, x, hx, hw⟩

theorem nodeOf_other {e : Extra} {op : Op} {n : Node} (h : NodeOf (run e op) n) :
    NodeOf e n ∨ n = blank ∨ ∃ i j path o, op = .node i j path o := by
  cases op with
  | node i j path o => exact Or.inr (Or.inr ⟨i, j, path, o, rfl⟩)
  | addType t =>
    obtain ⟨y, hy, x, hx, hw⟩ := h
    simp only [run, addType] at hy
    split at hy
    · exact Or.inl ⟨y, hy, x, hx, hw⟩
    · rcases List.mem_append.1 hy with hy | hy
      · exact Or.inl ⟨y, hy, x, hx, hw⟩
      · rw [List.mem_singleton.1 hy] at hx; simp at hx
  | setTypeName i t =>
    obtain ⟨y, hy, x, hx, hw⟩ := h
    rcases mem_modify hy with hy | ⟨z, hz, rfl⟩
    · exact Or.inl ⟨y, hy, x, hx, hw⟩
    · exact Or.inl ⟨z, hz, x, hx, hw⟩
  | releaseType i =>
    obtain ⟨y, hy, x, hx, hw⟩ := h
    exact Or.inl ⟨y, List.mem_of_mem_eraseIdx hy, x, hx, hw⟩
  | addTechnique i p =>
    obtain ⟨y, hy, x, hx, hw⟩ := h
    rcases mem_modify hy with hy | ⟨z, hz, rfl⟩
    · exact Or.inl ⟨y, hy, x, hx, hw⟩
    · simp only [addTechnique] at hx
      split at hx
      · exact Or.inl ⟨z, hz, x, hx, hw⟩
      · rcases List.mem_append.1 hx with hx | hx
        · exact Or.inl ⟨z, hz, x, hx, hw⟩
        · rw [List.mem_singleton.1 hx] at hw
          exact Or.inr (Or.inl (blank_all (· = blank) rfl n hw))
  | setProfile i j p =>
    obtain ⟨y, hy, x, hx, hw⟩ := h
    rcases mem_modify hy with hy | ⟨z, hz, rfl⟩
    · exact Or.inl ⟨y, hy, x, hx, hw⟩
    · rcases mem_modify hx with hx | ⟨w, hw', rfl⟩
      · exact Or.inl ⟨z, hz, x, hx, hw⟩
      · exact Or.inl ⟨z, hz, w, hw', hw⟩
  | releaseTechnique i j =>
    obtain ⟨y, hy, x, hx, hw⟩ := h
    rcases mem_modify hy with hy | ⟨z, hz, rfl⟩
    · exact Or.inl ⟨y, hy, x, hx, hw⟩
    · exact Or.inl ⟨z, hz, x, List.mem_of_mem_eraseIdx hx, hw⟩

theorem run_good (e : Extra) (op : Op) (ht : op.Tame) (h : Good e) : Good (run e op) := by
  obtain ⟨h1, h2, h3⟩ := h
  have hb : GoodHere blank := ⟨Or.inl rfl, by simp [blank, Node.attrs], by simp [blank, Node.attrs]⟩
  have hmod : ∀ (i : Nat) (g : List Tech → List Tech), (∀ l, (l.map (·.profile)).Nodup → ((g l).map (·.profile)).Nodup) →
      ((e.modify i fun x => { x with techs := g x.techs }).map (·.name)).Nodup ∧
      ∀ t ∈ e.modify i fun x => { x with techs := g x.techs }, (t.techs.map (·.profile)).Nodup := by
    intro i g hg
    constructor
    · rw [map_modify_same EType.name (fun x : EType => { x with techs := g x.techs }) (fun _ => rfl)]
      exact h1
    · intro t ht
      rcases mem_modify ht with ht | ⟨z, hz, rfl⟩
      · exact h2 t ht
      · exact hg _ (h2 z hz)
  suffices hs : ((run e op).map (·.name)).Nodup ∧ ∀ t ∈ run e op, (t.techs.map (·.profile)).Nodup by
    refine ⟨hs.1, hs.2, ?_⟩
    intro n hn
    rcases nodeOf_other hn with hn | rfl | ⟨i, j, path, o, rfl⟩
    · exact h3 n hn
    · exact hb
    · rcases nodeOf_modify (g := atPath (runNode o) path) hn with hn | ⟨t, x, g1, g2, hw⟩
      · exact h3 n hn
      · refine atPath_all GoodHere (fun _ _ _ _ _ _ h => h) (runNode o) path x.node (fun k _ => runNode_good o ht k) ?_ n hw
        intro m hm
        exact h3 m ⟨t, List.mem_of_getElem? g1, x, List.mem_of_getElem? g2, hm⟩
  cases op with
  | addType t =>
    simp only [run, addType]
    split
    · exact ⟨h1, h2⟩
    · rename_i hf
      constructor
      · rw [List.map_append, List.nodup_append]
        refine ⟨h1, by simp, ?_⟩
        intro a ha b hb e
        obtain ⟨x, hx, rfl⟩ := List.mem_map.1 ha
        simp only [List.map_cons, List.map_nil, List.mem_singleton] at hb
        exact findIdx_none EType.name hf x hx (e.trans hb)
      · intro y hy
        rcases List.mem_append.1 hy with hy | hy
        · exact h2 y hy
        · rw [List.mem_singleton.1 hy]; simp
  | setTypeName i t => exact ht.elim
  | releaseType i => exact ⟨h1.sublist ((List.eraseIdx_sublist e i).map _), fun t ht => h2 t (List.mem_of_mem_eraseIdx ht)⟩
  | addTechnique i p =>
    refine hmod i (fun l => (addTechnique l p).1) ?_
    intro l hl
    simp only [addTechnique]
    split
    · exact hl
    · rename_i hf
      rw [List.map_append, List.nodup_append]
      refine ⟨hl, by simp, ?_⟩
      intro a ha b hb e
      obtain ⟨x, hx, rfl⟩ := List.mem_map.1 ha
      simp only [List.map_cons, List.map_nil, List.mem_singleton] at hb
      exact findIdx_none Tech.profile hf x hx (e.trans hb)
  | setProfile i j p => exact ht.elim
  | releaseTechnique i j => exact hmod i (fun l => l.eraseIdx j) fun l hl => hl.sublist ((List.eraseIdx_sublist l j).map _)
  | node i j path o =>
    refine hmod i (fun l => l.modify j fun y => { y with node := atPath (runNode o) path y.node }) ?_
    intro l hl
    rw [map_modify_same Tech.profile (fun y : Tech => { y with node := atPath (runNode o) path y.node }) (fun _ => rfl)]
    exact hl

theorem run_unmixed (e : Extra) (op : Op) (ht : op.Careful e) (h : ∀ n, NodeOf e n → ¬ Mixed n) : ∀ n, NodeOf (run e op) n → ¬ Mixed n := by
  intro n hn
  rcases nodeOf_other hn with hn | rfl | ⟨i, j, path, o, rfl⟩
  · exact h n hn
  · exact fun hm => hm.1 rfl
  · rcases nodeOf_modify (g := atPath (runNode o) path) hn with hn | ⟨t, x, g1, g2, hw⟩
    · exact h n hn
    · refine atPath_all (fun n => ¬ Mixed n) ?_ (runNode o) path x.node (fun k hk => runNode_unmixed o k (ht t x k g1 g2 hk)) ?_ n hw
      · intro n c a cs cs' hl hm hm'
        refine hm ⟨hm'.1, ?_⟩
        rintro (rfl : cs = [])
        exact hm'.2 (List.length_eq_zero_iff.1 hl.symm)
      · intro m hm
        exact h m ⟨t, List.mem_of_getElem? g1, x, List.mem_of_getElem? g2, hm⟩

end Verif.FExtra
