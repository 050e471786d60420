import Verif.Uri
import Verif.ConvProps

/-!
# Lemmas on the URI model
-/

namespace Verif.FUri

open Verif.FStr (Ch)

theorem findIdx_none (c : Ch) (t : List Ch) (h : c ∉ t) : t.findIdx? (· == c) = none := by
  rw [List.findIdx?_eq_none_iff]
  intro x hx
  simp only [beq_eq_false_iff_ne]
  rintro rfl
  exact h hx

theorem findIdx_at (c : Ch) (a b : List Ch) (h : c ∉ a) : (a ++ c :: b).findIdx? (· == c) = some a.length := by
  rw [List.findIdx?_append, findIdx_none c a h]
  simp [List.findIdx?_cons]

theorem find_none (c : Ch) (t : List Ch) (off : Nat) (h : c ∉ t.drop off) : find c t off = none := by
  rw [find, findIdx_none c _ h]
  rfl

theorem find_at (c : Ch) (p a b : List Ch) (h : c ∉ a) : find c (p ++ a ++ c :: b) p.length = some (p.length + a.length) := by
  rw [find, List.append_assoc, List.drop_left, findIdx_at c a b h]
  simp [Nat.add_comm]

theorem find_at0 (c : Ch) (a b : List Ch) (h : c ∉ a) : find c (a ++ c :: b) 0 = some a.length := by
  have := find_at c [] a b h
  simpa using this

theorem find_none0 (c : Ch) (t : List Ch) (h : c ∉ t) : find c t 0 = none := find_none c t 0 (by simpa using h)

theorem slashes_eq (t : List Ch) (h : 92 ∉ t) : slashes t = t := by
  unfold slashes
  conv_rhs => rw [← List.map_id t]
  apply List.map_congr_left
  intro c hc
  have : c ≠ 92 := fun e => h (e ▸ hc)
  simp [this]

theorem wsub_eq {a b : Nat} (h : b ≤ a) (ha : a < 2 ^ 64) : wsub a b = a - b := by
  unfold wsub
  omega

theorem fixBar_eq (p : List Ch) (h : 124 ∉ p) : fixBar p = p := by
  unfold fixBar
  rw [if_neg, if_neg]
  · rintro ⟨_, e⟩
    exact h (List.mem_of_getElem? e)
  · rintro ⟨_, e⟩
    exact h (List.mem_of_getElem? e)

theorem finish_plain (pre P : List Ch) (r : Uri) (hq : 63 ∉ pre ++ P) (hf : 35 ∉ pre ++ P) (hb : 124 ∉ P) (hi : isFile P = true) :
    finish (pre ++ P) pre.length r = { r with query := [], fragment := [], path := P } := by
  unfold finish
  simp only [find_none0 _ _ hq, find_none0 _ _ hf, List.drop_left, fixBar_eq P hb, hi, if_true]

theorem finish_query (pre P Q : List Ch) (r : Uri) (hq : 63 ∉ pre ++ P) (hf : 35 ∉ pre ++ P ++ 63 :: Q) (hb : 124 ∉ P) (hi : isFile P = true)
    (hl : (pre ++ P ++ 63 :: Q).length < 2 ^ 63) :
    finish (pre ++ P ++ 63 :: Q) pre.length r = { r with query := Q, fragment := [], path := P } := by
  have hl' : pre.length + P.length + (Q.length + 1) < 2 ^ 63 := by simpa [Nat.add_assoc] using hl
  have h1 : wsub (pre ++ P).length pre.length = P.length := by
    rw [wsub_eq (by simp) (by simp; omega)]
    simp
  have h2 : Q.length ≤ wsub FStr.npos (pre ++ P).length := by
    rw [wsub_eq (by simp [FStr.npos]; omega) (by simp [FStr.npos])]
    simp [FStr.npos]
    omega
  have h3 : sub (pre ++ P ++ 63 :: Q) ((pre ++ P).length + 1) (wsub FStr.npos (pre ++ P).length) = Q := by
    rw [sub, ← List.drop_drop, List.drop_left]
    exact List.take_of_length_le h2
  have h4 : sub (pre ++ P ++ 63 :: Q) pre.length P.length = P := by
    rw [sub, List.append_assoc, List.drop_left, List.take_left]
  unfold finish
  simp only [find_at0 _ _ _ hq, find_none0 _ _ hf, Option.getD_none, h1, h3, h4, fixBar_eq P hb, hi, if_true]

theorem finish_frag (pre P F : List Ch) (r : Uri) (hq : 63 ∉ pre ++ P ++ 35 :: F) (hf : 35 ∉ pre ++ P) (hb : 124 ∉ P) (hi : isFile P = true)
    (hl : (pre ++ P ++ 35 :: F).length < 2 ^ 63) :
    finish (pre ++ P ++ 35 :: F) pre.length r = { r with query := [], fragment := F, path := P } := by
  have hl' : pre.length + P.length + (F.length + 1) < 2 ^ 63 := by simpa [Nat.add_assoc] using hl
  have h1 : wsub (pre ++ P).length pre.length = P.length := by
    rw [wsub_eq (by simp) (by simp; omega)]
    simp
  have h3 : (pre ++ P ++ 35 :: F).drop ((pre ++ P).length + 1) = F := by
    rw [← List.drop_drop, List.drop_left]
    rfl
  have h4 : sub (pre ++ P ++ 35 :: F) pre.length P.length = P := by
    rw [sub, List.append_assoc, List.drop_left, List.take_left]
  unfold finish
  simp only [find_none0 _ _ hq, find_at0 _ _ _ hf, h1, h3, h4, fixBar_eq P hb, hi, if_true]

theorem portOf_none (ov : FConv.Ov) (h : List Ch) (hc : 58 ∉ h) : portOf ov h = some (h, 0) := by
  unfold portOf
  rw [find_none0 _ _ hc]

theorem portOf_some (ov : FConv.Ov) (h : List Ch) (n : Nat) (hc : 58 ∉ h) (hn : n < 65536) :
    portOf ov (h ++ 58 :: FBld.decimal n) = some (h, n) := by
  unfold portOf
  rw [find_at0 _ _ _ hc]
  have h1 : (h ++ 58 :: FBld.decimal n).drop (h.length + 1) = FBld.decimal n := by
    rw [← List.drop_drop, List.drop_left]; rfl
  simp only [h1, List.take_left]
  have hd : FBld.decimalInt (n : Int) = FBld.decimal n := by
    rw [FBld.decimalInt, if_neg (by omega), Int.natAbs_natCast]
  have hv : FConv.decVal (FConv.intDigits (FBld.decimalInt (n : Int))) = n := by
    rw [FConv.intDigits_decimalInt, FConv.decVal_decimal, Int.natAbs_natCast]
  rw [← hd, FConv.toInt32_small ov _ [] (FBld.decimalInt_ne_zero _) (by rw [hv]; omega), FConv.splitSign_decimalInt,
    FConv.intDigits_decimalInt, FConv.decVal_decimal, FConv.sign_natAbs, Option.map_some]
  have : ((n : Int) % 2 ^ 32).toNat = n := by omega
  rw [this]

/-! ## Path stacks -/

/-- A path component: not empty and without separators. -/
def Comp (c : List Ch) : Prop := c ≠ [] ∧ 47 ∉ c

theorem stack_folders (incl : Bool) (name : List Ch) (hn : Comp name) : ∀ (L : List (List Ch)) (fuel : Nat), (∀ c ∈ L, Comp c) →
    (folders L ++ name).length < fuel → stackLoop incl fuel (folders L ++ name) = some (L ++ if incl then [name] else []) := by
  intro L
  induction L with
  | nil =>
    intro fuel _ hf
    obtain ⟨f, rfl⟩ : ∃ f, fuel = f + 1 := ⟨fuel - 1, by omega⟩
    simp only [folders, List.nil_append, stackLoop, if_neg hn.1, find_none0 _ _ hn.2]
  | cons c L ih =>
    intro fuel hL hf
    obtain ⟨f, rfl⟩ : ∃ f, fuel = f + 1 := ⟨fuel - 1, by omega⟩
    have hc := hL c (by simp)
    have e : folders (c :: L) ++ name = c ++ 47 :: (folders L ++ name) := by simp [folders]
    rw [e] at hf ⊢
    have hlen : c.length ≠ 0 := fun h => hc.1 (List.length_eq_zero_iff.1 h)
    obtain ⟨m, hm⟩ : ∃ m, c.length = m + 1 := ⟨c.length - 1, by omega⟩
    have hd : (c ++ 47 :: (folders L ++ name)).drop (c.length + 1) = folders L ++ name := by
      rw [← List.drop_drop, List.drop_left]; rfl
    rw [List.length_append, List.length_cons] at hf
    have := ih f (fun x hx => hL x (by simp [hx])) (by omega)
    have hne : c ++ 47 :: (folders L ++ name) ≠ [] := by simp
    simp only [stackLoop, if_neg hne, find_at0 _ _ _ hc.2]
    rw [hm] at hd ⊢
    simp only [hd, this, Option.map_some, List.cons_append]
    rw [← hm, List.take_left]

theorem joined_append (a b : List (List Ch)) : joined (a ++ b) = joined a ++ joined b := by
  induction a with
  | nil => rfl
  | cons c a ih => simp [joined, ih]

theorem joined_folders (L : List (List Ch)) (name : List Ch) : joined (L ++ [name]) = 47 :: (folders L ++ name) := by
  induction L with
  | nil => simp [joined, folders]
  | cons c L ih => simp [joined, folders, ih]

theorem stack_joined (incl : Bool) (L : List (List Ch)) (name : List Ch) (hL : ∀ c ∈ L, Comp c) (hn : Comp name) (h92 : 92 ∉ joined (L ++ [name])) :
    pathStack (joined (L ++ [name])) incl = some (L ++ if incl then [name] else []) := by
  rw [pathStack, slashes_eq _ h92, joined_folders]
  have h := stack_folders incl name hn L ((folders L ++ name).length + 1) hL (Nat.lt_succ_self _)
  rw [stackLoop, if_neg (by simp)]
  have hf : find 47 (47 :: (folders L ++ name)) 0 = some 0 := find_at0 47 [] _ (by simp)
  simp only [hf, List.drop_succ_cons, List.drop_zero, List.length_cons]
  exact h

theorem stack_relative (incl : Bool) (L : List (List Ch)) (name : List Ch) (hL : ∀ c ∈ L, Comp c) (hn : Comp name) (h92 : 92 ∉ folders L ++ name) :
    pathStack (folders L ++ name) incl = some (L ++ if incl then [name] else []) := by
  rw [pathStack, slashes_eq _ h92]
  exact stack_folders incl name hn L _ hL (Nat.lt_succ_self _)

theorem folders_append (a b : List (List Ch)) : folders (a ++ b) = folders a ++ folders b := by
  induction a with
  | nil => rfl
  | cons c a ih => simp [folders, ih]

theorem folders_ups (n : Nat) : folders (List.replicate n [46, 46]) = (List.replicate n [46, 46, 47]).flatten := by
  induction n with
  | zero => rfl
  | succ n ih => simp [List.replicate_succ, folders, ih]

theorem mem_folders {x : Ch} {L : List (List Ch)} (h : x ∈ folders L) : x = 47 ∨ ∃ c ∈ L, x ∈ c := by
  induction L with
  | nil => simp [folders] at h
  | cons c L ih =>
    simp only [folders, List.mem_append, List.mem_cons] at h
    rcases h with h | h | h
    · exact .inr ⟨c, by simp, h⟩
    · exact .inl h
    · rcases ih h with h | ⟨d, hd, hx⟩
      · exact .inl h
      · exact .inr ⟨d, by simp [hd], hx⟩

theorem walk_append (doc a b : List (List Ch)) : walk doc (a ++ b) = walk (walk doc a) b := by
  induction a generalizing doc with
  | nil => rfl
  | cons c a ih =>
    simp only [List.cons_append, walk]
    split
    · exact ih _
    · split <;> exact ih _

theorem walk_ups (doc : List (List Ch)) (n : Nat) : walk doc (List.replicate n [46, 46]) = doc.take (doc.length - n) := by
  induction n generalizing doc with
  | zero => simp [walk]
  | succ n ih =>
    rw [List.replicate_succ, walk, if_neg (by decide), if_pos rfl, ih, List.length_dropLast, List.dropLast_eq_take, List.take_take]
    congr 1
    omega

theorem walk_names (doc L : List (List Ch)) (h : ∀ c ∈ L, c ≠ [46] ∧ c ≠ [46, 46]) : walk doc L = doc ++ L := by
  induction L generalizing doc with
  | nil => simp [walk]
  | cons c L ih =>
    have hc := h c (by simp)
    rw [walk, if_neg hc.1, if_neg hc.2, ih _ (fun x hx => h x (by simp [hx]))]
    simp

theorem common_append (C a b : List (List Ch)) (h : a = [] ∨ b = [] ∨ a.head? ≠ b.head?) : common (C ++ a) (C ++ b) = C.length := by
  induction C with
  | nil =>
    cases a with
    | nil => simp [common]
    | cons x a =>
      cases b with
      | nil => simp [common]
      | cons y b =>
        have : x ≠ y := by simpa using h
        simp [common, this]
  | cons c C ih => simp [common, ih]

end Verif.FUri
