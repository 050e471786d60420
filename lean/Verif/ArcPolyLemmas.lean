import Verif.ArcPoly
import Verif.ArcLemmas
import Verif.PolyProps

/-! # Lemmas for polygon sets: texts of indices -/

namespace Verif.FArc

open Verif.FStr (Ch)
open Verif.FEff (Text text)
open Verif.FConv (tokens)

theorem nats_text (ns : List Nat) (hn : ∀ n ∈ ns, n < 2 ^ 32) : tokens (wordsText (ns.map natText)) = ns.map natText ∧ 0 ∉ wordsText (ns.map natText) ∧ 13 ∉ wordsText (ns.map natText) ∧
    (wordsText (ns.map natText) = [] ∨ tokens (wordsText (ns.map natText)) ≠ []) := by
  have e : ns.map natText = (ns.map Int.ofNat).map FBld.decimalInt := by
    rw [List.map_map]
    refine List.map_congr_left fun n h => ?_
    show FBld.decimal (n % 2 ^ 32) = FBld.decimalInt (n : Int)
    rw [Nat.mod_eq_of_lt (hn n h), FBld.decimalInt, if_neg (by omega)]
    rfl
  rw [wordsText_eq, e]
  obtain ⟨h1, h2, h3⟩ := FConv.joined_ok (ns.map Int.ofNat)
  exact ⟨h3, h1, h2, FConv.joined_lead _⟩

theorem readNats (ns : List Nat) (hn : ∀ n ∈ ns, n < 2 ^ 32) (old : List Nat) : FConv.toList FConv.toUInt32 0 (wordsText (ns.map natText) ++ [0]) old = some ns := by
  obtain ⟨h1, h2, h3, h4⟩ := nats_text ns hn
  rw [(FConv.list_tokens_partial _ [] h2 h3 h4).1 old, h1, List.map_map]
  congr 1
  conv_rhs => rw [← List.map_id ns]
  refine List.map_congr_left fun n h => ?_
  show FConv.tokNat (natText n) % 2 ^ 32 = n
  rw [natText, FConv.tokNat_decimal, Nat.mod_mod, Nat.mod_eq_of_lt (hn n h)]

/-- Rows of numbers as they are read into columns. -/
theorem readRows (rows : List (List Nat)) (old : List (Option (List Nat))) (l0 : List Nat) (h1 : old.head? = some (some l0)) (hn0 : ∀ a ∈ old, ∀ l ∈ a, l.length = l0.length)
    (hr : ∀ r ∈ rows, r.length = old.length ∧ ∀ n ∈ r, n < 2 ^ 32) :
    FConv.toInterleaved FConv.toUInt32 0 (wordsText (rows.flatten.map natText) ++ [0]) old = some (old.mapIdx fun k a => a.map fun _ => rows.map fun r => r.getD k 0) := by
  have hn : ∀ n ∈ rows.flatten, n < 2 ^ 32 := fun n h => by
    obtain ⟨r, hr', hm⟩ := List.mem_flatten.1 h
    exact (hr r hr').2 n hm
  obtain ⟨t1, t2, t3, t4⟩ := nats_text _ hn
  have ho : old ≠ [] := by rintro rfl; simp at h1
  rw [FConv.interleaved_partial old l0 h1 hn0 (rows.map (·.map natText)) [] _ [] t2 t3 t4 (by rw [t1, List.map_flatten, List.append_nil])
    (by intro r h; obtain ⟨r', h', rfl⟩ := List.mem_map.1 h; rw [List.length_map]; exact (hr r' h').1) (List.length_pos_iff.2 ho) (by simp)]
  congr 1
  apply List.ext_getElem
  · simp
  intro i h2 h3
  simp only [List.getElem_mapIdx, List.map_map]
  congr 1
  funext _
  refine List.map_congr_left fun r h => ?_
  show FConv.tokNat ((r.map natText).getD i []) % 2 ^ 32 = r.getD i 0
  rcases Nat.lt_or_ge i r.length with hi | hi
  · rw [List.getD_eq_getElem?_getD, List.getD_eq_getElem?_getD, List.getElem?_map, List.getElem?_eq_getElem hi]
    show FConv.tokNat (natText r[i]) % 2 ^ 32 = r[i]
    rw [natText, FConv.tokNat_decimal, Nat.mod_mod, Nat.mod_eq_of_lt ((hr r h).2 _ (List.getElem_mem hi))]
  · rw [List.getD_eq_getElem?_getD, List.getD_eq_getElem?_getD, List.getElem?_map, List.getElem?_eq_none hi]
    decide

theorem words_dropLast : ∀ ws : List Text, (ws.flatMap fun w => w ++ [32]).dropLast = wordsText ws
  | [] => rfl
  | [a] => by simp [wordsText]
  | a :: b :: rest => by
    rw [wordsText, ← words_dropLast (b :: rest), List.flatMap_cons, List.dropLast_append_of_ne_nil (by simp)]
    simp

/-- The numbers of the corner at `i`. -/
def cornerRow (os : List (Option (List Nat))) (i : Nat) : List Nat := os.map fun o => (o.map fun l => l.getD i 0).getD 0

theorem cornerText_eq (os : List (Option (List Nat))) (i : Nat) (h : ∀ l, some l ∈ os → i < l.length) :
    cornerText os i = some (((cornerRow os i).map natText).flatMap fun w => w ++ [32]) := by
  unfold cornerText
  suffices h : os.mapM (columnText i) = some ((cornerRow os i).map fun v => natText v ++ [32]) by
    rw [h, List.flatMap_map]
    simp [List.flatMap_def]
  induction os with
  | nil => rfl
  | cons o os ih =>
    rw [List.mapM_cons, ih fun l hl => h l (List.mem_cons_of_mem _ hl)]
    cases o with
    | none =>
      have : text "0 " = natText 0 ++ [32] := by decide +kernel
      simp [columnText, cornerRow, this]
    | some l =>
      have hl := h l (List.mem_cons_self ..)
      simp [columnText, cornerRow, List.getElem?_eq_getElem hl]

theorem cornersText_eq (os : List (Option (List Nat))) : ∀ (n off : Nat), (∀ l, some l ∈ os → off + n ≤ l.length) →
    cornersText os off n = some ((((List.range' off n).map (cornerRow os)).flatten.map natText).flatMap fun w => w ++ [32])
  | 0, _, _ => rfl
  | n + 1, off, h => by
    have ih := cornersText_eq os n (off + 1) fun l hl => by have := h l hl; omega
    unfold cornersText at ih ⊢
    rw [List.range'_succ, List.mapM_cons, cornerText_eq os off fun l hl => by have := h l hl; omega]
    cases hm : (List.range' (off + 1) n).mapM (cornerText os) with
    | none => rw [hm] at ih; simp at ih
    | some ts =>
      rw [hm] at ih
      simp only [Option.map_some, Option.some.injEq] at ih
      simp only [Option.pure_def, Option.bind_eq_bind, Option.bind_some, Option.map_some, List.flatten_cons, List.map_cons, List.map_append, List.flatMap_append, ih]

end Verif.FArc
