import Verif.Builder

namespace Verif.FBld

open Verif.FStr (Ch)

/-- The builder holds the characters `l`. -/
def Holds (v : Bld) (l : List Ch) : Prop := ∃ junk, v.buf = l.map some ++ junk ∧ v.size = l.length

theorem holds_null : Holds Bld.null [] := ⟨[], rfl, rfl⟩

theorem Holds.size_le {v : Bld} {l} (h : Holds v l) : v.size ≤ v.reserved := by
  obtain ⟨j, h1, h2⟩ := h
  simp [Bld.reserved, h1, h2]

theorem reserve_holds {v : Bld} {l} (h : Holds v l) (n : Nat) : Holds (reserve v n) (l.take n) := by
  obtain ⟨j, h1, h2⟩ := h
  have hr : v.reserved = l.length + j.length := by simp [Bld.reserved, h1]
  unfold reserve
  split
  · rename_i hn
    rw [List.take_of_length_le (l := l) (by omega)]
    exact ⟨List.replicate (n - v.size) none, by rw [h1, h2, List.take_left' (by simp)], h2⟩
  · split
    · rename_i hn; subst hn; exact ⟨[], by simp, by simp⟩
    · split
      · refine ⟨List.replicate (n - min v.size n) none, ?_, by simp [h2, Nat.min_comm]⟩
        show _ ++ _ = _
        congr 1
        rw [h1, h2, List.take_append_of_le_length (by simp; omega), ← List.map_take]
        congr 1
        rw [Nat.min_comm, ← List.take_take, List.take_length]
      · rw [List.take_of_length_le (by omega)]
        exact ⟨j, h1, h2⟩

theorem reserved_reserve (v : Bld) (h : v.size ≤ v.reserved) (n : Nat) : (reserve v n).reserved = n := by
  unfold reserve
  split
  · simp [Bld.reserved] at *; omega
  · split
    · simp [Bld.reserved]; omega
    · split
      · simp [Bld.reserved] at *; omega
      · omega

theorem enlarge_holds {v : Bld} {l} (h : Holds v l) (n : Nat) : Holds (enlarge v n) l := by
  have := reserve_holds h (max (v.reserved + n + 32) (2 * v.reserved + 32))
  rw [List.take_of_length_le] at this
  · exact this
  · have := h.size_le; obtain ⟨_, _, h2⟩ := h; omega

theorem enlarge_room {v : Bld} {l} (h : Holds v l) (n : Nat) : l.length + n + 32 ≤ (enlarge v n).reserved := by
  unfold enlarge
  rw [reserved_reserve v h.size_le]
  have := h.size_le; obtain ⟨_, _, h2⟩ := h; omega

theorem put_holds {v : Bld} {l} (h : Holds v l) (hr : l.length < v.reserved) (c : Ch) :
    ∃ v', put v c = some v' ∧ Holds v' (l ++ [c]) := by
  obtain ⟨j, h1, h2⟩ := h
  have hj : j ≠ [] := by rintro rfl; simp [Bld.reserved, h1] at hr
  obtain ⟨x, j', rfl⟩ := List.exists_cons_of_ne_nil hj
  refine ⟨⟨l.map some ++ some c :: j', l.length + 1⟩, ?_, j', by simp, by simp⟩
  unfold put poke
  have : v.size < v.buf.length := by rw [h2]; exact hr
  rw [if_pos this, Option.map_some, h2, h1]
  simp

theorem appendChar_holds {v : Bld} {l} (h : Holds v l) (c : Ch) : ∃ v', appendChar v c = some v' ∧ Holds v' (l ++ [c]) := by
  unfold appendChar
  split
  · exact put_holds (enlarge_holds h 2) (by have := enlarge_room h 2; omega) c
  · exact put_holds h (by obtain ⟨_, _, h2⟩ := h; omega) c

theorem appendText_holds (mem : List Ch) : ∀ {v : Bld} {l}, Holds v l → 0 ∈ mem →
    ∃ v', appendText v mem = some v' ∧ Holds v' (l ++ mem.takeWhile (· ≠ 0)) := by
  induction mem with
  | nil => intro v l _ h; cases h
  | cons c rest ih =>
    intro v l h hz
    unfold appendText
    by_cases hc : c = 0
    · subst hc; exact ⟨v, by simp, by simpa using h⟩
    · rw [if_neg hc]
      have hz' : 0 ∈ rest := by
        rcases List.mem_cons.1 hz with e | e
        · exact absurd e.symm hc
        · exact e
      have hp : ∃ v', put (if v.size ≥ v.reserved then enlarge v 64 else v) c = some v' ∧ Holds v' (l ++ [c]) := by
        split
        · exact put_holds (enlarge_holds h 64) (by have := enlarge_room h 64; omega) c
        · exact put_holds h (by obtain ⟨_, _, h2⟩ := h; omega) c
      obtain ⟨v1, e1, h1⟩ := hp
      obtain ⟨v2, e2, h2⟩ := ih h1 hz'
      refine ⟨v2, by rw [e1, Option.bind_some, e2], ?_⟩
      rw [List.takeWhile_cons_of_pos (by simpa using hc)]
      simpa using h2

theorem blit_holds {v : Bld} {l} (h : Holds v l) (xs : List Ch) (hr : l.length + xs.length ≤ v.reserved) :
    ∃ b, blit v.buf v.size (xs.map some) = some b ∧ Holds ⟨b, v.size + xs.length⟩ (l ++ xs) := by
  obtain ⟨j, h1, h2⟩ := h
  refine ⟨(l ++ xs).map some ++ j.drop xs.length, ?_, j.drop xs.length, rfl, by simp [h2]⟩
  unfold blit
  rw [if_pos (by simpa [Bld.reserved, h2] using hr), h2, h1]
  have e1 : ((l.map some) ++ j).take l.length = l.map some := List.take_left' (by simp)
  rw [e1]
  simp [List.drop_append]

theorem appendLen_holds {v : Bld} {l} (h : Holds v l) (mem : List Ch) (len : Nat) (hm : len ≤ mem.length) :
    ∃ v', appendLen v mem len = some v' ∧ Holds v' (l ++ mem.take len) := by
  unfold appendLen
  rw [if_neg (by omega)]
  have hl : (mem.take len).length = len := by simp; omega
  have key : ∀ w : Bld, Holds w l → l.length + len ≤ w.reserved →
      ∃ v', ((blit w.buf w.size ((mem.take len).map some)).map fun b => (⟨b, w.size + len⟩ : Bld)) = some v' ∧
        Holds v' (l ++ mem.take len) := by
    intro w hw hr
    obtain ⟨b, e, hb⟩ := blit_holds hw (mem.take len) (by omega)
    rw [hl] at hb
    exact ⟨_, by rw [e]; rfl, hb⟩
  have h2 : v.size = l.length := by obtain ⟨_, _, h2⟩ := h; exact h2
  simp only
  split
  · exact key _ (enlarge_holds h _) (by have := enlarge_room h (max 64 (v.size + len + 1)); omega)
  · exact key _ h (by omega)

theorem growFor_holds {v : Bld} {l} (h : Holds v l) (n : Nat) : Holds (growFor v n) l := by
  unfold growFor; split
  · exact enlarge_holds h _
  · exact h

theorem growFor_room {v : Bld} {l} (h : Holds v l) (n : Nat) : l.length + n ≤ (growFor v n).reserved := by
  have h2 : v.size = l.length := by obtain ⟨_, _, h2⟩ := h; exact h2
  unfold growFor; split
  · rename_i hc
    have h3 := h.size_le
    unfold enlarge
    rw [reserved_reserve v h3]
    omega
  · omega

theorem take_holds {v : Bld} {l} (h : Holds v l) : v.buf.take v.size = l.map some := by
  obtain ⟨j, h1, h2⟩ := h
  rw [h1, h2, List.take_left' (by simp)]

theorem appendBld_holds {v b : Bld} {l m} (h : Holds v l) (hb : Holds b m) :
    ∃ v', appendBld v b = some v' ∧ Holds v' (l ++ m) := by
  have h2 : b.size = m.length := by obtain ⟨_, _, h2⟩ := hb; exact h2
  unfold appendBld
  rw [if_neg (by have := hb.size_le; simp only [Bld.reserved] at this; omega), take_holds hb]
  obtain ⟨x, e, hx⟩ := blit_holds (growFor_holds h b.size) m (by have := growFor_room h b.size; omega)
  rw [e]
  exact ⟨_, rfl, by rw [h2]; rw [h2] at hx; exact hx⟩

theorem appendSelf_holds {v : Bld} {l} (h : Holds v l) : ∃ v', appendSelf v = some v' ∧ Holds v' (l ++ l) := by
  have h2 : v.size = l.length := by obtain ⟨_, _, h2⟩ := h; exact h2
  have hg := growFor_holds h v.size
  have hs : (growFor v v.size).size = v.size := by obtain ⟨_, _, h3⟩ := hg; omega
  have ht : (growFor v v.size).buf.take v.size = l.map some := by
    have := take_holds hg; rwa [hs] at this
  unfold appendSelf
  rw [if_neg (by have := hg.size_le; simp only [Bld.reserved] at this; omega), ht]
  obtain ⟨x, e, hx⟩ := blit_holds hg l (by have := growFor_room h v.size; omega)
  rw [e]
  exact ⟨_, rfl, by rw [← h2] at hx; exact hx⟩

theorem digit_ne (n : Nat) : (0 : Int) ≠ 48 + n := by omega

theorem decimal_ne_zero (n : Nat) : 0 ∉ decimal n := by
  induction n using Nat.strongRecOn with
  | ind n ih =>
    unfold decimal
    split
    · rw [List.mem_singleton]; exact digit_ne n
    · rw [List.mem_append]
      rintro (h | h)
      · exact ih (n / 10) (by omega) h
      · exact digit_ne _ (List.mem_singleton.1 h)

theorem decimalInt_ne_zero (i : Int) : 0 ∉ decimalInt i := by
  unfold decimalInt
  split
  · intro h
    rcases List.mem_cons.1 h with e | e
    · exact absurd e (by decide)
    · exact decimal_ne_zero _ e
  · exact decimal_ne_zero _

theorem takeWhile_text (t : List Ch) (h : 0 ∉ t) (rest : List Ch) : (t ++ 0 :: rest).takeWhile (· ≠ 0) = t := by
  rw [List.takeWhile_append_of_pos]
  · simp
  · intro a ha; simp; rintro rfl; exact h ha

theorem appendTerm_holds {v : Bld} {l} (h : Holds v l) (t : List Ch) (ht : 0 ∉ t) :
    ∃ v', appendText v (t ++ [0]) = some v' ∧ Holds v' (l ++ t) := by
  have := appendText_holds (t ++ [0]) h (by simp)
  rwa [takeWhile_text t ht []] at this

theorem appendHex8_holds {v : Bld} {l} (h : Holds v l) (i : Nat) :
    ∃ v', appendHex8 v i = some v' ∧ Holds v' (l ++ [hexDigit (i / 16 % 16), hexDigit (i % 16)]) := by
  obtain ⟨v1, e1, h1⟩ := appendChar_holds h (hexDigit (i / 16 % 16))
  obtain ⟨v2, e2, h2⟩ := appendChar_holds h1 (hexDigit (i % 16))
  exact ⟨v2, by unfold appendHex8; rw [e1, Option.bind_some, e2], by simpa using h2⟩

/-- The bytes written by `appendHex<T>`. -/
def hexBytes (i : Nat) : Nat → List Ch
  | 0 => []
  | n + 1 => [hexDigit (i % 256 / 16 % 16), hexDigit (i % 256 % 16)] ++ hexBytes (i / 256) n

theorem appendHexT_holds (n : Nat) : ∀ {v : Bld} {l} (_ : Holds v l) (i : Nat),
    ∃ v', appendHexT v i n = some v' ∧ Holds v' (l ++ hexBytes i n) := by
  induction n with
  | zero => intro v l h i; exact ⟨v, rfl, by simpa [hexBytes] using h⟩
  | succ n ih =>
    intro v l h i
    obtain ⟨v1, e1, h1⟩ := appendHex8_holds h (i % 256)
    obtain ⟨v2, e2, h2⟩ := ih h1 (i / 256)
    exact ⟨v2, by unfold appendHexT; rw [e1, Option.bind_some, e2], by simpa [hexBytes] using h2⟩

theorem toInt32_small {n : Nat} (h : n < 2 ^ 31) : toInt32 n = n := by
  unfold toInt32; rw [Int.bmod_def]; omega

theorem prefix_holds {v : Bld} {l} (h : Holds v l) (n : Nat) (hn : n ≤ l.length) : Holds ⟨v.buf, n⟩ (l.take n) := by
  obtain ⟨j, h1, h2⟩ := h
  refine ⟨(l.drop n).map some ++ j, ?_, by simp; omega⟩
  rw [← List.append_assoc, ← List.map_append, List.take_append_drop]; exact h1

theorem slide_eq (C : List (Option Ch)) (diff : Nat) (hd : 0 < diff) : ∀ (B A D : List (Option Ch)),
    D.length = diff → (∀ x ∈ B, x ≠ none) →
    ∃ E, slide (A ++ D ++ B ++ C) A.length diff B.length = some (A ++ B ++ E) := by
  intro B
  induction B with
  | nil => intro A D _ _; exact ⟨D ++ C, by simp [slide]⟩
  | cons b B ih =>
    intro A D hD hB
    obtain ⟨d, D', rfl⟩ := List.exists_cons_of_ne_nil (l := D) (by rintro rfl; simp at hD; omega)
    have hb : b ≠ none := hB b (by simp)
    rw [List.length_cons]
    unfold slide
    rw [if_pos (by simp at hD ⊢; omega)]
    have hget : (A ++ d :: D' ++ b :: B ++ C)[A.length + diff]? = some b := by
      have : A.length + diff = (A ++ d :: D').length := by simp at hD ⊢; omega
      rw [this, List.append_assoc (A ++ d :: D'), List.getElem?_append_right (Nat.le_refl _)]
      simp
    rw [hget]
    have hset : (A ++ d :: D' ++ b :: B ++ C).set A.length b = (A ++ [b]) ++ (D' ++ [b]) ++ B ++ C := by
      simp
    rw [Option.join_some]
    rw [hset]
    obtain ⟨E, e⟩ := ih (A ++ [b]) (D' ++ [b]) (by simpa using hD) (fun x hx => hB x (by simp [hx]))
    refine ⟨E, ?_⟩
    rw [List.length_append] at e
    rw [show A.length + [b].length = A.length + 1 from rfl] at e
    rw [e]; simp

theorem removeRange_holds {v : Bld} {l} (h : Holds v l) (s e : Int) (hlen : l.length < 2 ^ 31)
    (h1 : -2 ^ 31 ≤ e - s) (h2 : e - s < 2 ^ 31) :
    ∃ v', removeRange v s e = some v' ∧
      Holds v' (if 0 ≤ s ∧ s < e ∧ e ≤ l.length then l.take s.toNat ++ l.drop e.toNat else l) := by
  have hsz : v.size = l.length := by obtain ⟨_, _, h2⟩ := h; exact h2
  unfold removeRange
  rw [if_neg (by omega), toInt32_small (by omega), hsz]
  by_cases hc : 0 ≤ s ∧ s < e ∧ e ≤ l.length
  · rw [if_pos (by omega), if_pos hc]
    obtain ⟨j, hb, _⟩ := h
    have hA : (l.take s.toNat).length = s.toNat := by simp; omega
    obtain ⟨E, eq⟩ := slide_eq j (e - s).toNat (by omega) ((l.drop e.toNat).map some) ((l.take s.toNat).map some)
      (((l.drop s.toNat).take (e - s).toNat).map some) (by simp; omega)
      (by intro x hx; obtain ⟨y, _, rfl⟩ := List.mem_map.1 hx; simp)
    have hcat : (l.take s.toNat).map some ++ ((l.drop s.toNat).take (e - s).toNat).map some ++ (l.drop e.toNat).map some = l.map some := by
      rw [← List.map_append, ← List.map_append]
      congr 1
      have : l.drop e.toNat = (l.drop s.toNat).drop (e - s).toNat := by rw [List.drop_drop]; congr 1; omega
      rw [this, List.append_assoc, List.take_append_drop, List.take_append_drop]
    rw [hcat, ← hb] at eq
    have hn : l.length - (e - s).toNat - s.toNat = ((l.drop e.toNat).map some).length := by simp; omega
    rw [List.length_map, hA] at eq
    rw [hn, eq]
    exact ⟨_, rfl, E, by simp, by simp; omega⟩
  · rw [if_neg (by omega), if_neg hc]
    exact ⟨v, rfl, h⟩

theorem fill_holds (c : Ch) (n : Nat) : ∀ {v : Bld} {l}, Holds v l → l.length + n ≤ v.reserved →
    ∃ v', fill v c n = some v' ∧ Holds v' (l ++ List.replicate n c) := by
  induction n with
  | zero => intro v l h _; exact ⟨v, rfl, by simpa using h⟩
  | succ n ih =>
    intro v l h hr
    obtain ⟨v1, e1, h1⟩ := put_holds h (by omega) c
    have hr1 : v1.reserved = v.reserved := by
      unfold put poke at e1
      split at e1
      · simp at e1; rw [← e1]; simp [Bld.reserved]
      · simp at e1
    obtain ⟨v2, e2, h2⟩ := ih h1 (by simp; omega)
    exact ⟨v2, by unfold fill; rw [e1, Option.bind_some, e2], by simpa [List.replicate_succ] using h2⟩

theorem textAt_of (t : List Ch) (ht : 0 ∉ t) (rest : List (Option Ch)) : textAt (t.map some ++ some 0 :: rest) = some t := by
  induction t with
  | nil => simp [textAt]
  | cons c t ih =>
    have hc : c ≠ 0 := by rintro rfl; simp at ht
    have ht' : 0 ∉ t := fun h => ht (by simp [h])
    simp [textAt, hc, ih ht']

theorem toCharPtr_holds {v : Bld} {l} (h : Holds v l) :
    ∃ v' junk, toCharPtr v = some v' ∧ v'.buf = l.map some ++ some 0 :: junk ∧ v'.size = l.length := by
  have hsz : v.size = l.length := by obtain ⟨_, _, h2⟩ := h; exact h2
  have key : ∀ w : Bld, Holds w l → l.length < w.reserved →
      ∃ b junk, poke w.buf v.size 0 = some b ∧ b = l.map some ++ some 0 :: junk := by
    intro w hw hr
    obtain ⟨j, h1, h2⟩ := hw
    have hj : j ≠ [] := by rintro rfl; simp [Bld.reserved, h1] at hr
    obtain ⟨x, j', rfl⟩ := List.exists_cons_of_ne_nil hj
    refine ⟨_, j', ?_, rfl⟩
    unfold poke
    rw [if_pos (by rw [hsz]; exact hr), hsz, h1]
    simp
  have : ∃ b junk, poke (if v.size + 1 > v.reserved then enlarge v 1 else v).buf v.size 0 = some b ∧
      b = l.map some ++ some 0 :: junk := by
    split
    · exact key _ (enlarge_holds h 1) (by have := enlarge_room h 1; omega)
    · exact key _ h (by omega)
  obtain ⟨b, junk, e, hb⟩ := this
  exact ⟨⟨b, v.size⟩, junk, by unfold toCharPtr; rw [e]; rfl, hb, hsz⟩

theorem indexLoop_eq (c : Ch) (j : List (Option Ch)) : ∀ (l A : List Ch) (k : Nat), c ∈ l → l.length ≤ k →
    indexLoop ((A ++ l).map some ++ j) c A.length k = some ((A.length + l.idxOf c : Nat) : Int) := by
  intro l
  induction l with
  | nil => intro A k h _; cases h
  | cons x l ih =>
    intro A k h hk
    obtain ⟨k, rfl⟩ : ∃ m, k = m + 1 := ⟨k - 1, by simp at hk; omega⟩
    unfold indexLoop
    have hp : peek ((A ++ x :: l).map some ++ j) A.length = some x := by simp [peek]
    rw [hp, Option.bind_some]
    by_cases hx : x = c
    · rw [if_pos hx, List.idxOf_cons]; simp [hx]
    · rw [if_neg hx]
      have hc : c ∈ l := by
        rcases List.mem_cons.1 h with e | e
        · exact absurd e.symm hx
        · exact e
      have := ih (A ++ [x]) k hc (by simp at hk; omega)
      rw [List.length_append, List.append_assoc] at this
      rw [show [x].length = 1 from rfl, List.singleton_append] at this
      rw [this, List.idxOf_cons, beq_false_of_ne hx, cond_false]
      congr 2; omega

end Verif.FBld
