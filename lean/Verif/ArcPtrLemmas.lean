import Verif.ArcPtrSpec
import Verif.ArcLemmas

/-! Lemmas for `ArcPtrProps.lean`. -/

namespace Verif.FArc

open Verif.FEff (Text text)

theorem appendSid_ne {t u : Text} {n : Node} (ht : t ≠ []) (h : appendSid t n = some u) : u ≠ [] := by
  unfold appendSid at h
  obtain ⟨s, -, rfl⟩ := Option.map_eq_some_iff.1 h
  split
  · exact ht
  · simp

theorem appendSids_ne : ∀ {ns : List Node} {t u : Text}, t ≠ [] → ns.foldlM appendSid t = some u → u ≠ []
  | [], t, u, ht, h => by obtain rfl := Option.some.inj h; exact ht
  | n :: ns, t, u, ht, h => by
    rw [List.foldlM_cons] at h
    obtain ⟨v, h1, h2⟩ := Option.bind_eq_some_iff.1 h
    exact appendSids_ne (appendSid_ne ht h1) h2

theorem build_one (n : Node) : buildPointer [n] = prop (some n) (text "id") := by
  unfold buildPointer
  show (prop (some n) (text "id")).bind (fun i => if i = [] then some [] else some i) = _
  cases prop (some n) (text "id") with
  | none => rfl
  | some i =>
    rw [Option.bind_some]
    split
    · rename_i h; rw [h]
    · rfl

theorem build_cons (n m : Node) (l : List Node) : buildPointer (n :: m :: l) = (buildPointer (m :: l)).bind fun t => if t = [] then some [] else appendSid t n := by
  unfold buildPointer
  rw [List.getLast?_cons_cons, List.dropLast_cons_cons, List.reverse_cons]
  cases prop (m :: l).getLast? (text "id") with
  | none => rfl
  | some i =>
    rw [Option.bind_some, Option.bind_some]
    by_cases hi : i = []
    · rw [if_pos hi, if_pos hi, Option.bind_some, if_pos rfl]
    · rw [if_neg hi, if_neg hi, List.foldlM_append]
      cases h : (m :: l).dropLast.reverse.foldlM appendSid i with
      | none => rfl
      | some u =>
        rw [Option.bind_some, if_neg (appendSids_ne hi h)]
        show (appendSid u n).bind (fun v => some v) = _
        cases appendSid u n <;> rfl

/-- The address that is built from an element on. -/
def fullPtr (n : Node) (up : List Node) : Option Text := buildPointer (climb (n :: up))

theorem full_id {n : Node} {up : List Node} (h : n.has (text "id") = true) : fullPtr n up = prop (some n) (text "id") := by
  unfold fullPtr climb
  rw [if_pos h, build_one]

theorem full_step {n m : Node} {up : List Node} (h : n.has (text "id") = false) : fullPtr n (m :: up) = (fullPtr m up).bind fun t => if t = [] then some [] else appendSid t n := by
  unfold fullPtr
  rw [climb, h]
  simp only [Bool.false_eq_true, if_false]
  rw [climb, build_cons]

theorem target_full (n : Node) (up : List Node) : targetPointer n up = if n.has (text "id") || n.has (text "sid") then fullPtr n up else some [] := by
  unfold targetPointer
  cases h : n.has (text "id") with
  | true => rw [if_pos rfl, full_id h]; rfl
  | false =>
    cases h' : n.has (text "sid") with
    | true =>
      simp only [Bool.false_eq_true, if_false, if_true, Bool.or_true]
      unfold fullPtr
      rw [climb, h]
      rfl
    | false => rfl

theorem parents_snoc (i : Nat) : ∀ (p : List Nat) (n : Node) (up : List Node), parentsAt n up (p ++ [i]) = (parentsAt n up p).bind fun x => x.1.kids[i]?.map fun k => (k, x.1 :: x.2)
  | [], n, up => by
    show (n.kids[i]?.bind fun k => some (k, n :: up)) = n.kids[i]?.map fun k => (k, n :: up)
    cases n.kids[i]? <;> rfl
  | j :: p, n, up => by
    show (n.kids[j]?.bind fun k => parentsAt k (n :: up) (p ++ [i])) = (n.kids[j]?.bind fun k => parentsAt k (n :: up) p).bind _
    cases n.kids[j]? with
    | none => rfl
    | some k => exact parents_snoc i p k (n :: up)

theorem node_parents : ∀ (p : List Nat) (n : Node) (up : List Node), nodeAt n p = (parentsAt n up p).map (·.1)
  | [], _, _ => rfl
  | j :: p, n, up => by
    show (n.kids[j]?.bind fun k => nodeAt k p) = (n.kids[j]?.bind fun k => parentsAt k (n :: up) p).map _
    cases n.kids[j]? with
    | none => rfl
    | some k => exact node_parents p k (n :: up)

/-- The address that is built from the element at a place on. -/
def fullAt (root : Node) (p : List Nat) : Option Text := (parentsAt root [docNode] p).bind fun x => fullPtr x.1 x.2

theorem at_parents {root n : Node} {p : List Nat} (h : nodeAt root p = some n) : ∃ up, parentsAt root [docNode] p = some (n, up) := by
  rw [node_parents p root [docNode]] at h
  obtain ⟨⟨m, up⟩, h1, h2⟩ := Option.map_eq_some_iff.1 h
  exact ⟨up, by rw [h1, ← h2]⟩

theorem fullAt_id {root : Node} {p : List Nat} {i : Text} (h : IdAt root p i) : fullAt root p = some i := by
  obtain ⟨n, h1, h2, h3, -⟩ := h
  obtain ⟨up, hu⟩ := at_parents h1
  unfold fullAt
  rw [hu, Option.bind_some, full_id h2, h3]

theorem fullAt_root {root : Node} (h : root.has (text "id") = false) : fullAt root [] = some [] := by
  unfold fullAt
  show fullPtr root [docNode] = some []
  rw [full_step h, show fullPtr docNode [] = some [] from rfl]
  rfl

theorem fullAt_step {root n : Node} {p : List Nat} {i : Nat} (hn : nodeAt root (p ++ [i]) = some n) (h : n.has (text "id") = false) :
    fullAt root (p ++ [i]) = (fullAt root p).bind fun t => if t = [] then some [] else appendSid t n := by
  obtain ⟨up, hu⟩ := at_parents hn
  have hs := hu
  rw [parents_snoc] at hs
  obtain ⟨⟨m, up'⟩, h1, h2⟩ := Option.bind_eq_some_iff.1 hs
  obtain ⟨k, -, h3⟩ := Option.map_eq_some_iff.1 h2
  obtain ⟨rfl, rfl⟩ := Prod.mk.inj h3
  unfold fullAt
  rw [hu, h1, Option.bind_some, Option.bind_some, full_step h]

theorem fullAt_sid {root : Node} {p : List Nat} {i : Nat} {s t : Text} (h : SidAt root (p ++ [i]) s) (ht : fullAt root p = some t) (h0 : t ≠ []) :
    fullAt root (p ++ [i]) = some (if s = [] then t else t ++ 47 :: s) := by
  obtain ⟨n, h1, h2, h3⟩ := h
  rw [fullAt_step h1 h2, ht, Option.bind_some, if_neg h0]
  unfold appendSid
  rw [h3, Option.map_some]

theorem fullAt_skip {root : Node} {p : List Nat} {t : Text} (ht : fullAt root p = some t) (h0 : t ≠ []) (w : List Nat) : (∀ v, v ≠ [] → v <+: w → SidAt root (p ++ v) []) → fullAt root (p ++ w) = some t := by
  induction w using List.reverseRecOn with
  | nil => intro _; rwa [List.append_nil]
  | append_singleton w i ih =>
    intro h
    have a := ih fun v hv hw => h v hv (hw.trans (List.prefix_append _ _))
    rw [← List.append_assoc]
    have b := h (w ++ [i]) (by simp) List.prefix_rfl
    rw [← List.append_assoc] at b
    rw [fullAt_sid b a h0, if_pos rfl]

theorem fullAt_below {root : Node} {p q : List Nat} {s t : Text} (h : Below root p q s) (ht : fullAt root p = some t) (h0 : t ≠ []) : fullAt root q = some (t ++ 47 :: s) := by
  obtain ⟨w, hw, rfl, h1, h2, h3⟩ := h
  rcases List.eq_nil_or_concat w with rfl | ⟨w, i, rfl⟩
  · exact absurd rfl hw
  · rw [List.concat_eq_append] at *
    have a := fullAt_skip ht h0 w fun v hv hv' => h3 v hv (hv'.trans (List.prefix_append _ _)) (by
      rintro rfl
      have := hv'.length_le
      simp at this)
    rw [← List.append_assoc] at h1 ⊢
    rw [fullAt_sid h1 a h0, if_neg h2]

theorem named_ne {root : Node} {p : List Nat} {cs : List Text} (h : Named root p cs) : cs ≠ [] := by
  cases h <;> simp

theorem pathText_snoc (s : Text) : ∀ {cs : List Text}, cs ≠ [] → pathText (cs ++ [s]) = pathText cs ++ 47 :: s
  | [c], _ => rfl
  | c :: d :: cs, _ => by
    show c ++ 47 :: pathText ((d :: cs) ++ [s]) = (c ++ 47 :: pathText (d :: cs)) ++ 47 :: s
    rw [pathText_snoc s (by simp)]
    simp

theorem pathText_ne {root : Node} {p : List Nat} {cs : List Text} (h : Named root p cs) : pathText cs ≠ [] := by
  induction h with
  | id h => obtain ⟨n, -, -, -, h⟩ := h; exact h
  | sid h1 h2 ih => rw [pathText_snoc _ (named_ne h1)]; simp

theorem full_named {root : Node} {p : List Nat} {cs : List Text} (h : Named root p cs) : fullAt root p = some (pathText cs) := by
  induction h with
  | id h => exact fullAt_id h
  | sid h1 h2 ih => rw [fullAt_below h2 ih (pathText_ne h1), pathText_snoc _ (named_ne h1)]

theorem pointerAt_full {root n : Node} {p : List Nat} (hn : nodeAt root p = some n) (h : (n.has (text "id") || n.has (text "sid")) = true) : pointerAt root p = fullAt root p := by
  obtain ⟨up, hu⟩ := at_parents hn
  unfold pointerAt fullAt
  rw [hu, Option.bind_some, Option.bind_some, target_full, if_pos h]

theorem has_of_prop {n : Node} {a s : Text} (h : prop (some n) a = some s) (h0 : s ≠ []) : n.has a = true := by
  unfold prop at h
  unfold Node.has
  rw [Option.bind_some] at h
  cases hr : n.raw a with
  | none => rw [hr] at h; exact absurd (Option.some.inj h).symm h0
  | some t => rfl

theorem named_has {root : Node} {p : List Nat} {cs : List Text} (h : Named root p cs) : ∃ n, nodeAt root p = some n ∧ (n.has (text "id") || n.has (text "sid")) = true := by
  cases h with
  | id h => obtain ⟨n, h1, h2, -⟩ := h; exact ⟨n, h1, by rw [h2]; rfl⟩
  | sid h1 h2 =>
    obtain ⟨w, -, -, ⟨n, h3, -, h4⟩, h5, -⟩ := h2
    exact ⟨n, h3, by rw [has_of_prop h4 h5, Bool.or_true]⟩

/-- Every address built is that of the nearest element with a name. -/
theorem full_back {root : Node} (p : List Nat) : ∀ t, fullAt root p = some t → t ≠ [] →
    ∃ p0 cs w, p = p0 ++ w ∧ Named root p0 cs ∧ t = pathText cs ∧ ∀ v, v ≠ [] → v <+: w → SidAt root (p0 ++ v) [] := by
  induction p using List.reverseRecOn with
  | nil =>
    intro t h h0
    cases hr : root.has (text "id") with
    | false => rw [fullAt_root hr] at h; exact absurd (Option.some.inj h).symm h0
    | true =>
      have : fullAt root [] = prop (some root) (text "id") := full_id hr
      rw [this] at h
      exact ⟨[], [t], [], rfl, Named.id ⟨root, rfl, hr, h, h0⟩, rfl, fun v hv hp => absurd (List.prefix_nil.1 hp) hv⟩
  | append_singleton p i ih =>
    intro t h h0
    have hx : ∃ n, nodeAt root (p ++ [i]) = some n := by
      unfold fullAt at h
      obtain ⟨x, h1, -⟩ := Option.bind_eq_some_iff.1 h
      exact ⟨x.1, by rw [node_parents _ _ [docNode], h1]; rfl⟩
    obtain ⟨n, hn⟩ := hx
    cases hi : n.has (text "id") with
    | true =>
      obtain ⟨up, hu⟩ := at_parents hn
      unfold fullAt at h
      rw [hu, Option.bind_some, full_id hi] at h
      exact ⟨p ++ [i], [t], [], (List.append_nil _).symm, Named.id ⟨n, hn, hi, h, h0⟩, rfl, fun v hv hp => absurd (List.prefix_nil.1 hp) hv⟩
    | false =>
      rw [fullAt_step hn hi] at h
      obtain ⟨t0, h1, h2⟩ := Option.bind_eq_some_iff.1 h
      by_cases ht0 : t0 = []
      · rw [if_pos ht0] at h2
        exact absurd (Option.some.inj h2).symm h0
      · rw [if_neg ht0] at h2
        obtain ⟨p0, cs, w, rfl, hc, rfl, hw⟩ := ih t0 h1 ht0
        unfold appendSid at h2
        obtain ⟨s, h3, h4⟩ := Option.map_eq_some_iff.1 h2
        have hs : SidAt root (p0 ++ w ++ [i]) s := ⟨n, hn, hi, h3⟩
        have hpre : ∀ v, v <+: w ++ [i] → v ≠ w ++ [i] → v <+: w := by
          intro v hv hne
          rcases List.prefix_concat_iff.1 hv with e | e
          · exact absurd e hne
          · exact e
        by_cases hse : s = []
        · subst hse
          rw [if_pos rfl] at h4
          refine ⟨p0, cs, w ++ [i], by rw [List.append_assoc], hc, h4.symm, fun v hv hp => ?_⟩
          by_cases he : v = w ++ [i]
          · rw [he, ← List.append_assoc]; exact hs
          · exact hw v hv (hpre v hp he)
        · rw [if_neg hse] at h4
          refine ⟨p0 ++ w ++ [i], cs ++ [s], [], (List.append_nil _).symm, Named.sid hc ⟨w ++ [i], by simp, by rw [List.append_assoc], hs, hse, fun v hv hp hne => hw v hv (hpre v hp hne)⟩, ?_, fun v hv hp => absurd (List.prefix_nil.1 hp) hv⟩
          rw [pathText_snoc _ (named_ne hc), h4]

theorem named_unique {root : Node} (hd : NamesDiffer root) {p : List Nat} {cs : List Text} (h : Named root p cs) : ∀ {q : List Nat}, Named root q cs → p = q := by
  induction h with
  | @id p i h =>
    intro q hq
    generalize he : [i] = ds at hq
    cases hq with
    | id h' => cases he; exact hd.1 _ _ _ h h'
    | sid h1 h2 =>
      rename_i cs' s
      exfalso
      have := congrArg List.length he
      have hl := List.length_pos_of_ne_nil (named_ne h1)
      rw [List.length_append, List.length_singleton, List.length_singleton] at this
      omega
  | @sid p q cs s h1 h2 ih =>
    intro r hr
    generalize he : cs ++ [s] = ds at hr
    cases hr with
    | id h' =>
      exfalso
      have := congrArg List.length he
      have hl := List.length_pos_of_ne_nil (named_ne h1)
      rw [List.length_append, List.length_singleton, List.length_singleton] at this
      omega
    | sid h3 h4 =>
      obtain ⟨rfl, e⟩ := List.append_inj' he rfl
      cases e
      have := ih h3
      subst this
      exact hd.2 _ _ _ _ h2 h4

theorem named_noSlash {root : Node} (hs : NoSlash root) {p : List Nat} {cs : List Text} (h : Named root p cs) : ∀ c ∈ cs, (47 : Int) ∉ c := by
  induction h with
  | id h => intro c hc; rw [List.mem_singleton.1 hc]; exact hs.1 _ _ h
  | sid h1 h2 ih =>
    intro c hc
    rcases List.mem_append.1 hc with hc | hc
    · exact ih c hc
    · rw [List.mem_singleton.1 hc]
      obtain ⟨w, -, -, h3, -⟩ := h2
      exact hs.2 _ _ h3

theorem cut_inj : ∀ {c d x y : Text}, (47 : Int) ∉ c → (47 : Int) ∉ d → c ++ 47 :: x = d ++ 47 :: y → c = d ∧ x = y
  | [], [], x, y, _, _, h => ⟨rfl, (List.cons.inj h).2⟩
  | [], e :: d, x, y, _, h2, h => absurd (by rw [(List.cons.inj h).1]; exact List.mem_cons_self ..) h2
  | e :: c, [], x, y, h1, _, h => absurd (by rw [← (List.cons.inj h).1]; exact List.mem_cons_self ..) h1
  | a :: c, b :: d, x, y, h1, h2, h => by
    obtain ⟨e, h⟩ := List.cons.inj h
    obtain ⟨h3, h4⟩ := cut_inj (fun m => h1 (List.mem_cons_of_mem _ m)) (fun m => h2 (List.mem_cons_of_mem _ m)) h
    exact ⟨by rw [e, h3], h4⟩

theorem pathText_inj : ∀ {cs ds : List Text}, cs ≠ [] → ds ≠ [] → (∀ c ∈ cs, (47 : Int) ∉ c) → (∀ d ∈ ds, (47 : Int) ∉ d) → pathText cs = pathText ds → cs = ds
  | [c], [d], _, _, _, _, h => by rw [show c = d from h]
  | [c], d :: e :: ds, _, _, h1, _, h => by
    exfalso
    apply h1 c (List.mem_cons_self ..)
    rw [show c = d ++ 47 :: pathText (e :: ds) from h]
    simp
  | c :: e :: cs, [d], _, _, _, h2, h => by
    exfalso
    apply h2 d (List.mem_cons_self ..)
    rw [← show c ++ 47 :: pathText (e :: cs) = d from h]
    simp
  | c :: e :: cs, d :: f :: ds, _, _, h1, h2, h => by
    obtain ⟨h3, h4⟩ := cut_inj (h1 c (List.mem_cons_self ..)) (h2 d (List.mem_cons_self ..)) (show c ++ 47 :: pathText (e :: cs) = d ++ 47 :: pathText (f :: ds) from h)
    rw [h3, pathText_inj (by simp) (by simp) (fun x hx => h1 x (List.mem_cons_of_mem _ hx)) (fun x hx => h2 x (List.mem_cons_of_mem _ hx)) h4]

end Verif.FArc
