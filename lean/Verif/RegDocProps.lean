import Verif.RegDocSpec

/-!
# C191: placeholders are linked to the documents that are open
-/

namespace Verif.FReg

variable {U : Type} [DecidableEq U]

theorem offer_url (url : U) (d : Nat) (p : Holder U) : (offer url d p).url = p.url := by
  unfold offer loadTarget
  split
  · split <;> rfl
  · rfl

theorem offer_kept {url : U} {d : Nat} {p : Holder U} (h : p.target ≠ none) : offer url d p = p := by
  unfold offer loadTarget
  rw [if_neg h, ite_self]

theorem offer_target {url : U} {d : Nat} {p : Holder U} {t : Nat} (h : (offer url d p).target = some t) : p.target = some t ∨ (p.url = url ∧ t = d) := by
  unfold offer loadTarget at h
  split at h
  · next e =>
    split at h
    · exact .inr ⟨e, (Option.some.inj h).symm⟩
    · exact .inl h
  · exact .inl h

theorem offer_filled {url : U} {d : Nat} {p : Holder U} (h : p.url = url) : (offer url d p).target ≠ none := by
  unfold offer loadTarget
  rw [if_pos h]
  split
  · simp
  · next h => exact h

theorem fold_url : ∀ (xs : List (Doc U × Nat)) (p : Holder U), (xs.foldl (fun p x => offer x.1.url x.2 p) p).url = p.url
  | [], _ => rfl
  | x :: xs, p => by rw [List.foldl_cons, fold_url xs, offer_url]

theorem fold_kept : ∀ (xs : List (Doc U × Nat)) (p : Holder U), p.target ≠ none → xs.foldl (fun p x => offer x.1.url x.2 p) p = p
  | [], _, _ => rfl
  | x :: xs, p, h => by rw [List.foldl_cons, offer_kept h, fold_kept xs p h]

theorem fold_target : ∀ (xs : List (Doc U × Nat)) (p : Holder U) (t : Nat), (xs.foldl (fun p x => offer x.1.url x.2 p) p).target = some t → p.target = some t ∨ ∃ x ∈ xs, x.1.url = p.url ∧ x.2 = t
  | [], _, _, h => .inl h
  | x :: xs, p, t, h => by
    rw [List.foldl_cons] at h
    rcases fold_target xs _ t h with h | ⟨y, hy, e, et⟩
    · rcases offer_target h with h | ⟨e, et⟩
      · exact .inl h
      · exact .inr ⟨x, List.mem_cons_self, e.symm, et.symm⟩
    · exact .inr ⟨y, List.mem_cons_of_mem x hy, by rw [e, offer_url], et⟩

theorem fold_filled : ∀ (xs : List (Doc U × Nat)) (p : Holder U), (∃ x ∈ xs, p.url = x.1.url) → (xs.foldl (fun p x => offer x.1.url x.2 p) p).target ≠ none
  | x :: xs, p, ⟨y, hy, e⟩ => by
    rw [List.foldl_cons]
    by_cases hx : p.url = x.1.url
    · rw [fold_kept xs _ (offer_filled hx)]
      exact offer_filled hx
    · rcases List.mem_cons.1 hy with rfl | hy
      · exact absurd e hx
      · exact fold_filled xs _ ⟨y, hy, by rw [offer_url]; exact e⟩

theorem register_get (docs : List (Doc U)) (d : Nat) (url : U) (i : Nat) :
    (register docs d url)[i]? = docs[i]?.map fun a => if i = d then { a with holders := a.holders.map (offerAll docs) } else { a with holders := a.holders.map (offer url d) } := by
  unfold register
  rw [List.getElem?_map, List.getElem?_zipIdx]
  cases docs[i]? with
  | none => rfl
  | some a => simp

theorem register_url (docs : List (Doc U)) (d : Nat) (url : U) (i : Nat) : (register docs d url)[i]?.map (·.url) = docs[i]?.map (·.url) := by
  rw [register_get]
  cases docs[i]? with
  | none => rfl
  | some a =>
    simp only [Option.map_some]
    split <;> rfl

theorem register_mem {docs : List (Doc U)} {d : Nat} {url : U} {a : Doc U} (h : a ∈ register docs d url) :
    ∃ i b, docs[i]? = some b ∧ a.url = b.url ∧ ((i = d ∧ a.holders = b.holders.map (offerAll docs)) ∨ (i ≠ d ∧ a.holders = b.holders.map (offer url d))) := by
  obtain ⟨i, hi⟩ := List.mem_iff_getElem?.1 h
  rw [register_get] at hi
  obtain ⟨b, hb, rfl⟩ := Option.map_eq_some_iff.1 hi
  refine ⟨i, b, hb, ?_, ?_⟩
  · split <;> rfl
  · by_cases hid : i = d
    · exact .inl ⟨hid, by rw [if_pos hid]⟩
    · exact .inr ⟨hid, by rw [if_neg hid]⟩

/-- **C191.** A document that a placeholder has is kept when another one is opened; only placeholders without one change, and no url. -/
theorem open_keeps (docs : List (Doc U)) (n : Doc U) (i : Nat) (a : Doc U) (ha : docs[i]? = some a) :
    ∃ b, (openDoc docs n)[i]? = some b ∧ b.url = a.url ∧ b.holders.length = a.holders.length ∧ ∀ (j : Nat) (p q : Holder U), a.holders[j]? = some p → b.holders[j]? = some q → Filled p q := by
  have hi : i < docs.length := (List.getElem?_eq_some_iff.1 ha).1
  unfold openDoc
  rw [register_get, List.getElem?_append_left hi, ha, Option.map_some, if_neg (Nat.ne_of_lt hi)]
  refine ⟨_, rfl, rfl, List.length_map _, ?_⟩
  · intro j p q hp hq
    simp only [List.getElem?_map, hp, Option.map_some, Option.some.injEq] at hq
    subst hq
    refine ⟨offer_url _ _ _, ?_⟩
    by_cases h : p.target = none
    · exact .inr h
    · exact .inl (offer_kept h)

/-- **C191.** When a document is opened, all placeholders for open documents have one, if this was so before. -/
theorem open_linked (docs : List (Doc U)) (n : Doc U) (h : Linked docs) : Linked (openDoc docs n) := by
  intro a ha p hp b hb e
  obtain ⟨i, a', ga, ua, hha⟩ := register_mem ha
  obtain ⟨j, b', gb, ub, -⟩ := register_mem hb
  rw [ub] at e
  rcases hha with ⟨rfl, hh⟩ | ⟨hi, hh⟩
  · rw [hh] at hp
    obtain ⟨q, hq, rfl⟩ := List.mem_map.1 hp
    unfold offerAll at e ⊢
    rw [fold_url] at e
    exact fold_filled _ q ⟨(b', j), List.mem_zipIdx_iff_getElem?.2 gb, e⟩
  · rw [hh] at hp
    obtain ⟨q, hq, rfl⟩ := List.mem_map.1 hp
    rw [offer_url] at e
    have hlt : i < (docs ++ [n]).length := (List.getElem?_eq_some_iff.1 ga).1
    rw [List.length_append, List.length_singleton] at hlt
    have hi' : i < docs.length := by omega
    rw [List.getElem?_append_left hi'] at ga
    by_cases hj : j < docs.length
    · rw [List.getElem?_append_left hj] at gb
      have := h a' (List.mem_of_getElem? ga) q hq b' (List.mem_of_getElem? gb) e
      rw [offer_kept this]
      exact this
    · rw [List.getElem?_append_right (Nat.le_of_not_lt hj)] at gb
      have hbn : b' = n := by simpa using List.mem_of_getElem? gb
      rw [hbn] at e
      exact offer_filled e

/-- **C191.** The documents that placeholders have are those of the file that they stand for. A new document has placeholders without documents. -/
theorem open_right (docs : List (Doc U)) (n : Doc U) (h : Right docs) (hn : ∀ p ∈ n.holders, p.target = none) : Right (openDoc docs n) := by
  intro a ha p hp t ht
  unfold openDoc
  rw [register_url]
  obtain ⟨i, a', ga, ua, hha⟩ := register_mem ha
  have hlt : i < (docs ++ [n]).length := (List.getElem?_eq_some_iff.1 ga).1
  rw [List.length_append, List.length_singleton] at hlt
  have old : ∀ (q : Holder U), q ∈ a'.holders → q.target = some t → ((docs ++ [n])[t]?).map (·.url) = some q.url := by
    intro q hq e
    by_cases hi : i < docs.length
    · rw [List.getElem?_append_left hi] at ga
      have := h a' (List.mem_of_getElem? ga) q hq t e
      have htl : t < docs.length := by
        refine Nat.lt_of_not_le fun hc => ?_
        rw [List.getElem?_eq_none hc] at this
        cases this
      rw [List.getElem?_append_left htl]
      exact this
    · rw [List.getElem?_append_right (Nat.le_of_not_lt hi)] at ga
      have hbn : a' = n := by simpa using List.mem_of_getElem? ga
      rw [hbn] at hq
      rw [hn q hq] at e
      cases e
  rcases hha with ⟨rfl, hh⟩ | ⟨hi, hh⟩
  · rw [hh] at hp
    obtain ⟨q, hq, rfl⟩ := List.mem_map.1 hp
    unfold offerAll at ht ⊢
    rw [fold_url]
    rcases fold_target _ q t ht with e | ⟨x, hx, e, rfl⟩
    · exact old q hq e
    · rw [List.mem_zipIdx_iff_getElem?.1 hx]
      exact congrArg some e
  · rw [hh] at hp
    obtain ⟨q, hq, rfl⟩ := List.mem_map.1 hp
    rw [offer_url]
    rcases offer_target ht with e | ⟨e, rfl⟩
    · exact old q hq e
    · rw [List.getElem?_append_right (Nat.le_refl _), Nat.sub_self, e]
      rfl

/-- **C191, partial.** After opening any top documents one after the other, each placeholder for the file of an open document has a document with this url. Missing: documents that are not top documents (`all_documents_violated`). -/
theorem all_linked_partial (ns : List (Doc U)) (hn : ∀ n ∈ ns, ∀ p ∈ n.holders, p.target = none) : Linked (ns.foldl openDoc []) ∧ Right (ns.foldl openDoc []) := by
  have go : ∀ (ns : List (Doc U)) (docs : List (Doc U)), (∀ n ∈ ns, ∀ p ∈ n.holders, p.target = none) → Linked docs → Right docs → Linked (ns.foldl openDoc docs) ∧ Right (ns.foldl openDoc docs) := by
    intro ns
    induction ns with
    | nil => intro docs _ h1 h2; exact ⟨h1, h2⟩
    | cons n ns ih =>
      intro docs hn h1 h2
      exact ih _ (fun m hm => hn m (List.mem_cons_of_mem n hm)) (open_linked docs n h1) (open_right docs n h2 (hn n List.mem_cons_self))
  exact go ns [] hn (fun a ha => absurd ha List.not_mem_nil) fun a ha => absurd ha List.not_mem_nil

omit [DecidableEq U] in
/-- **C191.** If all documents are top documents, all are found, in their order. -/
theorem all_documents (docs : List (Doc U)) (h : Right docs) : allDocs docs (List.range docs.length) = List.range docs.length := by
  have inner : ∀ (ps : List (Holder U)), (∀ p ∈ ps, ∀ t, p.target = some t → t < docs.length) →
      ps.foldl (fun l p => match p.target with | none => l | some d => if d ∈ l then l else l ++ [d]) (List.range docs.length) = List.range docs.length := by
    intro ps
    induction ps with
    | nil => intro _; rfl
    | cons p ps ih =>
      intro hp
      rw [List.foldl_cons]
      have : (match p.target with | none => List.range docs.length | some d => if d ∈ List.range docs.length then List.range docs.length else List.range docs.length ++ [d]) = List.range docs.length := by
        cases e : p.target with
        | none => rfl
        | some d => exact if_pos (List.mem_range.2 (hp p List.mem_cons_self d e))
      rw [this]
      exact ih fun q hq => hp q (List.mem_cons_of_mem p hq)
  have outer : ∀ ts : List Nat, ts.foldl (addTargets docs) (List.range docs.length) = List.range docs.length := by
    intro ts
    induction ts with
    | nil => rfl
    | cons t ts ih =>
      rw [List.foldl_cons]
      have : addTargets docs (List.range docs.length) t = List.range docs.length := by
        unfold addTargets
        refine inner _ fun p hp u e => ?_
        cases hd : docs[t]? with
        | none => rw [hd] at hp; simp at hp
        | some a =>
          rw [hd] at hp
          have := h a (List.mem_of_getElem? hd) p hp u e
          refine Nat.lt_of_not_le fun hc => ?_
          rw [List.getElem?_eq_none hc] at this
          cases this
      rw [this]
      exact ih
  exact outer _

/-- **C191, violated.** A document that is open only because a document that is not a top document refers to it is not found, so that its placeholders are not linked. -/
theorem all_documents_violated : Right ([⟨1, [⟨2, some 1⟩]⟩, ⟨2, [⟨3, some 2⟩]⟩, ⟨3, [⟨4, none⟩]⟩] : List (Doc Nat)) ∧
    allDocs ([⟨1, [⟨2, some 1⟩]⟩, ⟨2, [⟨3, some 2⟩]⟩, ⟨3, [⟨4, none⟩]⟩] : List (Doc Nat)) [0] = [0, 1] := by
  refine ⟨?_, by decide +kernel⟩
  intro a ha p hp t ht
  simp only [List.mem_cons, List.not_mem_nil, or_false] at ha
  rcases ha with rfl | rfl | rfl <;> simp only [List.mem_cons, List.not_mem_nil, or_false] at hp <;> subst hp <;> simp only [Option.some.injEq, reduceCtorEq] at ht <;> subst ht <;> rfl

/-- Three documents; the first stands for the second and third, the third for the first and for itself. -/
def exDocs : List (Doc Nat) := [⟨1, [⟨2, none⟩, ⟨3, none⟩, ⟨9, none⟩]⟩, ⟨2, []⟩, ⟨3, [⟨1, none⟩, ⟨3, none⟩]⟩]

example : exDocs.foldl openDoc [] = [⟨1, [⟨2, some 1⟩, ⟨3, some 2⟩, ⟨9, none⟩]⟩, ⟨2, []⟩, ⟨3, [⟨1, some 0⟩, ⟨3, some 2⟩]⟩] := by decide +kernel
example : ∀ n ∈ exDocs, ∀ p ∈ n.holders, p.target = none := by decide +kernel

end Verif.FReg
