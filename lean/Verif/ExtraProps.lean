import Verif.ExtraAux
import Verif.ExtraLemmas

/-!
# C92-C94: names, contents and clones of extra trees
-/

namespace Verif.FExtra

open Verif.FStr (Ch)

/-- The text "a-b". -/
def aMinusB : Text := [97, 45, 98]

/-- The text "ab". -/
def ab : Text := [97, 98]

/-! ## C92: names -/

/-- **C92: cleaned names.** Every name but the empty one becomes a valid name of the same length; characters are kept or replaced by an underscore; valid names and the empty name stay. -/
theorem clean_name (t : Text) :
    (cleanName t).length = t.length ∧ (t ≠ [] → ValidName (cleanName t)) ∧ (ValidName t → cleanName t = t) ∧
    ∀ (i : Nat) (c d : Ch), t[i]? = some c → (cleanName t)[i]? = some d → d = c ∨ d = 95 := by
  refine ⟨?_, valid_cleanName t, cleanName_valid t, ?_⟩
  · cases t <;> simp [cleanName]
  · intro i c d h1 h2
    cases t with
    | nil => simp at h1
    | cons x xs =>
      simp only [cleanName] at h2
      cases i with
      | zero =>
        simp only [List.getElem?_cons_zero, Option.some.injEq] at h1 h2
        subst h1
        split at h2
        · exact Or.inl h2.symm
        · exact Or.inr h2.symm
      | succ i =>
        simp only [List.getElem?_cons_succ, List.getElem?_map] at h1 h2
        rw [h1] at h2
        simp only [Option.map_some, Option.some.injEq] at h2
        split at h2
        · exact Or.inl h2.symm
        · exact Or.inr h2.symm

example : cleanName aMinusB = [97, 95, 98] ∧ cleanName [49, 97] = [95, 97] := by decide +kernel

/-- **C92, partial: names in a tree.** After any number of calls, the types of an extra have different names, the techniques of a type different profiles, the attributes of a node different
names, and all names of nodes and attributes are valid or empty. Missing: `SetName` of an attribute or type and `SetProfile`, see `names_violated`; and empty names, see `empty_name_violated`. -/
theorem names_partial {e : Extra} (h : Reach (fun _ op => op.Tame) e) : Good e := by
  induction h with
  | new =>
    refine ⟨by decide, by simp [newExtra], ?_⟩
    rintro n ⟨t, ht, x, hx, -⟩
    simp only [newExtra, List.mem_singleton] at ht
    subst ht
    simp at hx
  | step op _ ho ih => exact run_good _ op ho ih

example : ∃ e, Reach (fun _ op => op.Tame) e ∧ NodeOf e (.mk ab [] [⟨[97, 95, 98], [49]⟩] [.mk ab [50] [] []]) :=
  ⟨_, .step (.node 0 0 [0] (.addParameter ab [50])) (.step (.node 0 0 [0] (.addAttribute aMinusB [49])) (.step (.node 0 0 [] (.addChildNamed ab)) (.step (.addTechnique 0 ab)
    .new trivial) trivial) trivial) trivial,
    ⟨_, List.mem_singleton.2 rfl, _, List.mem_singleton.2 rfl, .deeper (List.mem_singleton.2 rfl) (.here _)⟩⟩

/-- C92 fails with these setters: two types, two techniques of a type and two attributes of a node get the same name, and a name that is not valid is accepted. -/
theorem names_violated :
    (∃ e, Reach (fun _ _ => True) e ∧ e.map (·.name) = [ab, ab]) ∧
    (∃ e, Reach (fun _ _ => True) e ∧ e.map (·.techs.map (·.profile)) = [[ab, ab]]) ∧
    (∃ e, Reach (fun _ _ => True) e ∧ NodeOf e (.mk [] [] [⟨aMinusB, []⟩, ⟨aMinusB, [49]⟩] [])) := by
  refine ⟨⟨_, .step (.setTypeName 0 ab) (.step (.addType ab) .new trivial) trivial, rfl⟩,
    ⟨_, .step (.setProfile 0 0 ab) (.step (.addTechnique 0 ab) (.step (.addTechnique 0 []) .new trivial) trivial) trivial, rfl⟩,
    ⟨_, .step (.node 0 0 [] (.setAttrName 1 aMinusB)) (.step (.node 0 0 [] (.addAttribute [99] [49])) (.step (.node 0 0 [] (.setAttrName 0 aMinusB))
      (.step (.node 0 0 [] (.addAttribute ab [])) (.step (.addTechnique 0 ab) .new trivial) trivial) trivial) trivial) trivial,
      ⟨_, List.mem_singleton.2 rfl, _, List.mem_singleton.2 rfl, .here _⟩⟩⟩

/-- C92 fails for the empty name: `CleanName` keeps it, and nodes and attributes with an empty name arise from `AddChildNode` and `AddAttribute`. -/
theorem empty_name_violated : cleanName [] = [] ∧ ¬ ValidName [] ∧
    ∃ e, Reach (fun _ op => op.Tame) e ∧ NodeOf e (.mk [] [] [⟨[], [49]⟩] []) := by
  refine ⟨rfl, ?_, ⟨_, .step (.node 0 0 [] (.addAttribute [] [49])) (.step (.addTechnique 0 ab) .new trivial) trivial,
    ⟨_, List.mem_singleton.2 rfl, _, List.mem_singleton.2 rfl, .here _⟩⟩⟩
  rintro ⟨⟨c, h, -⟩, -⟩
  simp at h

/-! ## C92: looking up by name -/

/-- **C92: attributes.** `AddAttribute` gives the attribute with the cleaned name this value; what `ReadAttribute` returns for other names stays, and no second attribute with the name is made. -/
theorem add_attribute (n : Node) (t v u : Text) :
    readAttribute (addAttribute t v n).attrs u = (if u = cleanName t then v else readAttribute n.attrs u) ∧
    (addAttribute t v n).name = n.name ∧ (addAttribute t v n).content = n.content ∧ (addAttribute t v n).children = n.children ∧
    (addAttribute t v n).attrs.map (·.name) =
      if cleanName t ∈ n.attrs.map (·.name) then n.attrs.map (·.name) else n.attrs.map (·.name) ++ [cleanName t] := by
  obtain ⟨nm, c, a, cs⟩ := n
  exact ⟨readAttribute_put a t v u, rfl, rfl, rfl, putAttribute_names a t v⟩

/-- `ReadAttribute` returns the value of the first attribute with the name, or the empty string if there is none. -/
theorem read_attribute (as : List Attr) (t : Text) :
    (∃ (i : Nat) (x : Attr), as[i]? = some x ∧ x.name = t ∧ (∀ (j : Nat) (y : Attr), j < i → as[j]? = some y → y.name ≠ t) ∧ readAttribute as t = x.value) ∨
    ((∀ x ∈ as, x.name ≠ t) ∧ readAttribute as t = []) := readAttribute_cases as t

/-- C92 fails for names that are not valid: what was added as "a-b" is not found as "a-b". -/
theorem lookup_violated (n : Node) (v : Text) (h1 : ∀ a ∈ n.attrs, a.name ≠ aMinusB) (h2 : ∀ c ∈ n.children, c.name ≠ aMinusB) :
    readAttribute (addAttribute aMinusB v n).attrs aMinusB = [] ∧ findChildNode (addChildNamed aMinusB n) aMinusB = none := by
  constructor
  · rw [(add_attribute n aMinusB v aMinusB).1, if_neg (by decide +kernel)]
    exact readAttribute_none h1
  · obtain ⟨nm, c, a, cs⟩ := n
    unfold findChildNode
    rw [List.findIdx?_eq_none_iff]
    intro x hx
    rw [decide_eq_false_iff_not]
    rcases List.mem_append.1 (show x ∈ cs ++ [setName aMinusB blank] from hx) with hx | hx
    · exact h2 x hx
    · rw [List.mem_singleton.1 hx]
      show ¬ cleanName aMinusB = aMinusB
      decide +kernel

/-- **C92: searches.** `FindType`, `FindTechnique`, `FindAttribute` and `FindChildNode` return the first object with the name, or NULL; `FindChildrenNodes` returns all child nodes with it. -/
theorem find_first (e : Extra) (ts : List Tech) (n : Node) (t : Text) :
    IsFirst EType.name e t (findType e t) ∧ IsFirst Tech.profile ts t (findTechnique ts t) ∧ IsFirst Attr.name n.attrs t (findAttribute n.attrs t) ∧
    IsFirst Node.name n.children t (findChildNode n t) ∧ ∀ x, x ∈ findChildrenNodes n t ↔ x ∈ n.children ∧ x.name = t :=
  ⟨isFirst _ _ _, isFirst _ _ _, isFirst _ _ _, isFirst _ _ _, fun x => by simp [findChildrenNodes]⟩

/-- `FindRootNode` returns the first child node with the name of the first technique that has one, or NULL if there is none. -/
theorem find_root (ts : List Tech) (t : Text) :
    match findRootNode ts t with
    | some (i, j) => ∃ x, ts[i]? = some x ∧ findChildNode x.node t = some j ∧ ∀ (k : Nat) (y : Tech), k < i → ts[k]? = some y → ∀ c ∈ y.node.children, c.name ≠ t
    | none => ∀ x ∈ ts, ∀ c ∈ x.node.children, c.name ≠ t := by
  induction ts with
  | nil => simp [findRootNode]
  | cons x xs ih =>
    unfold findRootNode
    have hx := isFirst Node.name x.node.children t
    cases h : findChildNode x.node t with
    | some j => exact ⟨x, rfl, h, fun k y hk => by omega⟩
    | none =>
      rw [show x.node.children.findIdx? (fun x => x.name = t) = none from h] at hx
      cases h' : findRootNode xs t with
      | none =>
        rw [h'] at ih
        simp only [Option.map_none]
        intro y hy
        rcases List.mem_cons.1 hy with rfl | hy
        · exact hx
        · exact ih y hy
      | some r =>
        rw [h'] at ih
        obtain ⟨y, g1, g2, g3⟩ := ih
        simp only [Option.map_some]
        refine ⟨y, g1, g2, ?_⟩
        intro k z hk hz
        cases k with
        | zero =>
          simp only [List.getElem?_cons_zero, Option.some.injEq] at hz
          exact hz ▸ hx
        | succ k => exact g3 k z (by omega) (by simpa using hz)

/-- **C92: types and techniques.** `AddType` and `AddTechnique` return an object with the name, the one which was there if there was one, and leave the others alone. -/
theorem add_type (e : Extra) (ts : List Tech) (t : Text) :
    (∃ x, (addType e t).1[(addType e t).2]? = some x ∧ x.name = t) ∧ (addType e t).1 = (if t ∈ e.map (·.name) then e else e ++ [⟨t, []⟩]) ∧
    (∃ x, (addTechnique ts t).1[(addTechnique ts t).2]? = some x ∧ x.profile = t) ∧
    (addTechnique ts t).1 = (if t ∈ ts.map (·.profile) then ts else ts ++ [⟨t, blank⟩]) := by
  have h1 := isFirst EType.name e t
  have h2 := isFirst Tech.profile ts t
  unfold addType addTechnique findType findTechnique
  refine ⟨?_, ?_, ?_, ?_⟩
  · cases h : e.findIdx? fun x => x.name = t with
    | some i => rw [h] at h1; obtain ⟨x, g1, g2, -⟩ := h1; exact ⟨x, g1, g2⟩
    | none => exact ⟨⟨t, []⟩, by simp, rfl⟩
  · cases h : e.findIdx? fun x => x.name = t with
    | some i =>
      rw [h] at h1; obtain ⟨x, g1, g2, -⟩ := h1
      rw [if_pos (List.mem_map.2 ⟨x, List.mem_of_getElem? g1, g2⟩)]
    | none =>
      rw [h] at h1
      rw [if_neg fun hm => by obtain ⟨x, hx, he⟩ := List.mem_map.1 hm; exact h1 x hx he]
  · cases h : ts.findIdx? fun x => x.profile = t with
    | some i => rw [h] at h2; obtain ⟨x, g1, g2, -⟩ := h2; exact ⟨x, g1, g2⟩
    | none => exact ⟨⟨t, blank⟩, by simp, rfl⟩
  · cases h : ts.findIdx? fun x => x.profile = t with
    | some i =>
      rw [h] at h2; obtain ⟨x, g1, g2, -⟩ := h2
      rw [if_pos (List.mem_map.2 ⟨x, List.mem_of_getElem? g1, g2⟩)]
    | none =>
      rw [h] at h2
      rw [if_neg fun hm => by obtain ⟨x, hx, he⟩ := List.mem_map.1 hm; exact h2 x hx he]

example : (addType (addType newExtra ab).1 ab).1.map (·.name) = [[], ab] := by decide +kernel

/-! ## C93: contents -/

/-- **C93: `SetContent`.** The node has the content and no child nodes; its name and attributes stay. -/
theorem set_content (n : Node) (t : Text) :
    (setContent t n).content = t ∧ (setContent t n).children = [] ∧ (setContent t n).name = n.name ∧ (setContent t n).attrs = n.attrs := by
  obtain ⟨nm, c, a, cs⟩ := n
  exact ⟨rfl, rfl, rfl, rfl⟩

/-- **C93: parameters.** `AddParameter` adds one child node at the end with the cleaned name and the value, which `FindParameters` lists; nothing else changes. -/
theorem add_parameter (n : Node) (t v : Text) :
    ∃ p : Node, p.name = cleanName t ∧ p.content = v ∧ p.attrs = [] ∧ p.children = [] ∧ (addParameter t v n).children = n.children ++ [p] ∧
      (addParameter t v n).name = n.name ∧ (addParameter t v n).content = n.content ∧ (addParameter t v n).attrs = n.attrs ∧
      findParameters (addParameter t v n) = findParameters n ++ [(p, cleanName t)] := by
  obtain ⟨nm, c, a, cs⟩ := n
  refine ⟨setContent v (setName t blank), rfl, rfl, rfl, rfl, rfl, rfl, rfl, rfl, ?_⟩
  simp [findParameters, addParameter, Node.children, Node.name, setContent, setName, blank]

/-- `FindParameters` lists exactly the child nodes without child nodes, in order, with their names. -/
theorem find_parameters (n : Node) :
    (findParameters n).map (·.1) = n.children.filter (fun x => x.children.isEmpty) ∧ ∀ r ∈ findParameters n, r.2 = r.1.name := by
  constructor
  · unfold findParameters
    rw [List.map_map]
    have : (Prod.fst ∘ fun x : Node => (x, x.name)) = _root_.id := rfl
    rw [this, List.map_id]
    congr 1
    funext x
    cases h : x.children <;> simp
  · intro r hr
    obtain ⟨x, -, rfl⟩ := List.mem_map.1 hr
    rfl

/-- C93 fails for `FindParameter`: it returns a node that has child nodes and is not among those of `FindParameters`. -/
theorem find_parameter_violated : ∃ n p : Node, findChildNode n ab = some 0 ∧ n.children[0]? = some p ∧ p.children ≠ [] ∧ findParameters n = [] :=
  ⟨.mk [] [] [] [.mk ab [] [] [blank]], .mk ab [] [] [blank], by decide +kernel, rfl, by simp [Node.children], rfl⟩

/-- **C93, partial: no mixed content.** If child nodes are only added to nodes without content, and content is set by `SetContent` or on nodes without children, no node ever has both. Missing:
child nodes added to a node with content, see `mixed_violated`. -/
theorem unmixed_partial {e : Extra} (h : Reach (fun e op => op.Careful e) e) : ∀ n, NodeOf e n → ¬ Mixed n := by
  induction h with
  | new =>
    rintro n ⟨t, ht, x, hx, -⟩
    simp only [newExtra, List.mem_singleton] at ht
    subst ht
    simp at hx
  | step op _ ho ih => exact run_unmixed _ op ho ih

example : ∃ e, Reach (fun e op => op.Careful e) e ∧ NodeOf e (.mk [] [] [] [.mk ab [50] [] []]) :=
  ⟨_, .step (.node 0 0 [] (.addParameter ab [50])) (.step (.addTechnique 0 ab) .new trivial) (by
    intro t x n h1 h2 h3
    obtain rfl : (⟨[], [⟨ab, blank⟩]⟩ : EType) = t := Option.some.inj h1
    obtain rfl : (⟨ab, blank⟩ : Tech) = x := Option.some.inj h2
    obtain rfl : blank = n := Option.some.inj h3
    exact (rfl : blank.content = [])),
    ⟨_, List.mem_singleton.2 rfl, _, List.mem_singleton.2 rfl, .here _⟩⟩

/-- C93 fails for child nodes: `AddChildNode` and `AddParameter` keep the content. -/
theorem mixed_violated : ∃ e n, Reach (fun _ op => op.Tame) e ∧ NodeOf e n ∧ Mixed n :=
  ⟨_, .mk [] [49] [] [.mk ab [50] [] []], .step (.node 0 0 [] (.addParameter ab [50])) (.step (.node 0 0 [] (.setContent [49])) (.step (.addTechnique 0 ab) .new trivial) trivial) trivial,
    ⟨_, List.mem_singleton.2 rfl, _, List.mem_singleton.2 rfl, .here _⟩, by simp [Mixed, Node.content, Node.children]⟩

/-- `HasContent` says whether some technique has a child node. -/
theorem has_content (e : Extra) : hasContent e = true ↔ ∃ t ∈ e, ∃ x ∈ t.techs, ∃ c, c ∈ x.node.children := by
  simp only [hasContent, List.any_eq_true, decide_eq_true_eq, gt_iff_lt, List.length_pos_iff_exists_mem]

/-! ## C94: clones -/

/-- **C94, partial.** A clone made as a new object of an extra which only saw calls as in `names_partial`, and whose first type is the default type, is equal to the extra. Missing: other extras,
see `clone_name_violated`, `clone_merge_violated` and `clone_default_violated`; and animated values, which are not modelled and not cloned (FCDExtra.cpp 344). -/
theorem clone_partial {e : Extra} (h : Reach (fun _ op => op.Tame) e) (h0 : ∃ t, e.head? = some t ∧ t.name = []) : cloneExtra e none = e := by
  obtain ⟨h1, h2, h3⟩ := names_partial h
  obtain ⟨d, hd, hn⟩ := h0
  cases e with
  | nil => simp at hd
  | cons x xs =>
    obtain rfl : x = d := by simpa using hd
    have same : ∀ y ∈ x :: xs, cloneTechs y.techs [] = y.techs := fun y hy =>
      cloneTechs_new y.techs (h2 y hy) fun z hz m hm => h3 m ⟨y, hy, z, hz, hm⟩
    have hx : upsert EType.name (fun y => { y with techs := cloneTechs x.techs y.techs }) ⟨x.name, []⟩ x.name newExtra = [x] := by
      have := same x (by simp)
      simp only [newExtra, upsert, hn, if_true, this]
      obtain ⟨a, b⟩ := x
      subst hn
      rfl
    rw [cloneExtra, cloneInto_eq, List.foldl_cons, hx,
      upserts_new EType.name (fun x y => { y with techs := cloneTechs x.techs y.techs }) (fun t => ⟨t, []⟩) (fun _ _ h => h) (fun _ => rfl) xs [x] (by simpa using h1)]
    show x :: _ = _
    congr 1
    conv => rhs; rw [← List.map_id xs]
    apply List.map_congr_left
    intro y hy
    show (⟨y.name, cloneTechs y.techs []⟩ : EType) = y
    rw [same y (by simp [hy])]

example : ∃ e, Reach (fun _ op => op.Tame) e ∧ (∃ t, e.head? = some t ∧ t.name = []) ∧ e.length = 2 ∧ hasContent e = true :=
  ⟨_, .step (.node 1 0 [] (.addParameter ab [50])) (.step (.addTechnique 1 ab) (.step (.addType ab) .new trivial) trivial) trivial, ⟨_, rfl, rfl⟩, rfl, by decide +kernel⟩

/-- **C94: a clone of a node into a new node** is equal to the node if the nodes below it are as in `names_partial`. -/
theorem clone_node (n : Node) (h : ∀ m, Within n m → GoodHere m) : cloneNode n blank = n := cloneNode_blank n h

/-- **C94: a clone into an existing extra.** Types are matched by their names and techniques by their profiles. Where both have a technique, the one of the clone takes over the name and content of
the root node, the values of the attributes, and gets the child nodes in addition; what only the clone has stays, what only the original has is added. -/
theorem clone_into (s t : Extra) (h : Good s) (u : Text) :
    ((cloneExtra s (some t)).find? fun x => x.name = u) =
      match s.find? (fun x => x.name = u) with
      | some x => some ⟨u, cloneTechs x.techs ((t.find? fun x => x.name = u).getD ⟨u, []⟩).techs⟩
      | none => t.find? fun x => x.name = u := by
  rw [cloneExtra, cloneInto_eq]
  have hu : ((t.find? fun x => x.name = u).getD ⟨u, []⟩).name = u := by
    cases ht : t.find? fun x => x.name = u with
    | none => rfl
    | some y => simpa using List.find?_some ht
  have := upserts_find EType.name (fun x y => { y with techs := cloneTechs x.techs y.techs }) (fun t => ⟨t, []⟩) (fun _ _ h => h) (fun _ => rfl) s t h.1 u
  simp only [hu] at this
  rw [this]
  cases s.find? (fun x => x.name = u) <;> rfl

/-- The techniques for `clone_into`. -/
theorem clone_into_technique (s t : List Tech) (hd : (s.map (·.profile)).Nodup) (hg : ∀ x ∈ s, ∀ m, Within x.node m → GoodHere m) (u : Text) :
    match s.find? (fun x => x.profile = u), t.find? (fun x => x.profile = u) with
    | none, r => (cloneTechs s t).find? (fun x => x.profile = u) = r
    | some x, none => (cloneTechs s t).find? (fun x => x.profile = u) = some x
    | some x, some y => ∃ z, (cloneTechs s t).find? (fun x => x.profile = u) = some z ∧ z.node.name = x.node.name ∧ z.node.content = x.node.content ∧
        z.node.children = y.node.children ++ x.node.children ∧
        ∀ a, readAttribute z.node.attrs a = if a ∈ x.node.attrs.map (·.name) then readAttribute x.node.attrs a else readAttribute y.node.attrs a := by
  have hf := upserts_find Tech.profile cloneTech (fun p => ⟨p, blank⟩) (fun _ _ _ => rfl) (fun _ => rfl) s t hd u
  rw [← cloneTechs_eq] at hf
  cases h1 : s.find? (fun x => x.profile = u) with
  | none => rw [h1] at hf; exact hf
  | some x =>
    rw [h1] at hf
    have hx := List.mem_of_find?_eq_some h1
    have hp : x.profile = u := by simpa using List.find?_some h1
    cases h2 : t.find? (fun x => x.profile = u) with
    | none =>
      rw [h2] at hf
      simp only at hf ⊢
      rw [hf, Option.getD_none, cloneTech, cloneNode_blank x.node (hg x hx)]
    | some y =>
      rw [h2] at hf
      simp only at hf ⊢
      refine ⟨_, hf, ?_⟩
      obtain ⟨xp, xn, xc, xa, xs⟩ := x
      obtain ⟨yp, yn, yc, ya, ys⟩ := y
      have hw := hg _ hx
      obtain ⟨⟨-, g2, g3⟩, g4⟩ := (within_iff _ _).1 hw
      simp only [Node.attrs, Node.children] at g2 g3 g4
      refine ⟨rfl, rfl, ?_, ?_⟩
      · show ys ++ cloneNodes xs = _
        rw [cloneNodes_same xs g4]
        rfl
      · intro a
        show readAttribute (xa.foldl (fun l x => putAttribute l x.name x.value) ya) a = if a ∈ xa.map (·.name) then readAttribute xa a else readAttribute ya a
        clear hf h1 h2 hw hx hg hp
        induction xa generalizing ya with
        | nil => simp
        | cons b bs ih =>
          have hc : cleanName b.name = b.name := cleanName_fix _ (g2 b (by simp))
          rw [List.map_cons, List.nodup_cons] at g3
          rw [List.foldl_cons, ih _ (fun a ha => g2 a (by simp [ha])) g3.2, readAttribute_put, hc]
          by_cases h1 : a = b.name
          · have hn : a ∉ bs.map (·.name) := h1 ▸ g3.1
            rw [if_neg hn, if_pos h1, if_pos (by simp [h1])]
            exact (readAttribute_some (i := 0) (x := b) rfl h1.symm (fun j _ hj => by omega)).symm
          · by_cases h2 : a ∈ bs.map (·.name)
            · rw [if_pos h2, if_pos (by rw [List.map_cons]; exact List.mem_cons_of_mem _ h2)]
              rcases readAttribute_cases bs a with ⟨i, x, e1, e2, e3, e4⟩ | ⟨e1, -⟩
              · rw [e4]
                refine (readAttribute_some (i := i + 1) (x := x) (by simpa using e1) e2 ?_).symm
                intro j y hj hy
                cases j with
                | zero =>
                  simp only [List.getElem?_cons_zero, Option.some.injEq] at hy
                  exact hy ▸ fun e => h1 e.symm
                | succ j => exact e3 j y (by omega) (by simpa using hy)
              · obtain ⟨x, hx, e⟩ := List.mem_map.1 h2
                exact absurd e (e1 x hx)
            · rw [if_neg h2, if_neg h1, if_neg]
              rw [List.map_cons, List.mem_cons]
              exact fun h => h.elim h1 h2

/-- C94 fails for attributes whose name was set to one that is not valid: the clone has another name. -/
theorem clone_name_violated : ∃ e, Reach (fun _ _ => True) e ∧ NodeOf e (.mk [] [] [⟨aMinusB, [49]⟩] []) ∧ NodeOf (cloneExtra e none) (.mk [] [] [⟨[97, 95, 98], [49]⟩] []) :=
  ⟨_, .step (.node 0 0 [] (.setAttrName 0 aMinusB)) (.step (.node 0 0 [] (.addAttribute ab [49])) (.step (.addTechnique 0 ab) .new trivial) trivial) trivial,
    ⟨_, List.mem_singleton.2 rfl, _, List.mem_singleton.2 rfl, .here _⟩, ⟨_, List.mem_singleton.2 rfl, _, List.mem_singleton.2 rfl, .here _⟩⟩

/-- C94 fails for types that were given the same name: the clone has one type for both. -/
theorem clone_merge_violated : ∃ e, Reach (fun _ _ => True) e ∧ e.length = 2 ∧ (cloneExtra e none).length = 1 :=
  ⟨_, .step (.setTypeName 1 []) (.step (.addType ab) .new trivial) trivial, rfl, rfl⟩

/-- C94 fails for an extra whose default type was released: the clone has a default type. -/
theorem clone_default_violated : ∃ e, Reach (fun _ op => op.Tame) e ∧ e.length = 0 ∧ (cloneExtra e none).length = 1 :=
  ⟨_, .step (.releaseType 0) .new trivial, rfl, rfl⟩

end Verif.FExtra
