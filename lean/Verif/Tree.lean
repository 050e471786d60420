import Mathlib.Order.Defs.LinearOrder
import Mathlib.Data.Nat.Fib.Basic

/-!
# Model of `fm::tree` (FMath/FMTree.h)

A C++ node with its `left`, `right` and `parent` pointers is modelled by a zipper: the subtree
hanging at the node, together with the list of frames met when following `parent` up to the sentinel
`root` node.  The data of the tree hangs off `root->right`; the empty list of frames therefore means
"the parent is the sentinel".  `none` is the outcome of a NULL dereference.

Simplifications: the sentinel's own `weight`, which is written but never read for a decision, is not
modelled; `int32 weight` is an unbounded `Int` (it stays within -2..2, see `Bal`); memory allocation always
succeeds; the constructor/destructor calls on keys and data are not modelled.
-/

namespace Verif.FTree

variable {K V : Type}

/-- FMath/FMTree.h 72-83: class `node` (`left`, `right`, `weight`, `data`); `nil` is the NULL pointer. -/
inductive Tree (K V : Type) where
  | nil : Tree K V
  | node (l : Tree K V) (k : K) (v : V) (w : Int) (r : Tree K V) : Tree K V
  deriving DecidableEq

/-- FMath/FMTree.h 77: the `parent` pointer, seen from a child: `left` when the child is `parent->left`
(the other fields of the parent are kept), `right` when it is `parent->right`. -/
inductive Frame (K V : Type) where
  | left (k : K) (v : V) (w : Int) (r : Tree K V) : Frame K V
  | right (l : Tree K V) (k : K) (v : V) (w : Int) : Frame K V
  deriving DecidableEq

/-- Re-attach a subtree below its parent. -/
def Frame.fill : Frame K V → Tree K V → Tree K V
  | .left k v w r, t => .node t k v w r
  | .right l k v w, t => .node l k v w t

/-- The whole tree (`root->right`) given a subtree and the chain of its ancestors. -/
def plug : Tree K V → List (Frame K V) → Tree K V
  | t, [] => t
  | t, f :: fs => plug (f.fill t) fs

/-- FMath/FMTree.h 87-110: `node::rotateLeft`. `none`: `right->left` with `right == NULL`. -/
def rotateLeft : Tree K V → Option (Tree K V)
  | .node l k v w (.node rl rk rv rw rr) =>
    let w' := w - 1 - (if rw > 0 then rw else 0)
    let rw' := rw - (if 0 > -w' then 0 else -w') - 1
    some (.node (.node l k v w' rl) rk rv rw' rr)
  | _ => none

/-- FMath/FMTree.h 112-135: `node::rotateRight`. -/
def rotateRight : Tree K V → Option (Tree K V)
  | .node (.node ll lk lv lw lr) k v w r =>
    let w' := w + 1 + (if 0 > lw then -lw else 0)
    let lw' := (lw + 1) + (if 0 > w' then 0 else w')
    some (.node ll lk lv lw' (.node lr k v w' r))
  | _ => none

/-- FMath/FMTree.h 452-457 (insert) and 558-563 (erase): the block run when `it->weight > 1`. -/
def balanceRight : Tree K V → Option (Tree K V)
  | .node l k v w (.node rl rk rv rw rr) =>
    if rw < 0 then
      (rotateRight (.node rl rk rv rw rr)).bind fun r' => rotateLeft (.node l k v w r')
    else rotateLeft (.node l k v w (.node rl rk rv rw rr))
  | _ => none

/-- FMath/FMTree.h 459-464 (insert) and 564-569 (erase): the block run when `it->weight < -1`. -/
def balanceLeft : Tree K V → Option (Tree K V)
  | .node (.node ll lk lv lw lr) k v w r =>
    if lw > 0 then
      (rotateLeft (.node ll lk lv lw lr)).bind fun l' => rotateRight (.node l' k v w r)
    else rotateRight (.node (.node ll lk lv lw lr) k v w r)
  | _ => none

/-- FMath/FMTree.h 447 and 469: `parent->weight += (it == parent->right) ? 1 : -1` while moving to the parent. -/
def Frame.fillGrow : Frame K V → Tree K V → Tree K V
  | .left k v w r, t => .node t k v (w - 1) r
  | .right l k v w, t => .node l k v (w + 1) t

/-- FMath/FMTree.h 546-547 and 573: `parent->weight -= (it == parent->right) ? 1 : -1` while moving to the parent. -/
def Frame.fillShrink : Frame K V → Tree K V → Tree K V
  | .left k v w r, t => .node t k v (w + 1) r
  | .right l k v w, t => .node l k v (w - 1) t

/-- FMath/FMTree.h 449-471: the climbing loop of `insert`; `t` is the subtree at `it`, `fs` its ancestors. -/
def climbInsert : Tree K V → List (Frame K V) → Option (Tree K V)
  | .nil, _ => none
  | .node l k v w r, fs =>
    if w > 1 then (balanceRight (.node l k v w r)).map fun t => plug t fs
    else if w < -1 then (balanceLeft (.node l k v w r)).map fun t => plug t fs
    else if w = 0 then some (plug (.node l k v w r) fs)
    else match fs with
      | [] => some (.node l k v w r)
      | f :: fs' => climbInsert (f.fillGrow (.node l k v w r)) fs'

/-- `it->weight` -/
def Tree.weight? : Tree K V → Option Int
  | .nil => none
  | .node _ _ _ w _ => some w

/-- FMath/FMTree.h 558-569: the rotation part of one turn of the erase loop. -/
def rebalanceErase : Tree K V → Option (Tree K V)
  | .nil => none
  | .node l k v w r =>
    if w > 1 then balanceRight (.node l k v w r)
    else if w < -1 then balanceLeft (.node l k v w r)
    else some (.node l k v w r)

/-- FMath/FMTree.h 554-575: the climbing loop of `erase`. -/
def climbErase : Tree K V → List (Frame K V) → Option (Tree K V)
  | t, [] => rebalanceErase t
  | t, f :: fs =>
    (rebalanceErase t).bind fun t' =>
    t'.weight?.bind fun w =>
    if w ≠ 0 then some (plug t' (f :: fs))
    else climbErase (f.fillShrink t') fs

/-- FMath/FMTree.h 545-552 then 554-575: release the node below the given ancestors (its link in the parent
becomes NULL, so anything still hanging below it is dropped) and rebalance. -/
def releaseAt : List (Frame K V) → Option (Tree K V)
  | [] => some .nil
  | f :: fs => climbErase (f.fillShrink .nil) fs

section Ordered
variable [LinearOrder K]

/-- FMath/FMTree.h 405-411 (`find`) and 425-436 (`insert`): walk down from a node until NULL or the key. -/
def descend (key : K) : Tree K V → List (Frame K V) → Tree K V × List (Frame K V)
  | .nil, fs => (.nil, fs)
  | .node l k v w r, fs =>
    if key < k then descend key l (.left k v w r :: fs)
    else if key = k then (.node l k v w r, fs)
    else descend key r (.right l k v w :: fs)

/-- FMath/FMTree.h 403-413: `find`; `none` is `end()`, otherwise the entry the iterator points at. -/
def find (key : K) (t : Tree K V) : Option (K × V) :=
  match (descend key t []).1 with
  | .nil => none
  | .node _ k v _ _ => some (k, v)

/-- FMath/FMTree.h 404-411: number of nodes whose key `find` compares with. -/
def findSteps (key : K) : Tree K V → Nat
  | .nil => 0
  | .node l k _ _ r =>
    if key < k then findSteps key l + 1
    else if key = k then 1
    else findSteps key r + 1

end Ordered

/-- FMath/FMTree.h 517-518: go to the rightmost node of a subtree; returns its key, data, weight, left
child and the frames crossed (innermost first). -/
def rightmost : Tree K V → List (Frame K V) → Option (K × V × Int × Tree K V × List (Frame K V))
  | .nil, _ => none
  | .node l k v w .nil, fs => some (k, v, w, l, fs)
  | .node l k v w (.node rl rk rv rw rr), fs =>
    rightmost (.node rl rk rv rw rr) (.right l k v w :: fs)

/-- FMath/FMTree.h 531-532: go to the leftmost node of a subtree. -/
def leftmost : Tree K V → List (Frame K V) → Option (K × V × Int × Tree K V × List (Frame K V))
  | .nil, _ => none
  | .node .nil k v w r, fs => some (k, v, w, r, fs)
  | .node (.node ll lk lv lw lr) k v w r, fs =>
    leftmost (.node ll lk lv lw lr) (.left k v w r :: fs)

/-- `n->left != NULL` -/
def Tree.isNode : Tree K V → Bool
  | .nil => false
  | .node .. => true

/-- FMath/FMTree.h 504-576: `erase(iterator)` for an iterator at the node `t` (not the sentinel) with ancestors `fs`. -/
def eraseAt : Tree K V → List (Frame K V) → Option (Tree K V)
  | .nil, _ => none
  | .node .nil _ _ _ .nil, fs => releaseAt fs
  | .node l _ _ w r, fs =>
    if w ≤ 0 ∧ l.isNode = true then
      (rightmost l []).bind fun (k', v', w', l', gs) =>
      match l' with
      | .nil => releaseAt (gs ++ .left k' v' w r :: fs)
      | .node _ lk lv _ _ => releaseAt (.left lk lv w' .nil :: gs ++ .left k' v' w r :: fs)
    else
      (leftmost r []).bind fun (k', v', w', r', gs) =>
      match r' with
      | .nil => releaseAt (gs ++ .right l k' v' w :: fs)
      | .node _ rk rv _ _ => releaseAt (.right .nil rk rv w' :: gs ++ .right l k' v' w :: fs)

/-- FMath/FMTree.h 360-361: the members of `tree`: what hangs off `root->right`, and `sized`
(an `Int` so that a decrement below zero would be visible). -/
structure Map (K V : Type) where
  t : Tree K V
  sized : Int

/-- FMath/FMTree.h 365-369: constructor. -/
def Map.empty : Map K V := ⟨.nil, 0⟩

section Ordered
variable [LinearOrder K]

/-- FMath/FMTree.h 422-478: `insert`. -/
def Map.insert (m : Map K V) (key : K) (data : V) : Option (Map K V) :=
  match descend key m.t [] with
  | (.node l k _ w r, fs) => some ⟨plug (.node l k data w r) fs, m.sized⟩
  | (.nil, []) => some ⟨.node .nil key data 0 .nil, m.sized + 1⟩
  | (.nil, f :: fs) =>
    (climbInsert (f.fillGrow (.node .nil key data 0 .nil)) fs).map fun t => ⟨t, m.sized + 1⟩

/-- FMath/FMTree.h 500 and 504-581: `erase(key)`; erasing `end()` (the sentinel) does nothing. -/
def Map.erase (m : Map K V) (key : K) : Option (Map K V) :=
  match descend key m.t [] with
  | (.nil, _) => some m
  | (.node l k v w r, fs) => (eraseAt (.node l k v w r) fs).map fun t => ⟨t, m.sized - 1⟩

/-- FMath/FMTree.h 487-494: the part of `operator[]` that makes sure the key is present. -/
def Map.ensure (m : Map K V) (key : K) (d : V) : Option (Map K V) :=
  match find key m.t with
  | some _ => some m
  | none => m.insert key d

/-- FMath/FMTree.h 485-495: `operator[](k)` followed by an assignment through the returned reference
(`m[k] = v`); `d` is the default-constructed `DATA()`. The reference designates the data of the node
holding `k`, found again by walking down. -/
def Map.indexAssign (m : Map K V) (key : K) (d v : V) : Option (Map K V) :=
  (m.ensure key d).bind fun m' =>
  match descend key m'.t [] with
  | (.node l k _ w r, fs) => some ⟨plug (.node l k v w r) fs, m'.sized⟩
  | (.nil, _) => none

end Ordered

/-- FMath/FMTree.h 599-615: number of nodes of a subtree. -/
def Tree.count : Tree K V → Nat
  | .nil => 0
  | .node l _ _ _ r => l.count + r.count + 1

/-- FMath/FMTree.h 606-613: unlink the current childless node: the parent's link becomes NULL. -/
def Frame.unlink : Frame K V → Tree K V
  | .left k v w r => .node .nil k v w r
  | .right l k v w => .node l k v w .nil

/-- Size of the tree not below the current node. -/
def ctxCount : List (Frame K V) → Nat
  | [] => 0
  | .left _ _ _ r :: fs => r.count + 1 + ctxCount fs
  | .right l _ _ _ :: fs => l.count + 1 + ctxCount fs

/-- FMath/FMTree.h 593-618: the loop of `clear` at the node `n`; the result is the final value of `sized`.
When `n` reaches the sentinel, `root->right = NULL`. `fuel` bounds the number of turns, running out of it gives `none`
(a loop still running); `clear_ok` shows that it does not. -/
def clearLoop : Nat → Tree K V → List (Frame K V) → Int → Option Int
  | 0, _, _, _ => none
  | _ + 1, .nil, _, _ => none
  | n + 1, .node (.node ll lk lv lw lr) k v w r, fs, s => clearLoop n (.node ll lk lv lw lr) (.left k v w r :: fs) s
  | n + 1, .node .nil k v w (.node rl rk rv rw rr), fs, s => clearLoop n (.node rl rk rv rw rr) (.right .nil k v w :: fs) s
  | _ + 1, .node .nil _ _ _ .nil, [], s => some (s - 1)
  | n + 1, .node .nil _ _ _ .nil, f :: fs, s => clearLoop n f.unlink fs (s - 1)

/-- FMath/FMTree.h 593-618: `clear`. -/
def Map.clear (m : Map K V) : Option (Map K V) :=
  match m.t with
  | .nil => some m
  | .node l k v w r => (clearLoop (2 * (Tree.node l k v w r).count + 1) (.node l k v w r) [] m.sized).map fun s => ⟨.nil, s⟩

/-! ## Iterators -/

/-- FMath/FMTree.h 160-250: an iterator: the sentinel (`end()`) or a node with its ancestors. -/
inductive Pos (K V : Type) where
  | endPos : Pos K V
  | at (l : Tree K V) (k : K) (v : V) (w : Int) (r : Tree K V) (fs : List (Frame K V)) : Pos K V
  deriving DecidableEq

/-- FMath/FMTree.h 216: "go all the way left" from a node. -/
def goLeft : Tree K V → List (Frame K V) → Option (Pos K V)
  | .nil, _ => none
  | .node .nil k v w r, fs => some (.at .nil k v w r fs)
  | .node (.node ll lk lv lw lr) k v w r, fs => goLeft (.node ll lk lv lw lr) (.left k v w r :: fs)

/-- FMath/FMTree.h 246 and 394: "go all the way right" from a node. -/
def goRight : Tree K V → List (Frame K V) → Option (Pos K V)
  | .nil, _ => none
  | .node l k v w .nil, fs => some (.at l k v w .nil fs)
  | .node l k v w (.node rl rk rv rw rr), fs => goRight (.node rl rk rv rw rr) (.right l k v w :: fs)

/-- FMath/FMTree.h 199-208: climb while we come from the right child; reaching the sentinel stops the loop. -/
def upFromRight : Tree K V → List (Frame K V) → Pos K V
  | _, [] => .endPos
  | t, .left k v w r :: fs => .at t k v w r fs
  | t, .right l k v w :: fs => upFromRight (.node l k v w t) fs

/-- FMath/FMTree.h 229-238: climb while we come from the left child. The sentinel's `left` is NULL, so the
loop also stops there. -/
def upFromLeft : Tree K V → List (Frame K V) → Pos K V
  | _, [] => .endPos
  | t, .right l k v w :: fs => .at l k v w t fs
  | t, .left k v w r :: fs => upFromLeft (.node t k v w r) fs

/-- FMath/FMTree.h 194-220: `operator++`. At `end()` it goes to the first entry (`root->right` then all the way left),
and dereferences `root->parent == NULL` when the tree `whole` is empty. -/
def next (whole : Tree K V) : Pos K V → Option (Pos K V)
  | .endPos => goLeft whole []
  | .at l k v w .nil fs => some (upFromRight (.node l k v w .nil) fs)
  | .at l k v w (.node rl rk rv rw rr) fs => goLeft (.node rl rk rv rw rr) (.right l k v w :: fs)

/-- FMath/FMTree.h 224-250: `operator--`. At `end()`, `root->left == NULL`, and the loop moves to
`root->parent == NULL` and dereferences it: undefined behaviour. -/
def prev : Pos K V → Option (Pos K V)
  | .endPos => none
  | .at .nil k v w r fs => some (upFromLeft (.node .nil k v w r) fs)
  | .at (.node ll lk lv lw lr) k v w r fs => goRight (.node ll lk lv lw lr) (.left k v w r :: fs)

/-- FMath/FMTree.h 383: `begin`. -/
def begin (t : Tree K V) : Option (Pos K V) :=
  match t with
  | .nil => some .endPos
  | .node .. => next t .endPos

/-- FMath/FMTree.h 394: `last`; on an empty tree it is the sentinel. -/
def last (t : Tree K V) : Option (Pos K V) :=
  match t with
  | .nil => some .endPos
  | .node .. => goRight t []

/-- FMath/FMTree.h 254: `operator*` (the sentinel's data is not an entry). -/
def Pos.entry : Pos K V → Option (K × V)
  | .endPos => none
  | .at _ k v _ _ _ => some (k, v)

/-! ## Copy -/

/-- FMath/FMTree.h 656-661, 670-675: a freshly created clone node. -/
def leafOf (k : K) (v : V) (w : Int) : Tree K V := .node .nil k v w .nil

/-- FMath/FMTree.h 665-678: "create and go all the way left": `cur` is the source subtree at the current node, `clone` the
clone node there, `n` the counter. -/
def copyLeft : Tree K V → List (Frame K V) → List (Frame K V) → Int →
    Option (Tree K V × List (Frame K V) × Tree K V × List (Frame K V) × Int)
  | .nil, _, _, _ => none
  | .node .nil k v w r, fs, cs, n => some (.node .nil k v w r, fs, leafOf k v w, cs, n)
  | .node (.node ll lk lv lw lr) k v w r, fs, cs, n =>
    copyLeft (.node ll lk lv lw lr) (.left k v w r :: fs) (.left k v w .nil :: cs) (n + 1)

/-- FMath/FMTree.h 638-649: climb in both trees. `none` inside `Option`: the clone ran out of parents (NULL). The result is
`Sum.inl clone` when the source reached its sentinel. -/
def copyUp : Tree K V → List (Frame K V) → Tree K V → List (Frame K V) →
    Option (Tree K V ⊕ (Tree K V × List (Frame K V) × Tree K V × List (Frame K V)))
  | _, [], c, [] => some (.inl c)
  | t, .left k v w r :: fs, c, g :: cs => some (.inr (.node t k v w r, fs, g.fill c, cs))
  | t, .right l k v w :: fs, c, g :: cs => copyUp (.node l k v w t) fs (g.fill c) cs
  | _, _, _, _ => none

/-- FMath/FMTree.h 634-681: one run of the copy loop from a source node and clone node. -/
def copyLoop : Nat → Tree K V → List (Frame K V) → Tree K V → List (Frame K V) → Int → Option (Tree K V × Int)
  | 0, _, _, _, _, _ => none
  | fuel + 1, .node l k v w (.node rl rk rv rw rr), fs, .node cl ck cv cw _, cs, n =>
    (copyLeft (.node rl rk rv rw rr) (.right l k v w :: fs) (.right cl ck cv cw :: cs) (n + 1)).bind
      fun (t, fs', c, cs', n') => copyLoop fuel t fs' c cs' n'
  | fuel + 1, .node l k v w .nil, fs, c, cs, n =>
    match copyUp (.node l k v w .nil) fs c cs with
    | none => none
    | some (.inl c') => some (c', n)
    | some (.inr (t, fs', c', cs')) => copyLoop fuel t fs' c' cs' n
  | _ + 1, _, _, _, _, _ => none

/-- FMath/FMTree.h 624-685: `operator=` from a different object. -/
def Map.assign (m src : Map K V) : Option (Map K V) :=
  m.clear.bind fun m' =>
  match src.t with
  | .nil => some m'
  | .node l k v w r =>
    (copyLeft (.node l k v w r) [] [] (m'.sized + 1)).bind fun (t, fs, c, cs, n) =>
    (copyLoop (2 * src.t.count + 1) t fs c cs n).map fun (c', n') => ⟨c', n'⟩

end Verif.FTree
