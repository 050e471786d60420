import Verif.Str

/-!
# Model of entity references and document placeholders (FCDocument/FCDEntityReference.cpp, FCDPlaceHolder.cpp, FCDExternalReferenceManager.cpp)

The world is one document, the *home* document (number 0), with its references and its placeholders, and any number of other documents that hold
entities. Objects are numbered; numbers are never used again. Simplifications:

* the other documents have no references and no placeholders of their own, so that releasing one only takes its entities away;
* URLs are absolute, so that `MakeAbsolute` keeps them, and fragments are given as `CleanId` returns them (C23, C27);
* `RegisterLoadedDocument` is not called (nothing in the repository calls it), and a document loaded through a placeholder has the placeholder's URL;
* dirty flags are left out.

The trackers of an entity are the references whose `entity` it is; those of a placeholder are the references whose `placeHolder` it is; those of
a document are the placeholders whose `target` it is, and the list of top documents. `none`: undefined behaviour, an object is used after it was
destroyed.
-/

namespace Verif.FRef

/-- URLs and ids. -/
abbrev Text := List Int

/-- A document other than the home document; `top`: made by `NewTopDocument` (FCollada.cpp 67-74), which tracks it. -/
structure Doc where
  url : Text
  top : Bool
deriving DecidableEq

/-- An entity: the document it is in, its id. -/
structure Ent where
  name : Nat
  doc : Nat
  id : Text
deriving DecidableEq

/-- FCDPlaceHolder.h 38-40: target document, tracked list of references, file URL. -/
structure Holder where
  name : Nat
  target : Option Nat
  url : Text
  refs : List Nat
deriving DecidableEq

/-- FCDEntityReference.h 58-60: entity, placeholder, entity id. -/
structure Ref where
  entity : Option Nat
  holder : Option Nat
  id : Text
deriving DecidableEq

/-- All objects alive. `ents` is in the order in which `FCDocument::FindEntity` (FCDocument.cpp 222-247) looks through the libraries. -/
structure World where
  docs : Nat → Option Doc
  ents : List Ent
  holders : List Holder
  refs : Nat → Option Ref
  next : Nat

/-- The home document. -/
abbrev home : Nat := 0

/-- Nothing but the home document. -/
def start : World := ⟨fun _ => none, [], [], fun _ => none, 1⟩

/-- The placeholder with a number. -/
def holder? (w : World) (h : Nat) : Option Holder := w.holders.find? fun H => H.name = h

/-- Changes one reference. -/
def modRef (w : World) (r : Nat) (f : Ref → Ref) : World := { w with refs := fun k => if k = r then (w.refs k).map f else w.refs k }

/-- Changes one placeholder. -/
def modHolder (w : World) (h : Nat) (f : Holder → Holder) : World :=
  { w with holders := w.holders.map fun H => if H.name = h then f H else H }

/-- FCDocument.cpp 222-247: `FindEntity`. -/
def findEntity (w : World) (d : Nat) (id : Text) : Option Nat :=
  (w.ents.find? fun E => E.doc = d ∧ E.id = id).map (·.name)

/-- FCDEntityReference.cpp 180-193: a tracked object is released; here, an entity that is `dead`, with its id. -/
def onEntityReleased (dead : Nat → Option Text) (R : Ref) : Ref :=
  match R.entity.bind dead with
  | none => R
  | some id => { R with entity := none, id := if R.holder = none then [] else id }

/-- The ids of the entities that satisfy `p`. -/
def deadIds (es : List Ent) (p : Ent → Bool) (e : Nat) : Option Text := (es.find? fun E => E.name = e && p E).map (·.id)

/-- Release of the entities that satisfy `p`: each leaves its library and tells the references that track it. -/
def releaseEnts (w : World) (p : Ent → Bool) : World :=
  { w with
    ents := w.ents.filter fun E => !p E
    refs := fun k => (w.refs k).map (onEntityReleased (deadIds w.ents p)) }

/-- FCDPlaceHolder.cpp 117-124: the target is released, its URL is kept. -/
def onTargetReleased (d : Nat) (url : Text) (H : Holder) : Holder :=
  if H.target = some d then { H with target := none, url := url } else H

/-- `FCDocument::Release`: the trackers are told (FCDocument.cpp 128-132), then the entities go with their libraries. -/
def releaseDoc (w : World) (d : Nat) : Option World :=
  match w.docs d with
  | none => none
  | some D =>
    some (releaseEnts
      { w with
        docs := fun k => if k = d then none else w.docs k
        holders := w.holders.map (onTargetReleased d D.url) }
      fun E => E.doc = d)

/-- FUTracker.cpp 26-37 for a placeholder: the references that track it forget it (FCDEntityReference.cpp 182-185); `skip` is a reference that no
longer tracks it. It leaves the list of the home document. -/
def detachHolder (w : World) (h : Nat) (skip : Option Nat) : World :=
  { w with
    holders := w.holders.filter fun H => H.name ≠ h
    refs := fun k => (w.refs k).map fun R => if R.holder = some h ∧ skip ≠ some k then { R with holder := none } else R }

/-- FCDPlaceHolder.cpp 34-44: the destructor stops to track the target and releases it when nothing tracks it any more. -/
def destroyHolder (w : World) (target : Option Nat) : Option World :=
  match target with
  | none => some w
  | some d =>
    match w.docs d with
    | none => none
    | some D => if D.top = true ∨ (w.holders.any fun H => H.target = some d) then some w else releaseDoc w d

/-- `FCDPlaceHolder::Release` (FCDPlaceHolder.cpp 21, 34-44). -/
def releaseHolder (w : World) (h : Nat) (skip : Option Nat) : Option World :=
  match holder? w h with
  | none => none
  | some H => destroyHolder (detachHolder w h skip) H.target

/-- FCDEntityReference.cpp 116-124: the reference leaves its placeholder, which is released when it has no reference left. While that happens the
member still points to the placeholder. -/
def leaveHolder (w : World) (r h : Nat) : Option World :=
  match holder? w h with
  | none => none
  | some H =>
    let w1 := modHolder w h fun H => { H with refs := H.refs.erase r }
    if H.refs.erase r = [] then (releaseHolder w1 h (some r)).map fun w2 => modRef w2 r fun R => { R with holder := none }
    else some w1

/-- FCDEntityReference.cpp 125-130: the reference joins a placeholder or none. -/
def joinHolder (w : World) (r : Nat) (new : Option Nat) : Option World :=
  let w1 := modRef w r fun R => { R with holder := new }
  match new with
  | none => some w1
  | some q => if (holder? w1 q).isSome then some (modHolder w1 q fun H => { H with refs := H.refs ++ [r] }) else none

/-- FCDEntityReference.cpp 112-133: `SetPlaceHolder`. -/
def setHolder (w : World) (r : Nat) (new : Option Nat) : Option World :=
  match w.refs r with
  | none => none
  | some R =>
    if R.holder = new then some w
    else
      match R.holder with
      | none => joinHolder w r new
      | some h => (leaveHolder w r h).bind fun w1 => joinHolder w1 r new

/-- FCDPlaceHolder.cpp 46-49: `GetFileUrl`. -/
def getUrl (w : World) (H : Holder) : Option Text :=
  match H.target with
  | none => some H.url
  | some d => (w.docs d).map (·.url)

/-- FCDExternalReferenceManager.cpp 40-48: `FindPlaceHolder` by URL. -/
def findByUrl (w : World) (url : Text) : Option Nat := (w.holders.find? fun H => getUrl w H = some url).map (·.name)

/-- FCDExternalReferenceManager.cpp 57-64: `FindPlaceHolder` by document. -/
def findByDoc (w : World) (d : Nat) : Option Nat := (w.holders.find? fun H => H.target = some d).map (·.name)

/-- FCDExternalReferenceManager.cpp 31-38 and 50-55, FCDPlaceHolder.cpp 23-32: `AddPlaceHolder`. -/
def addHolder (w : World) (target : Option Nat) (url : Text) : World :=
  { w with holders := w.holders ++ [⟨w.next, target, url, []⟩], next := w.next + 1 }

/-- FCDEntityReference.cpp 66-84: `SetUri`. `file`: the URL of the file, if the URI has one. -/
def setUri (w : World) (r : Nat) (file : Option Text) (frag : Text) : Option World :=
  match w.refs r with
  | none => none
  | some _ =>
    let w1 := modRef w r fun R => { R with id := frag }
    match file with
    | none => setHolder w1 r none
    | some url =>
      match findByUrl w1 url with
      | some h => setHolder w1 r (some h)
      | none => setHolder (addHolder w1 none url) r (some w1.next)

/-- FCDEntityReference.cpp 166-178: `SetEntityDocument`. -/
def setEntityDocument (w : World) (r : Nat) (d : Option Nat) : Option World :=
  match d with
  | none => setHolder w r none
  | some d =>
    if d = home then setHolder w r none
    else
      match findByDoc w d with
      | some h => setHolder w r (some h)
      | none =>
        match w.docs d with
        | none => none
        | some D => setHolder (addHolder w (some d) D.url) r (some w.next)

/-- The entity with a number. -/
def ent? (w : World) (e : Nat) : Option Ent := w.ents.find? fun E => E.name = e

/-- FCDEntityReference.cpp 88-109: `SetEntity`. -/
def setEntity (w : World) (r : Nat) (e : Option Nat) : Option World :=
  match w.refs r with
  | none => none
  | some _ =>
    match e with
    | none => setEntityDocument (modRef w r fun R => { R with entity := none }) r none
    | some e =>
      match ent? w e with
      | none => none
      | some E => setEntityDocument (modRef w r fun R => { R with entity := some e, id := E.id }) r (some E.doc)

/-- FCDEntityReference.h 91: `SetEntityId`. -/
def setEntityId (w : World) (r : Nat) (id : Text) : Option World :=
  (w.refs r).map fun _ => modRef w r fun R => { R with id := id }

/-- The entities of a loaded document, numbered from `n`. -/
def newEnts (d : Nat) : Nat → List Text → List Ent
  | _, [] => []
  | n, id :: ids => ⟨n, d, id⟩ :: newEnts d (n + 1) ids

/-- FCDPlaceHolder.cpp 63-109: `LoadTarget(NULL)` with a file that has entities with these ids; the new document is number `w.next`. -/
def loadTarget (w : World) (h : Nat) (url : Text) (ids : List Text) : World :=
  modHolder
    { w with
      docs := fun k => if k = w.next then some ⟨url, false⟩ else w.docs k
      ents := w.ents ++ newEnts w.next (w.next + 1) ids
      next := w.next + 1 + ids.length }
    h fun H => { H with target := some w.next }

/-- FCDEntityReference.cpp 137-142 and FCDPlaceHolder.cpp 57-61: the document to look in. `files` tells what a load finds, `flag` is
`FCollada::GetDereferenceFlag()`. -/
def entityDocument (files : Text → Option (List Text)) (flag : Bool) (w : World) (R : Ref) : Option (World × Option Nat) :=
  match R.holder with
  | none => some (w, some home)
  | some h =>
    match holder? w h with
    | none => none
    | some H =>
      match H.target with
      | some d => some (w, some d)
      | none =>
        if flag then
          match files H.url with
          | none => some (w, none)
          | some ids => some (loadTarget w h H.url ids, some w.next)
        else some (w, none)

/-- FCDEntityReference.cpp 154-163: the entity is looked up in the document. -/
def lookUp (r : Nat) (R : Ref) (x : World × Option Nat) : World × Option Nat :=
  match x.2 with
  | none => (x.1, none)
  | some d =>
    if R.id = [] then (x.1, none)
    else
      match findEntity x.1 d R.id with
      | none => (x.1, none)
      | some e => (modRef x.1 r fun R => { R with entity := some e }, some e)

/-- FCDEntityReference.cpp 56-64 and 135-164: `GetEntity`. -/
def getEntity (files : Text → Option (List Text)) (flag : Bool) (w : World) (r : Nat) : Option (World × Option Nat) :=
  match w.refs r with
  | none => none
  | some R =>
    match R.entity with
    | some e => some (w, some e)
    | none => (entityDocument files flag w R).map (lookUp r R)

/-- FCDEntityReference.cpp 23-32: a new reference. -/
def newRef (w : World) : World :=
  { w with refs := fun k => if k = w.next then some ⟨none, none, []⟩ else w.refs k, next := w.next + 1 }

/-- FCDEntityReference.cpp 21, 34-40: `Release` of a reference: the placeholders that list it forget it (FUTracker.h 375-379), then the destructor
runs. -/
def releaseRef (w : World) (r : Nat) : Option World :=
  match w.refs r with
  | none => none
  | some _ =>
    (setHolder { w with holders := w.holders.map fun H => { H with refs := H.refs.erase r } } r none).map fun w1 =>
      { w1 with refs := fun k => if k = r then none else w1.refs k }

/-- FCollada.cpp 67-79: `NewTopDocument`, `NewDocument`. -/
def newDoc (w : World) (url : Text) (top : Bool) : World :=
  { w with docs := fun k => if k = w.next then some ⟨url, top⟩ else w.docs k, next := w.next + 1 }

/-- `AddEntity` in a document. -/
def newEnt (w : World) (d : Nat) (id : Text) : Option World :=
  if d = home ∨ (w.docs d).isSome then some { w with ents := w.ents ++ [⟨w.next, d, id⟩], next := w.next + 1 } else none

/-- `Release` of one entity. -/
def releaseEnt (w : World) (e : Nat) : Option World :=
  match ent? w e with
  | none => none
  | some _ => some (releaseEnts w fun E => E.name = e)

/-- FCDPlaceHolder.cpp 111-115: `UnloadTarget`. -/
def unloadTarget (w : World) (h : Nat) : Option World :=
  match holder? w h with
  | none => none
  | some H =>
    match H.target with
    | none => some w
    | some d => releaseDoc w d

/-- What the user can call. -/
inductive Op
  | newDoc (url : Text) (top : Bool)
  | newEnt (d : Nat) (id : Text)
  | newRef
  | setUri (r : Nat) (file : Option Text) (frag : Text)
  | setEntityId (r : Nat) (id : Text)
  | setEntity (r : Nat) (e : Option Nat)
  | getEntity (files : Text → Option (List Text)) (flag : Bool) (r : Nat)
  | releaseRef (r : Nat)
  | releaseEnt (e : Nat)
  | releaseDoc (d : Nat)
  | unloadTarget (h : Nat)
  | releaseHolder (h : Nat)

/-- The world after a call. -/
def step (w : World) : Op → Option World
  | .newDoc url top => some (newDoc w url top)
  | .newEnt d id => newEnt w d id
  | .newRef => some (newRef w)
  | .setUri r file frag => setUri w r file frag
  | .setEntityId r id => setEntityId w r id
  | .setEntity r e => setEntity w r e
  | .getEntity files flag r => (getEntity files flag w r).map (·.1)
  | .releaseRef r => releaseRef w r
  | .releaseEnt e => releaseEnt w e
  | .releaseDoc d => releaseDoc w d
  | .unloadTarget h => unloadTarget w h
  | .releaseHolder h => releaseHolder w h none

end Verif.FRef
