import Verif.Lib
import Verif.Effect

/-!
# Model of textures and of the images of surfaces (FCDocument/FCDTexture.cpp, FCDEffectParameterSurface.cpp)

One standard effect with its parameters and its textures. Objects are told apart by numbers; a texture points to its sampler and a sampler to its surface by tracked pointers. Images are numbers,
`name` gives their ids, which have no zero character. Textures of all channels are in one list, as the order of the channels makes no difference here. Outer `none` is undefined behaviour.
-/

namespace Verif.FTex

open Verif.FStr (Ch)
open Verif.FEff (Text text)

/-- FCDEffectParameterSurface.h 62, FCDEffectParameterSampler.h 53: what a parameter is, as far as textures go. -/
inductive Kind where
  | surface (images : List Nat)
  | sampler (surface : Option Nat)
  | other
deriving DecidableEq

/-- FCDEffectParameter.h 79-81: a parameter. -/
structure P where
  id : Nat
  ref : Text
  kind : Kind
deriving DecidableEq

/-- FCDTexture.h 63-64: a texture; `setRef` is the reference of its set parameter. -/
structure T where
  id : Nat
  sampler : Option Nat
  setRef : Text
deriving DecidableEq

/-- A standard effect: its parameters and its textures. `next` numbers the next object. -/
structure St where
  params : List P
  texs : List T
  next : Nat
deriving DecidableEq

/-- The parameter with a number. -/
def param (st : St) (i : Nat) : Option P := st.params.find? fun p => p.id = i

/-- The texture with a number. -/
def tex (st : St) (i : Nat) : Option T := st.texs.find? fun t => t.id = i

/-- FCDEffectTools.cpp 642-679: `FindEffectParameterByReference` in this effect, by number and kind; the set of a texture is an integer. -/
def lookup (st : St) (s : Text) : Option (Nat × Kind) :=
  if s = [] then none
  else
    match st.params.find? fun p => decide (p.ref = s) with
    | some p => some (p.id, p.kind)
    | none => if st.texs.any fun t => decide (t.setRef = s) then some (0, .other) else none

/-- FCDEffectProfile.cpp 53-59: `AddEffectParameter`, with the reference it is given next. -/
def addParam (st : St) (ref : Text) (k : Kind) : St := { st with params := st.params ++ [⟨st.next, ref, k⟩], next := st.next + 1 }

/-- FCDEffectStandard.cpp 200-224: `AddTexture`. -/
def addTexture (st : St) : St := { st with texs := st.texs ++ [⟨st.next, none, []⟩], next := st.next + 1 }

/-- The tracked pointer to a sampler. -/
def setSampler (st : St) (t : Nat) (s : Option Nat) : St := { st with texs := st.texs.map fun x => if x.id = t then { x with sampler := s } else x }

/-- A surface pointer forgets what is released. -/
def Kind.forget (i : Nat) : Kind → Kind
  | .sampler (some s) => .sampler (if s = i then none else some s)
  | k => k

/-- FUObject.h, FUTracker.h: the release of a parameter. It leaves the effect, and all pointers to it become null. -/
def release (st : St) (i : Nat) : St :=
  { st with
    params := (st.params.filter fun p => p.id ≠ i).map fun p => { p with kind := p.kind.forget i }
    texs := st.texs.map fun t => if t.sampler = some i then { t with sampler := none } else t }

/-- FCDTexture.cpp 55-63: `GetSampler` of a texture of this effect. -/
def getSampler (st : St) (t : Nat) : Option (St × Nat) :=
  (tex st t).map fun x =>
    match x.sampler with
    | some s => (st, s)
    | none => (setSampler (addParam st [] (.sampler none)) t (some st.next), st.next)

/-- FCDTexture.cpp 66-72, FCDEffectParameterSurface.h 119: `GetImage`. -/
def image (st : St) (t : Nat) : Option Nat :=
  (tex st t).bind fun x => x.sampler.bind fun s => (param st s).bind fun p =>
    match p.kind with
    | .sampler (some f) => (param st f).bind fun q =>
      match q.kind with
      | .surface l => l.head?
      | _ => none
    | _ => none

/-- FCDTexture.cpp 83, 103. -/
def surfaceSid (n : Text) : Text := n ++ text "-surface"

/-- FCDTexture.cpp 103. -/
def samplerSid (n : Text) : Text := n ++ text "-sampler"

/-- FCDTexture.cpp 83-100: the surface; `none` inside if another parameter has its sid. -/
def getSurface (st : St) (name : Nat → Text) (img : Nat) : Option (St × Option Nat) :=
  match lookup st (surfaceSid (name img)) with
  | none => (FLib.cleanSubId (surfaceSid (name img))).map fun r => (addParam st r (.surface [img]), some st.next)
  | some (i, .surface _) => some (st, some i)
  | some _ => some (st, none)

/-- FCDTexture.cpp 102-115: the sampler for the texture `t`. -/
def linkSampler (st : St) (name : Nat → Text) (t img f : Nat) : Option St :=
  match lookup st (samplerSid (name img)) with
  | none => (FLib.cleanSubId (samplerSid (name img))).map fun r => setSampler (addParam st r (.sampler (some f))) t (some st.next)
  | some (i, .sampler _) => some (setSampler st t (some i))
  | some _ => some st

/-- FCDTexture.cpp 78: the release of the sampler. -/
def dropSampler (st : St) (x : T) : St :=
  match x.sampler with
  | none => st
  | some s => release st s

/-- FCDTexture.cpp 75-117: `SetImage` for a texture of this effect. -/
def setImage (st : St) (name : Nat → Text) (t : Nat) (img : Option Nat) : Option St :=
  (tex st t).bind fun x =>
    match img with
    | none => some (dropSampler st x)
    | some img => (getSurface (dropSampler st x) name img).bind fun r =>
      match r.2 with
      | none => some r.1
      | some f => linkSampler r.1 name t img f

/-- FUTracker.h 375-379: a surface loses a released image. -/
def P.lose (img : Nat) (p : P) : P :=
  match p.kind with
  | .surface l => { p with kind := .surface (l.erase img) }
  | _ => p

/-- FUTracker.h 375-379: the release of an image, which leaves the lists of the surfaces. -/
def releaseImage (st : St) (img : Nat) : St := { st with params := st.params.map (P.lose img) }

/-- FCDEffectParameterSurface.h 62, 329-332: the images of a surface and, for a cube map, the images of its faces. -/
structure Surf where
  images : List Nat
  order : Option (List Nat)
deriving DecidableEq

/-- FCDEffectParameterSurface.cpp 55-60: `FindImage`; `none` is ~0. -/
def findImage (s : Surf) (img : Nat) : Option Nat := s.images.idxOf? img

/-- FCDEffectParameterSurface.cpp 63-81: `AddImage`; the index `none` is ~0. The place past the end is no iterator of the list. -/
def addImage (s : Surf) (img : Nat) (index : Option Nat) : Option (Surf × Option Nat) :=
  match findImage s img with
  | some _ => some (s, index)
  | none =>
    match index with
    | none => some ({ s with images := s.images ++ [img] }, some s.images.length)
    | some i => if i > s.images.length then none else some (s, none)

/-- FCDEffectParameterSurface.cpp 95-99: one index of the cube map. -/
def shift (index o : Nat) : Nat := if o = index then 0 else if o > index then o - 1 else o

/-- FCDEffectParameterSurface.cpp 84-104: `RemoveImage`. -/
def removeImage (s : Surf) (img : Nat) : Surf :=
  match findImage s img with
  | none => s
  | some i => { images := s.images.eraseIdx i, order := s.order.map (List.map (shift i)) }

/-- FUTracker.h 375-379: the release of an image of a surface. -/
def imageGone (s : Surf) (img : Nat) : Surf := { s with images := s.images.erase img }

end Verif.FTex
