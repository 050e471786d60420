import Verif.Str

/-!
# Model of the search for effect parameters and of the values of standard effects (FCDocument/FCDEffectTools.cpp, FCDEffectStandard.cpp)

Texts have no zero character. A parameter carries a number that tells it apart from the others. Values are over `K`; values that are no numbers, 3D vectors or 4D vectors are `other`. Curves on
values, annotations and the flags of changed objects are left out. The casts between a parameter of 4D vectors and one of colours are taken to be harmless. Outer `none` is undefined behaviour.
-/

namespace Verif.FEff

open Verif.FStr (Ch)

abbrev Text := List Ch

def text (s : String) : Text := s.toList.map fun c => (c.toNat : Int)

/-- FCDEffectParameter.h 47-59: the types that the tools tell apart, with their values. -/
inductive Val (K : Type) where
  | float (x : K)
  | float3 (x y z : K)
  | vector (x y z w : K)
  | other (n : Nat)
deriving DecidableEq

/-- FCDEffectParameter.h 62-75: the usage of a parameter. -/
inductive Role where
  | generator | modifier | animator | referencer | constant
deriving DecidableEq

/-- FCDEffectParameter.h 79-81: a parameter. -/
structure Param (K : Type) where
  id : Nat
  role : Role
  ref : Text
  sem : Text
  val : Val K
deriving DecidableEq

/-- FCDEffectStandard.h 111-149: the parameters every standard effect has. -/
inductive Slot where
  | emission | emissionFactor | reflectivity | reflectivityFactor | refraction | translucency | translucencyFactor | diffuse | ambient | specular | specularFactor | shininess
deriving DecidableEq

/-- FCDEffectStandard.cpp 59-70: the names of these parameters. -/
def Slot.name : Slot → Text
  | .emission => text "EMISSION"
  | .emissionFactor => text "EMISSIONFACTOR"
  | .reflectivity => text "REFLECTIVITY"
  | .reflectivityFactor => text "REFLECTIVITYFACTOR"
  | .refraction => text "INDEXOFREFRACTION"
  | .translucency => text "TRANSLUCENCY"
  | .translucencyFactor => text "TRANSLUCENCYFACTOR"
  | .diffuse => text "DIFFUSE"
  | .ambient => text "AMBIENT"
  | .specular => text "SPECULAR"
  | .specularFactor => text "SPECULARFACTOR"
  | .shininess => text "SHININESS"

/-- FCDEffectStandard.cpp 298-365: which of them are numbers (`isFloat`). -/
def Slot.isFloat : Slot → Bool
  | .emissionFactor | .reflectivityFactor | .refraction | .translucencyFactor | .specularFactor | .shininess => true
  | _ => false

/-- FCDEffectStandard.cpp 298-365: `GetParam`. -/
def getParam (s : Text) : Option Slot :=
  if s = Slot.name .ambient then some .ambient
  else if s = Slot.name .diffuse then some .diffuse
  else if s = Slot.name .emission then some .emission
  else if s = Slot.name .emissionFactor then some .emissionFactor
  else if s = Slot.name .refraction then some .refraction
  else if s = Slot.name .reflectivity then some .reflectivity
  else if s = Slot.name .reflectivityFactor then some .reflectivityFactor
  else if s = Slot.name .shininess then some .shininess
  else if s = Slot.name .specular then some .specular
  else if s = Slot.name .specularFactor then some .specularFactor
  else if s = Slot.name .translucency then some .translucency
  else if s = Slot.name .translucencyFactor then some .translucencyFactor
  else none

/-- FCDEffectTechnique.h: the parameters of a technique. -/
structure Tech (K : Type) where
  params : List (Param K)

/-- FCDEffectStandard.h, FCDEffectProfileFX.h: a profile. A standard profile has, for each of the twelve texture channels, a list of textures; of each only the parameter with its set is kept. -/
inductive Profile (K : Type) where
  | std (params : List (Param K)) (sets : List (List (Param K))) (slots : Slot → Param K)
  | fx (type : Nat) (params : List (Param K)) (techs : List (Tech K))

/-- FUDaeEnum.h 347: the common profile. -/
def common : Nat := 4

/-- FCDEffectStandard.h 180, FCDEffectProfileFX.h 79: `GetType`. -/
def Profile.type {K : Type} : Profile K → Nat
  | .std _ _ _ => common
  | .fx t _ _ => t

/-- FCDEffect.h 57-58: an effect. -/
structure Effect (K : Type) where
  params : List (Param K)
  profiles : List (Profile K)

/-- FCDMaterial.h 62-63: a material. -/
structure Material (K : Type) where
  params : List (Param K)
  effect : Option (Effect K)

/-- A material instance: the parameters of the geometry instance that holds it (none: no such instance) and its material. -/
structure Inst (K : Type) where
  geometry : Option (List (Param K))
  material : Option (Material K)

variable {K : Type}

/-- The loop of every search for a parameter: `key` is the semantic or the reference (FCDEffectTools.cpp 475-479 and others). -/
def findIn (key : Param K → Text) (s : Text) : List (Param K) → Option (Param K)
  | [] => none
  | p :: ps => if key p = s then some p else findIn key s ps

/-- The loop of every search for all parameters (FCDEffectTools.cpp 702-706 and others). -/
def collect (key : Param K → Text) (s : Text) : List (Param K) → List (Param K) → List (Param K)
  | [], acc => acc
  | p :: ps, acc => collect key s ps (if key p = s then acc ++ [p] else acc)

/-- FCDEffectTools.cpp 471-481, 584-594: the parameters of a geometry instance. -/
def findGeometry (key : Param K → Text) (g : Option (List (Param K))) (s : Text) : Option (Param K) :=
  match g with
  | none => none
  | some ps => if s = [] then none else findIn key s ps

/-- FCDEffectTools.cpp 568-578, 681-691: a technique. -/
def findTech (key : Param K → Text) (t : Tech K) (s : Text) : Option (Param K) := if s = [] then none else findIn key s t.params

/-- FCDEffectTools.cpp 545-549: the techniques one after the other. -/
def findTechs (key : Param K → Text) (s : Text) : List (Tech K) → Option (Param K)
  | [] => none
  | t :: ts => (findTech key t s).or (findTechs key s ts)

/-- FCDEffectTools.cpp 555-563: the sets of the textures, channel by channel. -/
def findSets (key : Param K → Text) (s : Text) : List (List (Param K)) → Option (Param K)
  | [] => none
  | b :: bs => (findIn key s b).or (findSets key s bs)

/-- FCDEffectTools.cpp 529-566, 642-679: a profile. -/
def findProfile (key : Param K → Text) (p : Profile K) (s : Text) (localOnly : Bool) : Option (Param K) :=
  if s = [] then none
  else
    match p with
    | .std ps sets _ => (findIn key s ps).or (findSets key s sets)
    | .fx _ ps ts => (findIn key s ps).or (if localOnly then none else findTechs key s ts)

/-- FCDEffectTools.cpp 520-524: the profiles one after the other. -/
def findProfiles (key : Param K → Text) (s : Text) : List (Profile K) → Option (Param K)
  | [] => none
  | p :: ps => (findProfile key p s false).or (findProfiles key s ps)

/-- FCDEffectTools.cpp 508-527, 621-640: an effect. -/
def findEffect (key : Param K → Text) (e : Option (Effect K)) (s : Text) (localOnly : Bool) : Option (Param K) :=
  match e with
  | none => none
  | some e => if s = [] then none else (findIn key s e.params).or (if localOnly then none else findProfiles key s e.profiles)

/-- FCDEffectTools.cpp 496-506, 609-619: a material. -/
def findMaterial (key : Param K → Text) (m : Option (Material K)) (s : Text) (localOnly : Bool) : Option (Param K) :=
  match m with
  | none => none
  | some m => if s = [] then none else (findIn key s m.params).or (if localOnly then none else findEffect key m.effect s false)

/-- FCDEffectTools.cpp 483-494, 596-607: a material instance; one without a geometry instance uses a null pointer. -/
def findInst (key : Param K → Text) (i : Inst K) (s : Text) (localOnly : Bool) : Option (Option (Param K)) :=
  if s = [] then some none
  else
    match i.geometry with
    | none => none
    | some ps => some ((findIn key s ps).or (if localOnly then none else findMaterial key i.material s false))

/-- FCDEffectTools.cpp 784-793, 886-895: all of a technique. -/
def allTech (key : Param K → Text) (t : Tech K) (s : Text) (acc : List (Param K)) : List (Param K) := if s = [] then acc else collect key s t.params acc

/-- FCDEffectTools.cpp 763-766, 865-868. -/
def allTechs (key : Param K → Text) (s : Text) : List (Tech K) → List (Param K) → List (Param K)
  | [], acc => acc
  | t :: ts, acc => allTechs key s ts (allTech key t s acc)

/-- FCDEffectTools.cpp 772-780, 874-882. -/
def allSets (key : Param K → Text) (s : Text) : List (List (Param K)) → List (Param K) → List (Param K)
  | [], acc => acc
  | b :: bs, acc => allSets key s bs (collect key s b acc)

/-- FCDEffectTools.cpp 747-782, 849-884: all of a profile. -/
def allProfile (key : Param K → Text) (p : Profile K) (s : Text) (acc : List (Param K)) (localOnly : Bool) : List (Param K) :=
  if s = [] then acc
  else
    match p with
    | .std ps sets _ => allSets key s sets (collect key s ps acc)
    | .fx _ ps ts => if localOnly then collect key s ps acc else allTechs key s ts (collect key s ps acc)

/-- FCDEffectTools.cpp 740-743, 842-845. -/
def allProfiles (key : Param K → Text) (s : Text) : List (Profile K) → List (Param K) → List (Param K)
  | [], acc => acc
  | p :: ps, acc => allProfiles key s ps (allProfile key p s acc false)

/-- FCDEffectTools.cpp 728-745, 830-847: all of an effect. -/
def allEffect (key : Param K → Text) (e : Option (Effect K)) (s : Text) (acc : List (Param K)) (localOnly : Bool) : List (Param K) :=
  match e with
  | none => acc
  | some e =>
    if s = [] then acc
    else if localOnly then collect key s e.params acc
    else allProfiles key s e.profiles (collect key s e.params acc)

/-- FCDEffectTools.cpp 713-726, 815-828: all of a material. -/
def allMaterial (key : Param K → Text) (m : Option (Material K)) (s : Text) (acc : List (Param K)) (localOnly : Bool) : List (Param K) :=
  match m with
  | none => acc
  | some m =>
    if s = [] then acc
    else if localOnly then collect key s m.params acc
    else allEffect key m.effect s (collect key s m.params acc) false

/-- FCDEffectTools.cpp 697-711, 799-813: all of a material instance. -/
def allInst (key : Param K → Text) (i : Inst K) (s : Text) (acc : List (Param K)) (localOnly : Bool) : Option (List (Param K)) :=
  if s = [] then some acc
  else
    match i.geometry with
    | none => none
    | some ps => some (if localOnly then collect key s ps acc else allMaterial key i.material s (collect key s ps acc) false)

/-- FCDEffect.cpp 53-60: `FindProfile`. -/
def profileOf (type : Nat) : List (Profile K) → Option (Profile K)
  | [] => none
  | p :: ps => if p.type = type then some p else profileOf type ps

/-- What a query for a colour gives back: the parameter and what it wrote into `isFloat3` (`none`: nothing). -/
abbrev ColorResult (K : Type) := Option (Param K × Option Bool)

/-- FCDEffectTools.cpp 224-235 and the branches alike: a parameter as a colour. -/
def asColor (p : Param K) : ColorResult K :=
  match p.val with
  | .float3 _ _ _ => some (p, some true)
  | .vector _ _ _ _ => some (p, some false)
  | _ => none

/-- FCDEffectTools.cpp 222-287: the branches of `GetAnimatedColor`. -/
def chooseColor (g m e p : Option (Param K)) (own : Param K) : ColorResult K :=
  match g with
  | some x => asColor x
  | none =>
    match m with
    | some x => asColor x
    | none =>
      match e with
      | some x => asColor x
      | none =>
        match p with
        | some x => asColor x
        | none => some (own, some true)

/-- FCDEffectTools.cpp 321-322 and the branches alike: a parameter as a number. -/
def asFloat (p : Param K) : Option (Param K) :=
  match p.val with
  | .float _ => some p
  | _ => none

/-- FCDEffectTools.cpp 319-340: the branches of `GetAnimatedFloat`. -/
def chooseFloat (g m e p : Option (Param K)) (own : Param K) : Option (Param K) :=
  match g with
  | some x => asFloat x
  | none =>
    match m with
    | some x => asFloat x
    | none =>
      match e with
      | some x => asFloat x
      | none =>
        match p with
        | some x => asFloat x
        | none => some own

/-- FCDEffectTools.cpp 192-289: `GetAnimatedColor`. -/
def animatedColor (g : Option (List (Param K))) (m : Option (Material K)) (s : Text) : Option (ColorResult K) :=
  match m with
  | none => some none
  | some m =>
    match m.effect with
    | none => some none
    | some e =>
      match profileOf common e.profiles with
      | none => some none
      | some (.fx _ _ _) => none
      | some (.std ps sets slots) =>
        match getParam s with
        | none => some none
        | some slot =>
          if (slots slot).ref = [] then (if slot.isFloat then some none else some (some (slots slot, none)))
          else if slot.isFloat then some none
          else some (chooseColor (findGeometry Param.sem g s) (findMaterial Param.ref (some m) (slots slot).ref true) (findEffect Param.ref (some e) (slots slot).ref true)
            (findProfile Param.ref (.std ps sets slots) (slots slot).ref false) (slots slot))

/-- FCDEffectTools.cpp 291-343: `GetAnimatedFloat`. -/
def animatedFloat (g : Option (List (Param K))) (m : Option (Material K)) (s : Text) : Option (Option (Param K)) :=
  match m with
  | none => some none
  | some m =>
    match m.effect with
    | none => some none
    | some e =>
      match profileOf common e.profiles with
      | none => some none
      | some (.fx _ _ _) => none
      | some (.std ps sets slots) =>
        match getParam s with
        | none => some none
        | some slot =>
          if (slots slot).ref = [] then (if slot.isFloat then some (some (slots slot)) else some none)
          else if slot.isFloat then
            some (chooseFloat (findGeometry Param.sem g s) (findMaterial Param.ref (some m) (slots slot).ref true) (findEffect Param.ref (some e) (slots slot).ref true)
              (findProfile Param.ref (.std ps sets slots) (slots slot).ref false) (slots slot))
          else some none

/-- FCDEffectTools.cpp 345-422: `GetDefaultColor`, which uses the material, its effect and the common profile without a check. -/
def defaultColor (m : Option (Material K)) (s : Text) : Option (ColorResult K) :=
  match m with
  | none => none
  | some m =>
    match m.effect with
    | none => none
    | some e =>
      match profileOf common e.profiles with
      | none => none
      | some (.fx _ _ _) => none
      | some (.std ps sets slots) =>
        match getParam s with
        | none => some none
        | some slot =>
          if (slots slot).ref = [] then (if slot.isFloat then some none else some (some (slots slot, none)))
          else if slot.isFloat then some none
          else some (chooseColor none (findMaterial Param.ref (some m) (slots slot).ref true) (findEffect Param.ref (some e) (slots slot).ref true)
            (findProfile Param.ref (.std ps sets slots) (slots slot).ref false) (slots slot))

/-- FCDEffectTools.cpp 424-465: `GetDefaultFloat`. -/
def defaultFloat (m : Option (Material K)) (s : Text) : Option (Option (Param K)) :=
  match m with
  | none => none
  | some m =>
    match m.effect with
    | none => none
    | some e =>
      match profileOf common e.profiles with
      | none => none
      | some (.fx _ _ _) => none
      | some (.std ps sets slots) =>
        match getParam s with
        | none => some none
        | some slot =>
          if (slots slot).ref = [] then (if slot.isFloat then some (some (slots slot)) else some none)
          else if slot.isFloat then
            some (chooseFloat none (findMaterial Param.ref (some m) (slots slot).ref true) (findEffect Param.ref (some e) (slots slot).ref true)
              (findProfile Param.ref (.std ps sets slots) (slots slot).ref false) (slots slot))
          else some none

/-- The number a parameter may give (FCDEffectTools.cpp 82-96). -/
def numOf (p : Option (Param K)) : Option (Val K) :=
  match p with
  | some ⟨_, _, _, _, .float x⟩ => some (.float x)
  | _ => none

/-- The 3D vector a parameter may give (FCDEffectTools.cpp 113-148). -/
def vec3Of (p : Option (Param K)) : Option (Val K) :=
  match p with
  | some ⟨_, _, _, _, .float3 x y z⟩ => some (.float3 x y z)
  | some ⟨_, _, _, _, .vector x y z _⟩ => some (.float3 x y z)
  | _ => none

/-- The 4D vector a parameter may give (FCDEffectTools.cpp 153-188). -/
def vec4Of [One K] (p : Option (Param K)) : Option (Val K) :=
  match p with
  | some ⟨_, _, _, _, .float3 x y z⟩ => some (.vector x y z 1)
  | some ⟨_, _, _, _, .vector x y z w⟩ => some (.vector x y z w)
  | _ => none

/-- FCDEffectTools.cpp 79-97: the value `LinkAnimatedParamCommonFloat` gives the parameter of the geometry instance. -/
def linkFloat (v : Val K) (m e p : Option (Param K)) : Val K :=
  match v with
  | .float _ => ((numOf m).or ((numOf e).or (numOf p))).getD v
  | _ => v

/-- FCDEffectTools.cpp 110-189: the value `LinkAnimatedParamCommonVector` gives the parameter of the geometry instance. -/
def linkVector [One K] (v : Val K) (m e p : Option (Param K)) : Val K :=
  match v with
  | .float3 _ _ _ => ((vec3Of m).or ((vec3Of e).or (vec3Of p))).getD v
  | .vector _ _ _ _ => ((vec4Of m).or ((vec4Of e).or (vec4Of p))).getD v
  | _ => v

/-- The parameter found by its semantic, with a new value. -/
def setFirst (s : Text) (f : Val K → Val K) : List (Param K) → List (Param K)
  | [] => []
  | p :: ps => if p.sem = s then { p with val := f p.val } :: ps else p :: setFirst s f ps

/-- FCDEffectTools.cpp 42-65, 68-98, 100-190: one parameter of the standard effect linked. -/
def link [One K] (m : Material K) (e : Effect K) (pr : Profile K) (slots : Slot → Param K) (g : List (Param K)) (slot : Slot) : List (Param K) :=
  if (slots slot).role ≠ .referencer ∨ (slots slot).ref = [] then g
  else
    setFirst slot.name (fun v => (if slot.isFloat then linkFloat v else linkVector v) (findMaterial Param.ref (some m) (slots slot).ref true) (findEffect Param.ref (some e) (slots slot).ref true)
      (findProfile Param.ref pr (slots slot).ref false)) g

/-- FCDEffectTools.cpp 42-65: the order of the parameters. -/
def syncOrder : List Slot :=
  [.emission, .emissionFactor, .reflectivity, .reflectivityFactor, .refraction, .translucency, .translucencyFactor, .diffuse, .ambient, .specular, .specularFactor, .shininess]

/-- FCDEffectTools.cpp 29-66: `SynchronizeAnimatedParams`, the parameters of the geometry instance afterwards. -/
def synchronize [One K] (g : List (Param K)) (m : Option (Material K)) : Option (List (Param K)) :=
  match m with
  | none => some g
  | some m =>
    match m.effect with
    | none => some g
    | some e =>
      match profileOf common e.profiles with
      | none => some g
      | some (.fx _ _ _) => none
      | some (.std ps sets slots) => some (syncOrder.foldl (link m e (.std ps sets slots) slots) g)

/-- FCDEffectStandard.cpp 227-233: `GetOpacity`; `zero` is the transparency mode RGB_ZERO. -/
def opacity [Div K] [Add K] [Sub K] [Mul K] [One K] [OfNat K 3] (zero : Bool) (x _y _z w factor : K) : K :=
  if zero then 1 - (x + x + x) / 3 * factor else w * factor

/-- FCDEffectStandard.cpp 236-239: `GetReflectivity`. -/
def reflectivity [Div K] [Add K] [Mul K] [OfNat K 3] (x _y _z _w factor : K) : K := (x + x + x) / 3 * factor

end Verif.FEff
