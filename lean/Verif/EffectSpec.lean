import Verif.Effect

/-! # What the tools for effect parameters are for -/

namespace Verif.FEff

variable {K : Type}

/-- The parameters a profile shows: its own, then those of its textures or, if these are wanted, those of its techniques. -/
def profileScope (p : Profile K) (localOnly : Bool) : List (Param K) :=
  match p with
  | .std ps sets _ => ps ++ sets.flatten
  | .fx _ ps ts => ps ++ if localOnly then [] else ts.flatMap Tech.params

/-- The parameters an effect shows. -/
def effectScope (e : Option (Effect K)) (localOnly : Bool) : List (Param K) :=
  match e with
  | none => []
  | some e => e.params ++ if localOnly then [] else e.profiles.flatMap (profileScope · false)

/-- The parameters a material shows. -/
def materialScope (m : Option (Material K)) (localOnly : Bool) : List (Param K) :=
  match m with
  | none => []
  | some m => m.params ++ if localOnly then [] else effectScope m.effect false

/-- The parameters a material instance shows, those of its geometry instance first. -/
def instScope (ps : List (Param K)) (m : Option (Material K)) (localOnly : Bool) : List (Param K) := ps ++ if localOnly then [] else materialScope m false

/-- The first parameter of a list with the key; no parameter has the empty key. -/
def firstOf (key : Param K → Text) (s : Text) (l : List (Param K)) : Option (Param K) := if s = [] then none else l.find? fun p => decide (key p = s)

/-- All parameters of a list with the key. -/
def allOf (key : Param K → Text) (s : Text) (l : List (Param K)) : List (Param K) := if s = [] then [] else l.filter fun p => decide (key p = s)

/-- The parameter that stands for the one of the standard effect: that of the geometry instance with the semantic, else that of the material, the effect or the profile with the reference; its own if it
has no reference or none of them is there. -/
def source (g : Option (List (Param K))) (m : Material K) (e : Effect K) (ps : List (Param K)) (sets : List (List (Param K))) (own : Param K) (s : Text) : Param K :=
  if own.ref = [] then own
  else
    ((firstOf Param.sem s (g.getD [])).or ((firstOf Param.ref own.ref m.params).or ((firstOf Param.ref own.ref e.params).or (firstOf Param.ref own.ref (ps ++ sets.flatten))))).getD own

/-- A value fit for a number. -/
def Val.isNumber : Val K → Bool
  | .float _ => true
  | _ => false

/-- A value fit for a colour. -/
def Val.isColor : Val K → Bool
  | .float3 _ _ _ | .vector _ _ _ _ => true
  | _ => false

/-- A colour without alpha. -/
def Val.isFloat3 : Val K → Bool
  | .float3 _ _ _ => true
  | _ => false

/-- The second value brought to the type of the first, if it may be. -/
def fit [One K] : Val K → Val K → Option (Val K)
  | .float _, .float x => some (.float x)
  | .float3 _ _ _, .float3 x y z => some (.float3 x y z)
  | .float3 _ _ _, .vector x y z _ => some (.float3 x y z)
  | .vector _ _ _ _, .float3 x y z => some (.vector x y z 1)
  | .vector _ _ _ _, .vector x y z w => some (.vector x y z w)
  | _, _ => none

/-- The value a parameter of the geometry instance should have: that of the first of the three places whose value may be brought to its type; its own if there is none. -/
def pulled [One K] (m : Material K) (e : Effect K) (ps : List (Param K)) (sets : List (List (Param K))) (ref : Text) (v : Val K) : Val K :=
  (([firstOf Param.ref ref m.params, firstOf Param.ref ref e.params, firstOf Param.ref ref (ps ++ sets.flatten)].filterMap fun o => o.bind fun p => fit v p.val).head?).getD v

/-- The parameter at `i` is the first of the list with its semantic. -/
def FirstSem (l : List (Param K)) (i : Nat) (s : Text) : Prop := (∃ p : Param K, l[i]? = some p ∧ p.sem = s) ∧ ∀ (j : Nat) (q : Param K), j < i → l[j]? = some q → q.sem ≠ s

/-- The parameter of the standard effect refers to another, as a referencer. -/
def Refers (p : Param K) : Prop := p.role = .referencer ∧ p.ref ≠ []

/-- The names of the parameters of a standard effect that are numbers; the others are colours. -/
def numberNames : List Text :=
  [text "EMISSIONFACTOR", text "REFLECTIVITYFACTOR", text "INDEXOFREFRACTION", text "TRANSLUCENCYFACTOR", text "SPECULARFACTOR", text "SHININESS"]

end Verif.FEff
