import Verif.XmlText
import Verif.ConvMore
import Verif.Effect

/-!
# Model of the XML trees that FArchiveXML writes and reads (FUtils/FUXmlWriter.cpp, FUXmlParser.cpp, FColladaPlugins/FArchiveXML/FAXColladaWriter.cpp, FAXColladaParser.cpp)

An element has a name, attributes, a text and child elements. The text beside child elements is not told apart from the text before them: files written by the library hold only indentation there, and
the code skips the children that are not elements. Saving the tree to a file and parsing it again is the work of libxml2 and taken to give the same tree. `none` is undefined behaviour.

Numbers are exact rationals, as in `Verif/ConvFloat.lean`; `fmt q` is the text of `fmt::format("{:.6g}", q)`.
-/

namespace Verif.FArc

open Verif.FStr (Ch)
open Verif.FEff (Text text)
open Verif.FConv (Ov)

/-- `xmlNode` of libxml2: the name, the attributes in order, the text and the child elements in order. -/
inductive Node where
  | elem (name : Text) (attrs : List (Text × Text)) (content : Text) (kids : List Node)

namespace Node

/-- `node->name`. -/
def name : Node → Text | .elem n _ _ _ => n

/-- `node->properties`. -/
def attrs : Node → List (Text × Text) | .elem _ a _ _ => a

/-- The text directly in the element. -/
def direct : Node → Text | .elem _ _ t _ => t

/-- The child elements. -/
def kids : Node → List Node | .elem _ _ _ k => k

/-- FUXmlWriter.cpp 73-81: the node with one more child, at the end. -/
def add (c : Node) : Node → Node | .elem n a t k => .elem n a t (k ++ [c])

/-- FUXmlWriter.cpp 194-200: the node with one more attribute, at the end. -/
def put (a v : Text) : Node → Node | .elem n as t k => .elem n (as ++ [(a, v)]) t k

/-- FUXmlParser.cpp 70-83: `FindChildByType`. -/
def child (n : Node) (ty : Text) : Option Node := n.kids.find? fun c => decide (c.name = ty)

/-- FUXmlParser.cpp 132-144: `FindChildrenByType`. -/
def children (n : Node) (ty : Text) : List Node := n.kids.filter fun c => decide (c.name = ty)

/-- `xmlGetProp`: the value of the first attribute with the name. -/
def raw (n : Node) (a : Text) : Option Text := (n.attrs.find? fun x => decide (x.1 = a)).map (·.2)

/-- FUXmlParser.cpp 147-151: `HasNodeProperty`. -/
def has (n : Node) (a : Text) : Bool := (n.raw a).isSome

end Node

mutual
/-- `xmlNodeGetContent`: the text of the element and of all below it. -/
def fullText : Node → Text
  | .elem _ _ t ks => t ++ fullTexts ks
/-- The texts of the elements of a list. -/
def fullTexts : List Node → Text
  | [] => []
  | k :: ks => fullText k ++ fullTexts ks
end

/-- FUXmlParser.cpp 23-43: `XmlToString`, on a text and its terminator. -/
def decode (t : Text) : Option Text := FXml.xmlToString (t ++ [0])

/-- FUXmlParser.cpp 154-170: `ReadNodeProperty`; a missing node or attribute gives the empty text. -/
def prop (n : Option Node) (a : Text) : Option Text :=
  match n.bind (·.raw a) with
  | some t => decode t
  | none => some []

/-- FUXmlParser.cpp 190-195: `ReadNodeContentDirect`. -/
def direct (n : Option Node) : Text := (n.map Node.direct).getD []

/-- FUXmlParser.cpp 198-212: `ReadNodeContentFull`. -/
def content (n : Node) : Option Text := decode (fullText n)

/-- FUXmlWriter.cpp 78-81: `AddChild(parent, name)`: the new element. -/
def leaf (name : Text) : Node := .elem name [] [] []

/-- FUXmlWriter.cpp 135-161: the text `AddContent` stores; always defined (C25). -/
def encode (t : Text) : Text := (FXml.addContent (t ++ [0])).getD []

/-- FUXmlWriter.cpp 83-88: `AddChild(parent, name, content)`: the new element. -/
def textChild (name t : Text) : Node := .elem name [] (encode t) []

/-- FUXmlWriter.h 81: `AddChild<T>(parent, name, value)`: the new element; the text of the value is not escaped. -/
def valueChild (name t : Text) : Node := .elem name [] t []

/-! ## Numbers -/

/-- FUStringBuilder.hpp 207-231: the text of a `float`; it always fits in the buffer for texts of the format (C12). -/
def numText (fmt : ℚ → Text) (q : ℚ) : Text := (FConv.floatText fmt (.fin q)).getD []

/-- FUStringConversion.hpp 257-281, 558-568 and the `AddArray` functions (FAXColladaWriter.cpp 77-158): numbers with single blanks between them, those of several vectors or matrices one after the other. -/
def numsText (fmt : ℚ → Text) (qs : List ℚ) : Text := (FConv.spaced (fun q => FConv.floatText fmt (.fin q)) qs).getD []

/-- FUStringBuilder.cpp 34-46: the text of a `uint32` or `size_t`, of which only the low 32 bits are printed. -/
def natText (n : Nat) : Text := FBld.decimal (n % 2 ^ 32)

/-- FUStringBuilder.cpp 48-53: the text of an `int32`. -/
def intText (i : Int) : Text := FBld.decimalInt i

/-- `FUStringConversion::ToUInt32(const fm::string&)`. -/
def readNat (t : Text) : Option Nat := (FConv.toUInt32 (t ++ [0])).map Prod.fst

/-- `FUStringConversion::ToInt32(const fm::string&)`. -/
def readInt (ov : Ov) (t : Text) : Option Int := (FConv.toInt32 ov (t ++ [0])).map Prod.fst

/-- `FUStringConversion::ToFloat(const fm::string&)`. -/
def readNum (ov : Ov) (t : Text) : Option ℚ := (FConv.toFloat ov (t ++ [0])).map Prod.fst

/-- `FUStringConversion::ToBoolean(const fm::string&)`. -/
def readBool (t : Text) : Option Bool := FConv.toBoolean (t ++ [0])

/-! ## Sources -/

/-- FAXColladaWriter.cpp 68-75: `AddArray`. -/
def arrayNode (id type content : Text) (count : Nat) : Node := .elem type [(text "id", id), (text "count", natText count)] content []

/-- FAXColladaWriter.cpp 48-55: `AddParameter`; a name or type that is NULL is `none`. -/
def paramNode (name type : Option Text) : Node :=
  .elem (text "param") ((match name with | some n => if n = [] then [] else [(text "name", n)] | none => []) ++ [(text "type", type.getD (text "float"))]) [] []

/-- FAXColladaWriter.cpp 190: skip the characters that are not letters. -/
def skipSigns (t : Text) : Text := t.dropWhile fun c => !((97 ≤ c && c ≤ 122) || (65 ≤ c && c ≤ 90))

/-- FAXColladaWriter.cpp 187-190: the name of the parameter at `i`: the names are taken in turn, from the start again after the last. `none` stands for a NULL list. -/
def paramName (ps : Option (List Text)) (i : Nat) : Option Text := ps.map fun ps => skipSigns (ps.getD (i % ps.length) [])

/-- FAXColladaWriter.cpp 171-206: `AddAccessor`. -/
def accessor (arrayId : Text) (count stride : Nat) (ps : Option (List Text)) (type : Option Text) : Node :=
  .elem (text "accessor") [(text "source", 35 :: arrayId), (text "count", natText count), (text "stride", natText stride)] []
    (if stride = 16 then [paramNode (some (text "TRANSFORM")) (some (text "float4x4"))]
     else if stride = 32 then [paramNode (some (text "X_Y")) (some (text "float4x4"))]
     else (List.range stride).map fun i => paramNode (paramName ps i) type)

/-- FAXColladaWriter.cpp 208-371: the shape common to all `AddSource` functions. -/
def sourceNode (id arrayType content : Text) (len count stride : Nat) (ps : Option (List Text)) (type : Text) : Node :=
  .elem (text "source") [(text "id", id)] []
    [arrayNode (id ++ text "-array") arrayType content len, .elem (text "technique_common") [] [] [accessor (id ++ text "-array") count stride ps (some type)]]

/-- FAXColladaWriter.cpp 273-284: `AddSourceFloat` of a list of numbers with a stride. -/
def sourceFloats (fmt : ℚ → Text) (id : Text) (values : List ℚ) (stride : Nat) (ps : Option (List Text)) : Node :=
  let s := if stride = 0 then 1 else stride
  sourceNode id (text "float_array") (numsText fmt values) values.length (values.length / s) s ps (if s = 16 then text "float4x4" else text "float")

/-- FAXColladaWriter.cpp 219-269, 286-317: the sources of vectors, each a list of `stride` numbers; `ps` are the names `XYZW`, `RGBA`, `STPQ` or `XY` (FUDaeEnum.cpp 22-25). -/
def sourceVectors (fmt : ℚ → Text) (id : Text) (values : List (List ℚ)) (stride : Nat) (ps : Option (List Text)) : Node :=
  sourceNode id (text "float_array") (numsText fmt values.flatten) (values.length * stride) values.length stride ps (text "float")

/-- FAXColladaWriter.cpp 208-217: `AddSourceMatrix`. -/
def sourceMatrices (fmt : ℚ → Text) (id : Text) (values : List FConv.Mat) : Node :=
  sourceNode id (text "float_array") (numsText fmt (values.flatMap FConv.matEntries)) (values.length * 16) values.length 16 none (text "float4x4")

/-- FAXColladaWriter.cpp 156-169: the words with single blanks between them. -/
def wordsText : List Text → Text
  | [] => []
  | [a] => a
  | a :: b :: rest => a ++ 32 :: wordsText (b :: rest)

/-- FAXColladaWriter.cpp 319-341: `AddSourceString` (`type` "Name") and `AddSourceIDRef` ("IDREF"); a NULL parameter name is undefined behaviour (line 189-190) and not modelled. -/
def sourceNames (id : Text) (values : List Text) (param : Text) (idref : Bool) : Node :=
  sourceNode id (if idref then text "IDREF_array" else text "Name_array") (wordsText values) values.length values.length 1 (some [param]) (if idref then text "IDREF" else text "Name")

/-- FAXColladaParser.cpp 94-98: `FindTechniqueAccessor`. -/
def accessorOf (src : Node) : Option Node := (src.child (text "technique_common")).bind (·.child (text "accessor"))

/-- FAXColladaParser.cpp 503-507: `ReadNodeCount`. -/
def countOf (n : Option Node) : Option Nat := (prop n (text "count")).bind readNat

/-- FAXColladaParser.cpp 510-516: `ReadNodeStride`. -/
def strideOf (n : Option Node) : Option Nat := (prop n (text "stride")).bind fun t => (readNat t).map fun s => if s = 0 then 1 else s

/-- FAXColladaParser.cpp 130-145: `ReadSource` into a list of numbers: the stride and the numbers. -/
def readFloats (ov : Ov) (src : Node) (old : List ℚ) : Option (Nat × List ℚ) :=
  (strideOf (accessorOf src)).bind fun stride => (countOf (accessorOf src)).bind fun count =>
    (FConv.toList (FConv.toFloat ov) 0 (direct (src.child (text "float_array")) ++ [0]) (FConv.resizeTo 0 old (count * stride % 2 ^ 32))).map fun l => (stride, l)

/-- FAXColladaParser.cpp 163-176: `ReadSource` into a list of texts. -/
def readNames (src : Node) (old : List Text) : Option (List Text) :=
  (countOf (accessorOf src)).bind fun count =>
    FConv.toStringList (direct ((src.child (text "Name_array")).or (src.child (text "IDREF_array"))) ++ [0]) (FConv.resizeTo [] old count)

/-- FAXColladaParser.cpp 179-191: `ReadSource` into a list of points. -/
def readPoints (ov : Ov) (src : Node) (old : List (List ℚ)) : Option (List (List ℚ)) :=
  (countOf (accessorOf src)).bind fun count => FConv.toVecList (FConv.toVector ov 3) (direct (src.child (text "float_array")) ++ [0]) (FConv.resizeTo [] old count)

/-- FUStringConversion.hpp 492-496: the matrices already there, as far as the text goes. -/
def matOld (ov : Ov) : List FConv.Mat → Text → Option (List FConv.Mat × Text)
  | [], s => some ([], s)
  | m :: ms, s => (FConv.deref s).bind fun c => if c = 0 then some ([], s) else (FConv.toMatrix ov s m).bind fun r => (matOld ov ms r.2).map fun q => (r.1 :: q.1, q.2)

/-- FMMatrix44::Identity. -/
def identity : FConv.Mat := fun i j => if i = j then 1 else 0

/-- FUStringConversion.hpp 498-503: the matrices after these; `fuel` bounds the iterations. -/
def matRest (ov : Ov) : Nat → Text → Option (List FConv.Mat)
  | 0, _ => none
  | fuel + 1, s => (FConv.deref s).bind fun c => if c = 0 then some [] else (FConv.toMatrix ov s identity).bind fun r => (matRest ov fuel r.2).map (r.1 :: ·)

/-- FUStringConversion.hpp 485-505: `ToMatrixList`. -/
def toMatrixList (ov : Ov) (s : Text) (old : List FConv.Mat) : Option (List FConv.Mat) :=
  (FConv.deref s).bind fun c => if c = 0 then some [] else (matOld ov old s).bind fun r => (matRest ov (r.2.length + 1) r.2).map (r.1 ++ ·)

/-- FAXColladaParser.cpp 194-206: `ReadSource` into a list of matrices. -/
def readMatrices (ov : Ov) (src : Node) (old : List FConv.Mat) : Option (List FConv.Mat) :=
  (countOf (accessorOf src)).bind fun count => toMatrixList ov (direct (src.child (text "float_array")) ++ [0]) (FConv.resizeTo identity old count)

end Verif.FArc
