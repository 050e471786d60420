import Verif.ArcState
import Verif.ArcSpec
import Verif.PassSpec
import Verif.ConvMoreSpec

/-!
# What a user expects of the saving and loading of render states

The structures are those in the comments of `FUDaePassState::State`, `/repo/FCollada/FUtils/FUDaeEnum.h` 742-868: fields one after the other. Here only the types of the fields matter. The two tables were generated
from the header, not from the code that saves or loads.
-/

namespace Verif.FArc

open Verif.FEff (Text text)
open Verif.FConv (shown)
open Verif.FPass (Cell)

/-- The documented fields of each render state, by number; vectors and matrices are written as their floats. -/
def docScal : Nat → List Scal
  | 0 => [.enum .function, .float]
  | 1 => [.enum .blendType, .enum .blendType]
  | 2 => [.enum .blendType, .enum .blendType, .enum .blendType, .enum .blendType]
  | 3 => [.enum .blendEquation]
  | 4 => [.enum .blendEquation, .enum .blendEquation]
  | 5 => [.enum .faceType, .enum .materialType]
  | 6 => [.enum .faceType]
  | 7 => [.enum .function]
  | 8 => [.enum .fogType]
  | 9 => [.enum .fogCoordinateType]
  | 10 => [.enum .frontFaceType]
  | 11 => [.enum .lightModelColorControlType]
  | 12 => [.enum .logicOperation]
  | 13 => [.enum .faceType, .enum .polygonMode]
  | 14 => [.enum .shadeModel]
  | 15 => [.enum .function, .u8, .u8]
  | 16 => [.enum .stencilOperation, .enum .stencilOperation, .enum .stencilOperation]
  | 17 => [.enum .function, .enum .function, .u8, .u8]
  | 18 => [.enum .faceType, .enum .stencilOperation, .enum .stencilOperation, .enum .stencilOperation]
  | 19 => [.enum .faceType, .u8]
  | 20 | 37 | 38 | 39 | 40 | 41 | 42 | 46 => [.u8, .bool]
  | 21 | 22 | 23 | 24 | 29 | 43 | 45 => [.u8, .float, .float, .float, .float]
  | 25 | 26 | 27 | 28 | 30 => [.u8, .float]
  | 31 | 32 | 33 | 34 | 35 | 36 => [.u8, .u32]
  | 44 => [.u8, .chars]
  | 47 | 48 | 58 | 59 | 63 | 64 | 65 | 67 | 76 => [.float, .float, .float, .float]
  | 49 | 77 => [.u32]
  | 50 | 55 | 56 | 57 | 62 | 66 | 70 | 71 | 72 | 73 => [.float]
  | 51 => [.bool, .bool, .bool, .bool]
  | 52 | 54 | 74 => [.float, .float]
  | 53 | 60 | 78 | 79 | 80 | 81 | 82 | 83 | 84 | 85 | 86 | 87 | 88 | 89 | 90 | 91 | 92 | 93 | 94 | 95 | 96 | 97 | 98 | 99 | 100 | 101 | 102 | 103 | 104 | 105 | 106 | 107 => [.bool]
  | 61 => [.u16, .u16]
  | 68 | 75 => List.replicate 16 .float
  | 69 => [.float, .float, .float]
  | _ => []

/-- The values of the enumerations, FUDaeEnum.h 369-725. -/
def enumValues : EKind → List Nat
  | .function => [0x200, 0x201, 0x202, 0x203, 0x204, 0x205, 0x206, 0x207]
  | .stencilOperation => [0x1e00, 0x0, 0x1e01, 0x1e02, 0x1e03, 0x1e0a, 0x8507, 0x8508]
  | .blendType => [0x0, 0x1, 0x300, 0x301, 0x306, 0x307, 0x302, 0x303, 0x304, 0x305, 0x8001, 0x8002, 0x8003, 0x8004, 0x308]
  | .faceType => [0x404, 0x405, 0x408]
  | .blendEquation => [0x8006, 0x800a, 0x800b, 0x8007, 0x8008]
  | .materialType => [0x1600, 0x1200, 0x1201, 0x1202, 0x1602]
  | .fogType => [0x2601, 0x800, 0x801]
  | .fogCoordinateType => [0x8451, 0x8452]
  | .frontFaceType => [0x900, 0x901]
  | .logicOperation => [0x1500, 0x1501, 0x1502, 0x1503, 0x1504, 0x1505, 0x1506, 0x1507, 0x1508, 0x1509, 0x150a, 0x150b, 0x150c, 0x150e, 0x150f]
  | .polygonMode => [0x1b00, 0x1b01, 0x1b02]
  | .shadeModel => [0x1d00, 0x1d01]
  | .lightModelColorControlType => [0x81f9, 0x81fa]

/-- The bytes of a field that holds a value; texts are filled up with zeros to 255 bytes. -/
def valBytes : Scal → SV → List Cell
  | .u8, .nat n => FPass.le 1 n
  | .u16, .nat n => FPass.le 2 n
  | .u32, .nat n => FPass.le 4 n
  | .enum _, .nat n => FPass.le 4 n
  | .bool, .bool b => [.byte b.toNat]
  | .float, .fl q => FPass.ieee q
  | .chars, .str t => t.map (fun c => .byte (byteOf c)) ++ List.replicate (255 - t.length) (.byte 0)
  | _, _ => []

/-- The data of a render state of which the fields hold values. -/
def dataOf : List Scal → List SV → List Cell
  | s :: ss, v :: vs => valBytes s v ++ dataOf ss vs
  | _, _ => []

/-- The values that a field can hold: numbers that fit, the values of the enumeration, and texts of at most 254 characters, none of them a zero or a percent sign. -/
def GoodSV : Scal → SV → Prop
  | .u8, .nat n => n < 2 ^ 8
  | .u16, .nat n => n < 2 ^ 16
  | .u32, .nat n => n < 2 ^ 32
  | .enum e, .nat n => n ∈ enumValues e
  | .bool, .bool _ => True
  | .float, .fl _ => True
  | .chars, .str t => Plain t ∧ t.length ≤ 254
  | _, _ => False

/-- A value after saving and loading: floats keep the digits that are written. -/
def roundSV (rnd : ℚ → ℚ) : SV → SV
  | .fl q => .fl (shown rnd q)
  | v => v

end Verif.FArc
