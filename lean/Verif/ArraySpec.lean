import Verif.ArrayModel
/-!
# Specification vocabulary for arrays
-/
namespace Verif.ArrSpec
open ArrModel
open IntVal (Ty)

/-- Sizes of a one-, two- or three-dimensional array. -/
inductive Shape
  | one (a : Int)
  | two (a b : Int)
  | three (a b c : Int)
  deriving DecidableEq, Repr

/-- An index tuple. -/
inductive Idx
  | one (i : Int)
  | two (i j : Int)
  | three (i j k : Int)
  deriving DecidableEq, Repr

/-- The sizes as constructor arguments (-1 = absent). -/
def Shape.args : Shape → Int × Int × Int
  | .one a => (a, -1, -1) | .two a b => (a, b, -1) | .three a b c => (a, b, c)

/-- The indices as call arguments (-1 = absent). -/
def Idx.args : Idx → Int × Int × Int
  | .one i => (i, -1, -1) | .two i j => (i, j, -1) | .three i j k => (i, j, k)

def Shape.rank : Shape → Int
  | .one _ => 1 | .two _ _ => 2 | .three _ _ _ => 3
def Idx.rank : Idx → Int
  | .one _ => 1 | .two _ _ => 2 | .three _ _ _ => 3

/-- Number of elements. -/
def Shape.cells : Shape → Int
  | .one a => a | .two a b => a * b | .three a b c => a * b * c

/-- Size of dimension number `d`. -/
def Shape.size : Shape → Int → Option Int
  | .one a, d => if d = 0 then some a else none
  | .two a b, d => if d = 0 then some a else if d = 1 then some b else none
  | .three a b c, d => if d = 0 then some a else if d = 1 then some b else if d = 2 then some c else none

def Shape.NonNeg : Shape → Prop
  | .one a => 0 ≤ a | .two a b => 0 ≤ a ∧ 0 ≤ b | .three a b c => 0 ≤ a ∧ 0 ≤ b ∧ 0 ≤ c

/-- The index lies inside the shape (and has its rank). -/
def InBounds : Shape → Idx → Prop
  | .one a, .one i => 0 ≤ i ∧ i < a
  | .two a b, .two i j => (0 ≤ i ∧ i < a) ∧ (0 ≤ j ∧ j < b)
  | .three a b c, .three i j k => (0 ≤ i ∧ i < a) ∧ (0 ≤ j ∧ j < b) ∧ (0 ≤ k ∧ k < c)
  | _, _ => False

/-- Row-major position. -/
def rowMajor : Shape → Idx → Int
  | .two _ b, .two i j => i * b + j
  | .three _ b c, .three i j k => (i * b + j) * c + k
  | _, .one i => i
  | _, _ => 0

instance (sh : Shape) : Decidable sh.NonNeg := by cases sh <;> unfold Shape.NonNeg <;> infer_instance
instance (sh : Shape) (ix : Idx) : Decidable (InBounds sh ix) := by cases sh <;> cases ix <;> unfold InBounds <;> infer_instance

/-- The array has this shape, and storage for exactly its elements. Every array made by the constructor has one
(`ArrProps.newArr_shape`) and all operations keep it. -/
structure HasShape (sh : Shape) (a : Arr) : Prop where
  nonneg : sh.NonNeg
  d1 : a.d1 = sh.args.1
  d2 : a.d2 = sh.args.2.1
  d3 : a.d3 = sh.args.2.2
  dims : a.dims = sh.rank
  total : a.total = sh.cells
  bytes : (a.data.length : Int) = sh.cells * a.ty.size
  fits : sh.cells ≤ 2147483647
  fitsBytes : sh.cells * a.ty.size ≤ 2147483647

/-- The bytes of the `m`-th element in storage order. -/
def cell (a : Arr) (m : Nat) : List Nat := (a.data.drop (m * a.ty.size)).take a.ty.size

/-- The API calls with an index tuple. -/
def addressOf (a : Arr) (ix : Idx) : Res Int := address a ix.args.1 ix.args.2.1 ix.args.2.2
def getAt (a : Arr) (ix : Idx) : Res Got := getValue a ix.args.1 ix.args.2.1 ix.args.2.2
def setAt (F : FConv) (a : Arr) (v : Option Ob) (ix : Idx) : Res Arr := setValue F a v ix.args.1 ix.args.2.1 ix.args.2.2

/-- A value that can exist: numbers in the range of their type, bit patterns of the right width, Chars UTF-16 code units. -/
def Val.Wf : Val → Prop
  | .opaque => True
  | .bool _ => True
  | .char c => 0 ≤ c ∧ c ≤ 65535
  | .int t x => t.min ≤ x ∧ x ≤ t.max
  | .single b => U32 b
  | .double b => U64 b
  | .dateTime t => U64 t
  | .timeSpan t => I64 t

/-- A value converted to an element type, where that conversion exists: modular between integers, nonzero test to Boolean,
the hardware conversions `F` to floating point, identity on the same class; a Char element takes the integers that are
code units. (Conversions from floating point to integers are not listed.) -/
def converted (F : FConv) : DT → Val → Option Val
  | .int t, .int _ x => some (.int t (t.wrap x))
  | .int t, .char c => some (.int t (t.wrap c))
  | .int t, .bool b => some (.int t (if b then 1 else 0))
  | .boolean, .bool b => some (.bool b)
  | .boolean, .int _ x => some (.bool (x ≠ 0))
  | .char, .char c => some (.char c)
  | .char, .int _ x => if 0 ≤ x ∧ x ≤ 65535 then some (.char x) else none
  | .single, .single b => some (.single b)
  | .single, .double b => some (.single (F.dToS b))
  | .single, .int _ x => some (.single (F.iToS x))
  | .single, .char c => some (.single (F.iToS c))
  | .double, .double b => some (.double b)
  | .double, .single b => some (.double (F.sToD b))
  | .double, .int _ x => some (.double (F.iToD x))
  | .double, .char c => some (.double (F.iToD c))
  | .dateTime, .dateTime t => some (.dateTime t)
  | .timeSpan, .timeSpan t => some (.timeSpan t)
  | _, _ => none

end Verif.ArrSpec
