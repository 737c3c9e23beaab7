import Verif.ArrayModel
/-!
# Model of Buffer and BitConverter (/repo/DotNetLibrary/src/Buffer.cpp, BitConverter.cpp)

Same conventions as `ArrayModel`: storage is a list of bytes, x86-64 Linux representation, an access outside the storage is
`ub`, two different `Array` objects do not share storage.
-/
namespace Verif.BufModel
open ArrModel
open SBModel (peek poke)
open IntVal (Ty)

/-! ## Buffer -/

/-- Buffer.cpp lines 22-42, the checks of `BlockCopy`. `UInt32` byte lengths are compared with the Int32 sums converted to
UInt32. -/
def blockChecks (src dst : Option Arr) (so d n : Int) : Res (Arr × Arr) :=
  match src, dst with
  | some src, some dst =>
    (ensureSingle src) >>= fun _ => (ensureSingle dst) >>= fun _ =>
      if src.ty.isPrimitive = false then .throw .argument
      else if dst.ty.isPrimitive = false then .throw .argument
      else if so < 0 then .throw .argumentOutOfRange
      else if d < 0 then .throw .argumentOutOfRange
      else if n < 0 then .throw .argumentOutOfRange
      else (i32 (src.total * src.ty.size)) >>= fun sl => (i32 (dst.total * dst.ty.size)) >>= fun dl =>
        (i32 (so + n)) >>= fun se =>
          if wrapU32 sl < wrapU32 se then .throw .argument
          else (i32 (d + n)) >>= fun de =>
            if wrapU32 dl < wrapU32 de then .throw .argument
            else .ok (src, dst)
  | _, _ => .throw .argumentNull

/-- Buffer.cpp lines 22-44: `BlockCopy` between two different arrays: the destination afterwards. `Address(0)` throws on an
empty array. -/
def blockCopy (src : Option Arr) (so : Int) (dst : Option Arr) (d n : Int) : Res Arr :=
  (blockChecks src dst so d n) >>= fun (src, dst) =>
    (address dst 0 (-1) (-1)) >>= fun db => (address src 0 (-1) (-1)) >>= fun sb =>
      match peek src.data (sb + so) n with
      | none => .ub
      | some bs => match poke dst.data (db + d) bs with
        | none => .ub
        | some m => .ok { dst with data := m }

/-- Buffer.cpp lines 22-44: `BlockCopy` within one array (`memmove` allows overlap). -/
def blockCopyWithin (a : Option Arr) (so d n : Int) : Res Arr :=
  (blockChecks a a so d n) >>= fun (a, _) =>
    (address a 0 (-1) (-1)) >>= fun b =>
      match SBModel.move a.data (b + d) (b + so) n with
      | none => .ub
      | some m => .ok { a with data := m }

/-- Buffer.cpp lines 45-57: `ByteLength`. -/
def byteLength (a : Option Arr) : Res Int :=
  match a with
  | none => .throw .argumentNull
  | some a =>
    if a.ty.isPrimitive = false then .throw .argument
    else (ensureSingle a) >>= fun _ => i32 (a.total * a.ty.size)

/-- Buffer.cpp lines 58-63: `GetByte`. -/
def getByte (a : Option Arr) (i : Int) : Res Nat :=
  (byteLength a) >>= fun n =>
    if i ≥ n then .throw .argumentOutOfRange
    else match a with
      | none => .ub
      | some a => (address a 0 (-1) (-1)) >>= fun b =>
        match peek a.data (b + i) 1 with
        | some [x] => .ok x
        | _ => .ub

/-- Buffer.cpp lines 64-69: `SetByte`: the array afterwards. `value` is a Byte. -/
def setByte (a : Option Arr) (i : Int) (value : Nat) : Res Arr :=
  (byteLength a) >>= fun n =>
    if i ≥ n then .throw .argumentOutOfRange
    else match a with
      | none => .ub
      | some a => (address a 0 (-1) (-1)) >>= fun b =>
        match poke a.data (b + i) [value] with
        | none => .ub
        | some m => .ok { a with data := m }

/-! ## BitConverter -/

/-- BitConverter.cpp lines 28-32: `GetBytes(Byte* ptr, Int32 count)`; `mem` is the object behind `ptr`. -/
def getBytes (mem : List Nat) (count : Int) : Res Arr :=
  (newArr (.int .byte) count (-1) (-1)) >>= fun a => (address a 0 (-1) (-1)) >>= fun o =>
    match peek mem 0 count with
    | none => .ub
    | some bs => match poke a.data o bs with
      | none => .ub
      | some m => .ok { a with data := m }

/-- BitConverter.cpp lines 33-42: `PutBytes`: the bytes written to the local variable. -/
def putBytes (src : Option Arr) (start count : Int) : Res (List Nat) :=
  match src with
  | none => .throw .argumentNull
  | some a =>
    if start < 0 then .throw .argumentOutOfRange
    else (i32 (a.total - 1)) >>= fun last =>
      if start > last then .throw .argumentOutOfRange
      else (i32 (a.total - count)) >>= fun room =>
        if room < start then .throw .argument
        else (address a start (-1) (-1)) >>= fun o =>
          match peek a.data o count with
          | none => .ub
          | some bs => .ok bs

/-- Lines 43-45: `DoubleToInt64Bits`. A Double is its bit pattern, a UInt64. -/
def doubleToInt64Bits (bits : Int) : Int := wrapI64 bits
/-- Lines 46-48: `Int64BitsToDouble`. -/
def int64BitsToDouble (x : Int) : Int := wrapU64 x

/-- Lines 49-51: `GetBytes(Boolean)`. -/
def getBytesBool (b : Bool) : Res Arr := getBytes (leBytes 1 (if b then 1 else 0)) 1
/-- Lines 52-56: `GetBytes(Char)`: through an Int16. -/
def getBytesChar (c : Int) : Res Arr := getBytes (leBytes 2 (wrapI16 c)) 2
/-- Lines 57-59: `GetBytes(Double)` of a bit pattern. -/
def getBytesDouble (bits : Int) : Res Arr := getBytes (leBytes 8 bits) 8
/-- Lines 69-71: `GetBytes(Single)` of a bit pattern. -/
def getBytesSingle (bits : Int) : Res Arr := getBytes (leBytes 4 bits) 4
/-- Lines 60-68 and 72-80: `GetBytes(Int16 ... UInt64)`. The class has no overload for Byte and SByte. -/
def getBytesInt (t : Ty) (x : Int) : Res Arr := getBytes (leBytes (tySize t) x) (tySize t)

/-- Lines 81-89: `ToBoolean`. -/
def toBool (v : Option Arr) (start : Int) : Res Bool :=
  match v with
  | none => .throw .argumentNull
  | some a =>
    if start < 0 then .throw .argumentOutOfRange
    else (i32 (a.total - 1)) >>= fun last =>
      if start > last then .throw .argumentOutOfRange
      else (address a start (-1) (-1)) >>= fun o =>
        match peek a.data o 1 with
        | none => .ub
        | some bs => .ok (leNat bs ≠ 0)

/-- Lines 90-95: `ToChar`: the Int16 converted to the 4-byte signed `wchar_t`. -/
def toChar (v : Option Arr) (start : Int) : Res Int := (putBytes v start 2) >>= fun bs => .ok (leInt bs)
/-- Lines 96-100: `ToDouble` (bits). -/
def toDouble (v : Option Arr) (start : Int) : Res Int := (putBytes v start 8) >>= fun bs => .ok (leNat bs)
/-- Lines 116-120: `ToSingle` (bits). -/
def toSingle (v : Option Arr) (start : Int) : Res Int := (putBytes v start 4) >>= fun bs => .ok (leNat bs)
/-- Lines 101-115 and 121-135: `ToInt16 ... ToUInt64`. -/
def toInt (t : Ty) (v : Option Arr) (start : Int) : Res Int := (putBytes v start (tySize t)) >>= fun bs => .ok (loadInt t bs)

/-- Lines 162-174: the character of a nibble. -/
def nibbleChar (x : Nat) : Nat := if x < 10 then x + 48 else x - 10 + 65

/-- An outcome of the local builder as an outcome of the function. -/
def ofOut : SBModel.Out → Res SBModel.SB
  | .done s => .ok s
  | .threw e _ => .throw e
  | .ub => .ub

/-- BitConverter.cpp lines 155-177: the loop of `ToString`, `n` rounds left, at index `i`. -/
def dumpLoop (a : Arr) (start : Int) : Nat → Int → SBModel.SB → Res SBModel.SB
  | 0, _, s => .ok s
  | n + 1, i, s =>
    (if i > start then ofOut (SBModel.appendChar s 45 1) else .ok s) >>= fun s =>
      (address a i (-1) (-1)) >>= fun o =>
        match peek a.data o 1 with
        | some [b] =>
          (ofOut (SBModel.appendChar s (nibbleChar (b / 16 % 16)) 1)) >>= fun s =>
            (ofOut (SBModel.appendChar s (nibbleChar (b % 16)) 1)) >>= fun s => dumpLoop a start n (i + 1) s
        | _ => .ub

/-- BitConverter.cpp lines 136-179: `ToString(value, startIndex, length)` (defaults 0 and -1 in the header). -/
def toString (v : Option Arr) (start length : Int) : Res WStr :=
  match v with
  | none => .throw .argumentNull
  | some a =>
    (if length = -1 then i32 (a.total - start) else .ok length) >>= fun length =>
      if start < 0 ∨ start ≥ a.total then
        if start = 0 ∧ a.total = 0 then .ok [] else .throw .argumentOutOfRange
      else if length < 0 then .throw .argumentOutOfRange
      else (i32 (a.total - length)) >>= fun room =>
        if start > room then .throw .argument
        else if length = 0 then .ok []
        else (i32 (length * 3)) >>= fun c3 => (i32 (c3 - 1)) >>= fun c =>
          (ofOut (SBModel.create c SBModel.maximumCapacity)) >>= fun s =>
            (i32 (start + length)) >>= fun _ => (dumpLoop a start length.toNat start s) >>= fun s => SBModel.toStr s

end Verif.BufModel
