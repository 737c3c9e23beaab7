import Verif.Bytes
import Verif.StringBuilderModel
/-!
# Model of Array (/repo/DotNetLibrary/src/Array.cpp, include/Array.h)

Target x86-64 Linux: pointers 8 bytes, `wchar_t` a signed 4-byte integer, little-endian. The storage of an array is its list
of bytes. Simplifications: allocation never fails; a negative allocation size (a C++ runtime error, not a managed exception)
is `ub`; two different `Array` objects never share storage (the constructor of lines 43-46 could make them); an object
reference is the address it has (`Nat`, 0 = null) together with what its `get_As...` functions look at.
-/
namespace Verif.ArrModel
open SBModel (peek poke)
open IntVal (Ty)

/-- DotnetTypes.h lines 91-94: `DataType`. -/
inductive DT
  | null | object | boolean | char | int (t : Ty) | single | double | decimal | dateTime | timeSpan | string
  deriving DecidableEq, Repr

/-- `sizeof` of the integer types. -/
def tySize : Ty → Nat
  | .sbyte => 1 | .byte => 1 | .int16 => 2 | .uint16 => 2 | .int32 => 4 | .uint32 => 4 | .int64 => 8 | .uint64 => 8

/-- Array.cpp lines 22-42: `DataTypeSize`. -/
def DT.size : DT → Nat
  | .null => 0 | .object => 8 | .boolean => 1 | .char => 4 | .int t => tySize t | .single => 4 | .double => 8
  | .decimal => 8 | .dateTime => 8 | .timeSpan => 8 | .string => 8

/-- Object.cpp lines 34-36: `IsPrimitiveType`. -/
def DT.isPrimitive (t : DT) : Bool := t ≠ .object && t ≠ .string && t ≠ .null

/-- The data members of Array (Array.h lines 30-36). -/
structure Arr where
  ty : DT
  d1 : Int
  d2 : Int
  d3 : Int
  dims : Int
  total : Int
  data : List Nat
  deriving DecidableEq, Repr

/-- Array.cpp lines 51-66: `InitializeData`: dimension count and total element count (Int32 products). -/
def shapeOf (d1 d2 d3 : Int) : Res (Int × Int) :=
  (if d2 ≠ -1 then (i32 (d1 * d2)) >>= fun t => .ok (2, t) else .ok (1, d1)) >>= fun s =>
    if d3 ≠ -1 then (i32 (s.2 * d3)) >>= fun t => .ok (s.1 + 1, t) else .ok s

/-- Array.cpp lines 47-50: the constructor that allocates (zeroed) storage. -/
def newArr (ty : DT) (d1 d2 d3 : Int) : Res Arr :=
  (shapeOf d1 d2 d3) >>= fun s =>
    (i32 (s.2 * ty.size)) >>= fun n =>
      if n < 0 then .ub else .ok ⟨ty, d1, d2, d3, s.1, s.2, List.replicate n.toNat 0⟩

/-- Array.cpp lines 115-142: `ComputeIndex`. -/
def computeIndex (a : Arr) (i1 i2 i3 : Int) : Res Int :=
  if a.dims = 1 then
    if i1 < 0 ∨ i2 ≥ 0 ∨ i3 ≥ 0 then .throw .indexOutOfRange
    else if i1 ≥ a.d1 then .throw .indexOutOfRange
    else .ok i1
  else if a.dims = 2 then
    if i1 < 0 ∨ i2 < 0 ∨ i3 ≥ 0 then .throw .indexOutOfRange
    else if i1 ≥ a.d1 ∨ i2 ≥ a.d2 then .throw .indexOutOfRange
    else (i32 (i1 * a.d2)) >>= fun x => i32 (x + i2)
  else if a.dims = 3 then
    if i1 < 0 ∨ i2 < 0 ∨ i3 < 0 then .throw .indexOutOfRange
    else if i1 ≥ a.d1 ∨ i2 ≥ a.d2 ∨ i3 ≥ a.d3 then .throw .indexOutOfRange
    else (i32 (i1 * a.d2)) >>= fun x => (i32 (x * a.d3)) >>= fun x => (i32 (i2 * a.d3)) >>= fun y =>
      (i32 (x + y)) >>= fun z => i32 (z + i3)
  else .ok 0

/-- Array.cpp lines 72-74: `Address`, as a byte offset into the storage; an offset behind the end of it is `ub`. -/
def address (a : Arr) (i1 i2 i3 : Int) : Res Int :=
  (computeIndex a i1 i2 i3) >>= fun i => (i32 (i * a.ty.size)) >>= fun o =>
    if o < 0 ∨ o > a.data.length then .ub else .ok o

/-- Array.cpp lines 143-146: `EnsureSingleDimension`. -/
def ensureSingle (a : Arr) : Res Unit := if a.dims ≠ 1 then .throw .rank else .ok ()

/-- Array.cpp lines 147-157: `GetLength`. -/
def getLength (a : Arr) (rank : Int) : Res Int :=
  if rank > a.dims then .throw .indexOutOfRange
  else if rank = 0 then .ok a.d1
  else if rank = 1 then .ok a.d2
  else if rank = 2 then .ok a.d3
  else .ok (-1)

/-- Array.cpp lines 158-162: `GetLowerBound`. -/
def getLowerBound (a : Arr) (rank : Int) : Res Int := if rank > a.dims then .throw .indexOutOfRange else .ok 0

/-- Array.cpp lines 163-167: `GetUpperBound`. -/
def getUpperBound (a : Arr) (rank : Int) : Res Int :=
  if rank > a.dims then .throw .indexOutOfRange
  else (getLength a rank) >>= fun n => i32 (n - 1)

/-- Array.cpp lines 255-260: `get_Length`, `get_Rank`. -/
def length (a : Arr) : Int := a.total

/-! ## Values -/

/-- What an object's `get_As...` functions look at. Floating-point values are their bit patterns; a Char is the value of its
4-byte signed `wchar_t`; `opaque` is every class that leaves all of them throwing InvalidCastException (Object.cpp 48-90). -/
inductive Val
  | opaque
  | bool (b : Bool)
  | char (c : Int)
  | int (t : Ty) (v : Int)
  | single (bits : Int)
  | double (bits : Int)
  | dateTime (ticks : Int)
  | timeSpan (ticks : Int)
  deriving DecidableEq, Repr

/-- An object: its address and its value. -/
structure Ob where
  addr : Int
  val : Val
  deriving DecidableEq, Repr

/-- The floating-point conversions of the hardware, left uninterpreted here: integer to float, float to float, float to
integer (undefined when the value does not fit). -/
structure FConv where
  iToS : Int → Int
  iToD : Int → Int
  sToD : Int → Int
  dToS : Int → Int
  sToI : Ty → Int → Res Int
  dToI : Ty → Int → Res Int
  iToS_bits : ∀ x, U32 (iToS x)
  dToS_bits : ∀ x, U32 (dToS x)
  iToD_bits : ∀ x, U64 (iToD x)
  sToD_bits : ∀ x, U64 (sToD x)

/-- The `get_AsInt32/UInt32/Int64` functions: `<Class>Value.cpp` (each file's `get_As...` block); Object.cpp lines 48-90 for the
classes without one. `t` is the result type. -/
def asInt (F : FConv) (t : Ty) : Val → Res Int
  | .bool b => .ok (if b then 1 else 0)
  | .char c => .ok (t.wrap c)
  | .int _ v => .ok (t.wrap v)
  | .single x => F.sToI t x
  | .double x => F.dToI t x
  | .opaque => .throw .invalidCast
  | .dateTime _ => .throw .invalidCast
  | .timeSpan _ => .throw .invalidCast

/-- `get_AsBoolean`. -/
def asBool : Val → Res Bool
  | .bool b => .ok b
  | .int _ v => .ok (v ≠ 0)
  | _ => .throw .invalidCast

/-- `get_AsChar`: a cast to `wchar_t`. -/
def asChar : Val → Res Int
  | .char c => .ok c
  | .int _ v => .ok (wrapI32 v)
  | _ => .throw .invalidCast

/-- `get_AsSingle` (bits). -/
def asSingle (F : FConv) : Val → Res Int
  | .char c => .ok (F.iToS c)
  | .int _ v => .ok (F.iToS v)
  | .single x => .ok x
  | .double x => .ok (F.dToS x)
  | _ => .throw .invalidCast

/-- `get_AsDouble` (bits). -/
def asDouble (F : FConv) : Val → Res Int
  | .char c => .ok (F.iToD c)
  | .int _ v => .ok (F.iToD v)
  | .single x => .ok (F.sToD x)
  | .double x => .ok x
  | _ => .throw .invalidCast

/-- `get_AsDateTime` (the UInt64 inside). -/
def asDateTime : Val → Res Int
  | .dateTime x => .ok x
  | _ => .throw .invalidCast

/-- `get_AsTimeSpan` (the Int64 inside). -/
def asTimeSpan : Val → Res Int
  | .timeSpan x => .ok x
  | _ => .throw .invalidCast

/-- The bytes the `switch` of Array.cpp lines 270-320 stores for an element type. -/
def storeBytes (F : FConv) (ty : DT) (v : Ob) : Res (List Nat) :=
  match ty with
  | .object => .ok (leBytes 8 v.addr)
  | .string => .ok (leBytes 8 v.addr)
  | .boolean => (asBool v.val) >>= fun b => .ok (leBytes 1 (if b then 1 else 0))
  | .char => (asChar v.val) >>= fun c => .ok (leBytes 4 c)
  | .int .byte => (asInt F .int32 v.val) >>= fun x => .ok (leBytes 1 x)
  | .int .sbyte => (asInt F .int32 v.val) >>= fun x => .ok (leBytes 1 x)
  | .int .int16 => (asInt F .int32 v.val) >>= fun x => .ok (leBytes 2 x)
  | .int .uint16 => (asInt F .uint32 v.val) >>= fun x => .ok (leBytes 2 x)
  | .int .int32 => (asInt F .int32 v.val) >>= fun x => .ok (leBytes 4 x)
  | .int .uint32 => (asInt F .uint32 v.val) >>= fun x => .ok (leBytes 4 x)
  | .int .int64 => (asInt F .int64 v.val) >>= fun x => .ok (leBytes 8 x)
  | .int .uint64 => (asInt F .int64 v.val) >>= fun x => .ok (leBytes 8 x)
  | .single => (asSingle F v.val) >>= fun x => .ok (leBytes 4 x)
  | .double => (asDouble F v.val) >>= fun x => .ok (leBytes 8 x)
  | .dateTime => (asDateTime v.val) >>= fun x => .ok (leBytes 8 x)
  | .timeSpan => (asTimeSpan v.val) >>= fun x => .ok (leBytes 8 x)
  | .null => .throw .invalidCast
  | .decimal => .throw .invalidCast

/-- What `GetValue` hands out: an existing object (its address, 0 = null) or a freshly boxed value. -/
inductive Got
  | ptr (addr : Int)
  | box (v : Val)
  deriving DecidableEq, Repr

/-- The integer of an integral type in its bytes. -/
def loadInt (t : Ty) (bs : List Nat) : Int :=
  match t with
  | .sbyte | .int16 | .int32 | .int64 => leInt bs
  | .byte | .uint16 | .uint32 | .uint64 => leNat bs

/-- The `switch` of Array.cpp lines 184-224 on the bytes of the element. Reading a `bool` that is neither 0 nor 1 is
undefined. -/
def loadBytes (ty : DT) (bs : List Nat) : Res Got :=
  match ty with
  | .null => .ok (.ptr 0)
  | .object => .ok (.ptr (leNat bs))
  | .string => .ok (.ptr (leNat bs))
  | .boolean => if leNat bs = 0 then .ok (.box (.bool false)) else if leNat bs = 1 then .ok (.box (.bool true)) else .ub
  | .char => .ok (.box (.char (leInt bs)))
  | .int t => .ok (.box (.int t (loadInt t bs)))
  | .single => .ok (.box (.single (leNat bs)))
  | .double => .ok (.box (.double (leNat bs)))
  | .decimal => .throw .invalidCast
  | .dateTime => .ok (.box (.dateTime (leNat bs)))
  | .timeSpan => .ok (.box (.timeSpan (leInt bs)))

/-- Array.cpp lines 182-225: `GetValue(index1, index2, index3)`. -/
def getValue (a : Arr) (i1 i2 i3 : Int) : Res Got :=
  (address a i1 i2 i3) >>= fun o =>
    match peek a.data o a.ty.size with
    | none => .ub
    | some bs => loadBytes a.ty bs

/-- Array.cpp lines 266-321: `SetValue(value, index1, index2, index3)`: the array afterwards. The address is computed before the
conversion, the write comes last. -/
def setValue (F : FConv) (a : Arr) (v : Option Ob) (i1 i2 i3 : Int) : Res Arr :=
  match v with
  | none => .throw .argumentNull
  | some v =>
    (address a i1 i2 i3) >>= fun o => (storeBytes F a.ty v) >>= fun bs =>
      match poke a.data o bs with
      | none => .ub
      | some d => .ok { a with data := d }

/-- Lines 176-178 and 330-332: the `k`-th entry of an index array, read as an Int32 whatever its element type is. -/
def indexEntry (ix : Arr) (k : Int) : Res Int :=
  (address ix k (-1) (-1)) >>= fun o =>
    match peek ix.data o 4 with
    | none => .ub
    | some bs => .ok (leInt bs)

/-- Lines 168-181 and 322-338 up to the call: the three indices, or `none` for an empty index array (nothing is done then). -/
def indexEntries (ix : Option Arr) : Res (Option (Int × Int × Int)) :=
  match ix with
  | none => .throw .argumentNull
  | some ix =>
    (ensureSingle ix) >>= fun _ =>
      if ix.d1 > 3 then .throw .notImplemented
      else if ix.d1 = 0 then .ok none
      else (indexEntry ix 0) >>= fun i1 =>
        (if ix.d1 > 1 then indexEntry ix 1 else .ok (-1)) >>= fun i2 =>
          (if ix.d1 > 2 then indexEntry ix 2 else .ok (-1)) >>= fun i3 => .ok (some (i1, i2, i3))

/-- Array.cpp lines 168-181: `GetValue(Array*)`. -/
def getValueAt (a : Arr) (ix : Option Arr) : Res Got :=
  (indexEntries ix) >>= fun r =>
    match r with
    | none => .ok (.ptr 0)
    | some (i, j, k) => getValue a i j k

/-- Array.cpp lines 322-338: `SetValue(value, Array*)`. -/
def setValueAt (F : FConv) (a : Arr) (v : Option Ob) (ix : Option Arr) : Res Arr :=
  (indexEntries ix) >>= fun r =>
    match r with
    | none => .ok a
    | some (i, j, k) => setValue F a v i j k

/-! ## Block operations -/

/-- Array.cpp lines 339-349: `VerifyIndexWithinRangeOfArray`: it creates exceptions but never throws them. -/
def verifyRange (a : Arr) (start amount : Int) : Res Unit :=
  (ensureSingle a) >>= fun _ => (i32 (start + amount)) >>= fun _ => .ok ()

/-- Array.cpp lines 75-82: `Clear`. `memset` with a pointer or a range outside the storage is undefined. -/
def clear (a : Option Arr) (start amount : Int) : Res Arr :=
  match a with
  | none => .throw .argumentNull
  | some a =>
    (ensureSingle a) >>= fun _ => (verifyRange a start amount) >>= fun _ =>
      (i32 (start * a.ty.size)) >>= fun o => (i32 (amount * a.ty.size)) >>= fun n =>
        if n < 0 then .ub
        else match poke a.data o (List.replicate n.toNat 0) with
          | none => .ub
          | some d => .ok { a with data := d }

/-- The checks of Array.cpp lines 92-102. -/
def copyChecks (src dst : Arr) (si di n : Int) : Res Unit :=
  if n < 0 then .throw .argumentOutOfRange
  else if si < 0 ∨ di < 0 then .throw .argument
  else (i32 (si + n)) >>= fun x =>
    if x > src.total then .throw .argument
    else (i32 (di + n)) >>= fun y =>
      if y > dst.total then .throw .argument
      else if src.dims ≠ dst.dims then .throw .rank
      else if src.ty ≠ dst.ty then .throw .notImplemented
      else .ok ()

/-- Array.cpp lines 89-107: `Copy` between two different arrays: the destination afterwards (`ConstrainedCopy`, lines 83-85, is
the same call). -/
def copy (src : Option Arr) (si : Int) (dst : Option Arr) (di n : Int) : Res Arr :=
  match src, dst with
  | some src, some dst =>
    (copyChecks src dst si di n) >>= fun _ =>
      (i32 (di * src.ty.size)) >>= fun d => (i32 (si * src.ty.size)) >>= fun s => (i32 (n * src.ty.size)) >>= fun len =>
        match peek src.data s len with
        | none => .ub
        | some bs => match poke dst.data d bs with
          | none => .ub
          | some m => .ok { dst with data := m }
  | _, _ => .throw .argumentNull

/-- Array.cpp lines 89-107: `Copy` within one array. `memcpy` on overlapping ranges is undefined in C++; `ov = true` models a
platform whose `memcpy` nevertheless copies as through a temporary. -/
def copyWithin (ov : Bool) (a : Arr) (si di n : Int) : Res Arr :=
  (copyChecks a a si di n) >>= fun _ =>
    (i32 (di * a.ty.size)) >>= fun d => (i32 (si * a.ty.size)) >>= fun s => (i32 (n * a.ty.size)) >>= fun len =>
      if ov = false ∧ s < d + len ∧ d < s + len then .ub
      else match peek a.data s len with
        | none => .ub
        | some bs => match poke a.data d bs with
          | none => .ub
          | some m => .ok { a with data := m }

/-- Array.cpp lines 108-114: `CopyTo` of another array. -/
def copyTo (a : Arr) (dst : Option Arr) (index : Int) : Res Arr :=
  match dst with
  | none => .throw .argumentNull
  | some d =>
    (ensureSingle d) >>= fun _ => (verifyRange d index a.total) >>= fun _ => copy (some a) 0 (some d) index a.d1

/-- Array.cpp lines 261-265: `Initialize` from `mem`, the bytes readable behind the pointer. -/
def initFrom (a : Arr) (mem : List Nat) : Res Arr :=
  (i32 (a.total * a.ty.size)) >>= fun n =>
    match peek mem 0 n with
    | none => .ub
    | some bs => match poke a.data 0 bs with
      | none => .ub
      | some d => .ok { a with data := d }

/-- The loop of Array.cpp lines 242-252. `eq p q` is what the virtual `Equals` of the object at `p` answers for `q`. -/
def indexOfLoop (eq : Int → Int → Bool) (a : Arr) (value : Int) : Nat → Int → Res Int
  | 0, _ => .ok (-1)
  | n + 1, i =>
    (getValue a i (-1) (-1)) >>= fun g =>
      match g with
      | .box _ => .ub
      | .ptr p =>
        if p = 0 then (if value = 0 then .ok i else indexOfLoop eq a value n (i + 1))
        else if eq p value then .ok i else indexOfLoop eq a value n (i + 1)

/-- Array.cpp lines 226-254: `IndexOf(array, value, startIndex, count)`; `value` is an address, 0 = null. -/
def indexOf (eq : Int → Int → Bool) (a : Option Arr) (value startIndex count : Int) : Res Int :=
  match a with
  | none => .throw .argumentNull
  | some a =>
    if a.dims ≠ 1 then .throw .rank
    else (if count < 0 then i32 (a.total - startIndex) else .ok count) >>= fun count =>
      if startIndex < 0 ∨ startIndex > a.total then .throw .argumentOutOfRange
      else if count < 0 ∨ count > a.total - startIndex then .throw .argumentOutOfRange
      else if a.ty ≠ .object ∧ a.ty ≠ .string then .throw .notImplemented
      else (i32 (startIndex + count)) >>= fun _ => indexOfLoop eq a value count.toNat startIndex

end Verif.ArrModel
