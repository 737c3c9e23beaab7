import Verif.TextModel
/-!
# Model of integer parsing, printing and comparison
/repo/DotNetLibrary/src/{SByte,Byte,Int16,UInt16,Int32,UInt32,Int64,UInt64}Value.cpp

A `String*` argument is `none` (null) or its characters; its buffer is the characters followed by a NUL
(StringDotNet.cpp lines 32-93).
-/
namespace Verif.IntVal

/-- The eight integral types. -/
inductive Ty | sbyte | byte | int16 | uint16 | int32 | uint32 | int64 | uint64
  deriving DecidableEq, Repr

/-- `MinValue`: SByteValue.cpp 24, ByteValue.cpp 23, Int16Value.cpp 23, UInt16Value.cpp 24, Int32Value.cpp 24,
UInt32Value.cpp 24, Int64Value.cpp 24, UInt64Value.cpp 24. -/
def Ty.min : Ty → Int
  | .sbyte => -128 | .byte => 0 | .int16 => -32768 | .uint16 => 0 | .int32 => -2147483648 | .uint32 => 0
  | .int64 => -9223372036854775808 | .uint64 => 0

/-- `MaxValue`: SByteValue.cpp 23, ByteValue.cpp 22, Int16Value.cpp 22, UInt16Value.cpp 23, Int32Value.cpp 23,
UInt32Value.cpp 23, Int64Value.cpp 23, UInt64Value.cpp 23. -/
def Ty.max : Ty → Int
  | .sbyte => 127 | .byte => 255 | .int16 => 32767 | .uint16 => 65535 | .int32 => 2147483647 | .uint32 => 4294967295
  | .int64 => 9223372036854775807 | .uint64 => 18446744073709551615

/-- Conversion of an integer to the type (C++ integral conversion, two's complement). -/
def Ty.wrap : Ty → Int → Int
  | .sbyte => wrapI8 | .byte => wrapU8 | .int16 => wrapI16 | .uint16 => wrapU16
  | .int32 => wrapI32 | .uint32 => wrapU32 | .int64 => wrapI64 | .uint64 => wrapU64

/-- First loop of `TryParseInternal`, UInt64Value.cpp lines 119-124. The memory list holds the characters from
`source` on; reading past its end is undefined behaviour. -/
def skipSpace (L : Locale) : List Nat → Int → Res (List Nat × Int)
  | [], _ => .ub
  | c :: rest, len =>
    if c ≠ 0 ∧ len > 0 then
      if L.isSpace c then skipSpace L rest (len - 1) else .ok (c :: rest, len)
    else .ok (c :: rest, len)

/-- Sign handling, UInt64Value.cpp lines 125-135. -/
def readSign : List Nat → Int → Res (List Nat × Int × Int)
  | [], _ => .ub
  | c :: rest, len =>
    if c ≠ 0 ∧ len > 0 then
      if c = 45 then .ok (rest, len - 1, -1)
      else if c = 43 then .ok (rest, len - 1, 1)
      else .ok (c :: rest, len, 1)
    else .ok (c :: rest, len, 1)

/-- Digit loop, UInt64Value.cpp lines 136-143: `result = 10 * result + *source - '0'` on UInt64. -/
def readDigits : List Nat → Int → Int → Bool → Res (List Nat × Int × Int × Bool)
  | [], _, _, _ => .ub
  | c :: rest, len, result, got =>
    if c ≠ 0 ∧ len > 0 then
      if isDigit c then readDigits rest (len - 1) (wrapU64 (10 * result + c - 48)) true
      else .ok (c :: rest, len, result, got)
    else .ok (c :: rest, len, result, got)

/-- What `TryParseInternal` reports. -/
structure Parsed where
  good : Bool
  value : Int
  sign : Int
  deriving DecidableEq, Repr

/-- `TryParseInternal(Char* source, Int32 sourceLength, ...)`, UInt64Value.cpp lines 115-147. -/
def tryParseInternal (L : Locale) (mem : List Nat) (len : Int) : Res Parsed := do
  let (m1, l1) ← skipSpace L mem len
  let (m2, l2, sign) ← readSign m1 l1
  let (m3, l3, value, got) ← readDigits m2 l2 0 false
  match m3 with
  | [] => .ub
  | c :: _ =>
    let good := if l3 > 0 ∧ L.isSpace c = false then false else got
    .ok { good := good, value := value, sign := sign }

/-- `TryParseInternal(String*, ...)`, UInt64Value.cpp lines 110-114. -/
def tryParseString (L : Locale) : Option WStr → Res Parsed
  | none => .throw .argumentNull
  | some s => tryParseInternal L (s ++ [0]) s.length

/-- `Parse`: SByteValue.cpp 90-100, ByteValue.cpp 88-96, Int16Value.cpp 89-99, UInt16Value.cpp 90-98,
Int32Value.cpp 90-100, UInt32Value.cpp 90-98, Int64Value.cpp 90-96, UInt64Value.cpp 90-98. -/
def parse (L : Locale) (ty : Ty) (s : Option WStr) : Res Int := do
  let p ← tryParseString L s
  if p.good = false then .throw .format
  else match ty with
    | .byte => if p.sign < 0 ∨ p.value > 255 then .throw .overflow else .ok (wrapU8 p.value)
    | .sbyte =>
      if p.sign > 0 ∧ p.value > 127 then .throw .overflow
      else if p.sign < 0 ∧ wrapI64 p.value < -128 then .throw .overflow
      else .ok (wrapI8 (wrapI8 p.value * p.sign))
    | .int16 =>
      if p.sign > 0 ∧ p.value > 32767 then .throw .overflow
      else if p.sign < 0 ∧ wrapI64 p.value < -32768 then .throw .overflow
      else .ok (wrapI16 (wrapI16 p.value * p.sign))
    | .uint16 => if p.value > 65535 then .throw .overflow else .ok (wrapU16 (wrapU16 p.value * p.sign))
    | .int32 =>
      if p.sign > 0 ∧ p.value > 2147483647 then .throw .overflow
      else if p.sign < 0 ∧ wrapI64 p.value < -2147483648 then .throw .overflow
      else i32 (wrapI32 p.value * p.sign)
    | .uint32 => if p.value > 4294967295 then .throw .overflow else .ok (wrapU32 (wrapU32 p.value * p.sign))
    | .int64 => i64 (wrapI64 p.value * p.sign)
    | .uint64 => if p.value > 18446744073709551615 then .throw .overflow else .ok p.value

/-- `TryParse` (returned flag and the value stored in `result`): SByteValue.cpp 101-113, ByteValue.cpp 97-107,
Int16Value.cpp 100-112, UInt16Value.cpp 99-109, Int32Value.cpp 101-113, UInt32Value.cpp 99-109,
Int64Value.cpp 97-105, UInt64Value.cpp 99-109. -/
def tryParse (L : Locale) (ty : Ty) (s : Option WStr) : Res (Bool × Int) := do
  let p ← tryParseString L s
  match ty with
    | .byte => .ok (p.good && !(p.sign < 0 || p.value > 255), wrapU8 p.value)
    | .sbyte => .ok (p.good && !(p.sign > 0 && p.value > 127) && !(p.sign < 0 && wrapI64 p.value < -128),
                      wrapI8 (wrapI8 p.value * p.sign))
    | .int16 => .ok (p.good && !(p.sign > 0 && p.value > 32767) && !(p.sign < 0 && wrapI64 p.value < -32768),
                      wrapI16 (wrapI16 p.value * p.sign))
    | .uint16 => .ok (p.good && !(p.sign < 0 || p.value > 65535), wrapU16 p.value)
    | .int32 => do
      let r ← i32 (wrapI32 p.value * p.sign)
      .ok (p.good && !(p.sign > 0 && p.value > 2147483647) && !(p.sign < 0 && wrapI64 p.value < -2147483648), r)
    | .uint32 => .ok (p.good && !(p.sign < 0 || p.value > 4294967295), wrapU32 p.value)
    | .int64 => do
      let r ← i64 (wrapI64 p.value * p.sign)
      .ok (p.good, r)
    | .uint64 => .ok (p.good && !(p.sign < 0 || p.value > 18446744073709551615), p.value)

/-- `ToString()` = `FormatString` through Object::ToString (Object.cpp 38-43): `%d`/`%lld` for the signed types
(SByteValue.cpp 83-89, Int16Value.cpp 82-88, Int32Value.cpp 83-89, Int64Value.cpp 83-89), `%u`/`%llu` for the
unsigned ones (ByteValue.cpp 81-87, UInt16Value.cpp 83-89, UInt32Value.cpp 83-89, UInt64Value.cpp 83-89). At
most 20 characters are produced, so the 128-character buffer always suffices (`toString_length`). -/
def toString (ty : Ty) (v : Int) : WStr :=
  match ty with
  | .sbyte | .int16 | .int32 | .int64 => decInt v
  | .byte | .uint16 | .uint32 | .uint64 => dec v.toNat

/-- `CompareTo(T)`: SByteValue.cpp 62-64, ByteValue.cpp 60-62, Int16Value.cpp 61-63, UInt16Value.cpp 62-64 (int
arithmetic), Int32Value.cpp 62-64 (signed overflow possible), UInt32Value.cpp 62-64 (unsigned difference converted
to Int32), Int64Value.cpp 62-64 and UInt64Value.cpp 62-64 (64-bit difference truncated to Int32). -/
def compareTo (ty : Ty) (a b : Int) : Res Int :=
  match ty with
  | .sbyte | .byte | .int16 | .uint16 => i32 (a - b)
  | .int32 => i32 (a - b)
  | .uint32 => .ok (wrapI32 (wrapU32 (a - b)))
  | .int64 => do
    let d ← i64 (a - b)
    .ok (wrapI32 d)
  | .uint64 => .ok (wrapI32 (wrapU64 (a - b)))

/-- A boxed argument: null, boxed value of the same type, or another type. -/
inductive Boxed
  | null | same (v : Int) | other
  deriving DecidableEq, Repr

/-- `CompareTo(Object*)`: lines 63-71 (Byte), 65-73 (others). -/
def compareToObj (ty : Ty) (a : Int) : Boxed → Res Int
  | .null => .ok 1
  | .other => .throw .argument
  | .same b => compareTo ty a b

/-- `Equals(Object*)`: lines 72-77 (Byte), 74-79 (others); no null check, so a null argument is dereferenced. -/
def equalsObj (a : Int) : Boxed → Res Bool
  | .null => .ub
  | .other => .ok false
  | .same b => .ok (a == b)

/-- `get_AsX` of a boxed integer: conversion to the target type (e.g. Int32Value.cpp lines 26-55). -/
def convert (target : Ty) (v : Int) : Int := target.wrap v

end Verif.IntVal
