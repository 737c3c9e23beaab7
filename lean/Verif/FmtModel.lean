import Verif.TextModel
/-!
# Model of the output formatter of the translator (/repo/CppTranslator/Formatter.cs)

Strings are lists of UTF-16 code units. `nl` is `Environment.NewLine` of the machine the translator runs on
(line 32). Echoing to the console (`EmitToConsole`, lines 50 and 202-203; Program.cs line 64 switches it off) is not modelled.
-/
namespace Verif.Fmt

/-- What `System.Char` says about case: the Unicode tables of .NET are an external parameter; the proof field fixes
the ASCII part. Used by `Char.IsLower`, Formatter.cs line 169. -/
structure CharInfo where
  isLower : Nat → Bool
  ascii : ∀ c, c < 128 → isLower c = (97 ≤ c && c ≤ 122)

/-- An ASCII-only table (used in examples). -/
def asciiInfo : CharInfo where
  isLower c := 97 ≤ c && c ≤ 122
  ascii _ _ := rfl

/-- The fields of lines 30-35, 46, 51-52, 68. `file` is the open output file's name (`outputFiler`), `disk` the text
each file has received so far, oldest write first (the `StreamWriter` constructor truncates: an empty entry). -/
structure St where
  out : WStr
  indent : Int
  onNewline : Bool
  chars : Bool
  ns : Option WStr
  file : Option WStr
  disk : List (WStr × WStr)
  deriving DecidableEq, Repr

/-- A new formatter: C# default values, lines 30-35 (`onNewline` starts false). -/
def initial : St := { out := [], indent := 0, onNewline := false, chars := false, ns := none, file := none, disk := [] }

/-- The `tabs` string, line 33. -/
def tabs : WStr := List.replicate 22 9

/-- `Append(String)`, lines 196-204. -/
def append (s : St) (data : WStr) : St :=
  { s with out := s.out ++ data, onNewline := false, chars := if data.isEmpty then s.chars else true }

/-- `Append(Char)`, lines 209-216. -/
def appendChar (s : St) (c : Nat) : St :=
  { s with out := s.out ++ [c], onNewline := false, chars := true }

/-- `Newline`, lines 276-281. -/
def newline (nl : WStr) (s : St) : St :=
  { append s nl with onNewline := true, chars := false }

/-- `AppendLine`, lines 286-290. -/
def appendLine (nl : WStr) (s : St) (data : WStr) : St := newline nl (append s data)

/-- `Indent`, lines 141-145. `String.Substring(0, indentLevel)` throws ArgumentOutOfRangeException when the level is
negative or larger than the 22 tabs. -/
def indent (s : St) : Res St :=
  if 0 ≤ s.indent ∧ s.indent ≤ 22 then
    .ok { append s (tabs.take s.indent.toNat) with chars := false }
  else .throw .argumentOutOfRange

/-- `UpIndent`, lines 149-152. -/
def upIndent (s : St) : St := { s with indent := s.indent + 1 }

/-- `DownIndent`, lines 156-159. -/
def downIndent (s : St) : St := { s with indent := s.indent - 1 }

/-- `AppendIndented`, lines 305-309. -/
def appendIndented (s : St) (data : WStr) : Res St := indent s >>= fun s => .ok (append s data)

/-- `AppendIndentedLine`, lines 296-300. -/
def appendIndentedLine (nl : WStr) (s : St) (data : WStr) : Res St := indent s >>= fun s => .ok (appendLine nl s data)

/-- `AddOpenBrace`, lines 314-329 (`openBraceOnNewline` is true, line 34). -/
def openBrace (nl : WStr) (s : St) : Res St :=
  let s := if s.onNewline then s else newline nl s
  appendIndentedLine nl s [123] >>= fun s => .ok (upIndent s)

/-- `AddCloseBrace(bool)`, lines 342-353; `AddCloseBrace()`, lines 334-337, passes false. -/
def closeBrace (nl : WStr) (s : St) (semi : Bool) : Res St :=
  let s := if s.onNewline then s else newline nl s
  appendIndented (downIndent s) [125] >>= fun s =>
    .ok (newline nl (if semi then append s [59] else s))

/-- `CloseNamespace`, lines 112-119. -/
def closeNamespace (nl : WStr) (s : St) : Res St :=
  match s.ns with
  | none => .ok s
  | some _ => closeBrace nl s false >>= fun s => .ok { s with ns := none }

/-- The namespace text, lines 87-95: "UNNAMED" for the global namespace, otherwise the name with "_NS" appended. -/
def nsText (value : WStr) : WStr := if value.isEmpty then w "UNNAMED" else value ++ w "_NS"

/-- `SetNamespace`, lines 85-108 (the setter of `NameSpace`, line 75). -/
def setNamespace (nl : WStr) (s : St) (value : WStr) : Res St :=
  let start (s : St) : Res St :=
    openBrace nl (append (append { s with ns := some (nsText value) } (w "namespace ")) (nsText value))
  match s.ns with
  | none => start s
  | some cur => if nsText value ≠ cur then closeNamespace nl s >>= start else .ok s

/-- `PrefixName`, lines 163-172. `nameToPrefix[0]` throws IndexOutOfRangeException on the empty name. -/
def prefixName (ci : CharInfo) (name : WStr) : Res WStr :=
  match name with
  | [] => .throw .indexOutOfRange
  | c :: _ => if ci.isLower c ∧ name ≠ w "this" then .ok (w "x_" ++ name) else .ok name

/-- The text `AppendName` writes, lines 177-183. -/
def nameText (ci : CharInfo) (name : WStr) : Res WStr :=
  prefixName ci name >>= fun nm => .ok (if nm = w "Void" then w "void" else nm)

/-- `AppendName`, lines 177-183. -/
def appendName (ci : CharInfo) (s : St) (name : WStr) : Res St := nameText ci name >>= fun nm => .ok (append s nm)

/-- `AppendIndentedName`, lines 188-191. -/
def appendIndentedName (ci : CharInfo) (s : St) (name : WStr) : Res St :=
  prefixName ci name >>= fun nm => appendIndented s nm

/-- One lower-case hexadecimal digit. -/
def hexDigit (n : Nat) : Nat := if n < 10 then 48 + n else 87 + n

/-- `"{0000:x}"` of a char code (line 263): lower-case hexadecimal without leading zeros. A char code is below 65536. -/
def hexText (c : Nat) : WStr :=
  if c < 16 then [hexDigit c]
  else if c < 256 then [hexDigit (c / 16), hexDigit (c % 16)]
  else if c < 4096 then [hexDigit (c / 256), hexDigit (c / 16 % 16), hexDigit (c % 16)]
  else [hexDigit (c / 4096), hexDigit (c / 256 % 16), hexDigit (c / 16 % 16), hexDigit (c % 16)]

/-- The text of one character, the `switch` of lines 240-269. `Char.IsControl` is false on ' '..'~', so the test of
line 254 is the range test. -/
def escape (c : Nat) (forString : Bool) : WStr :=
  if c = 34 then [92, 34]
  else if c = 92 then [92, 92]
  else if c = 7 then [92, 97]
  else if c = 8 then [92, 98]
  else if c = 9 then [92, 116]
  else if c = 13 then [92, 114]
  else if c = 11 then [92, 118]
  else if c = 12 then [92, 102]
  else if c = 10 then [92, 110]
  else if c = 39 then (if forString then [39] else [92, 39])
  else if 32 ≤ c ∧ c ≤ 126 then [c]
  else [92, 117] ++ (List.replicate (4 - (hexText c).length) 48 ++ hexText c)

/-- `AppendCharWithControls(chr, false)`, lines 236-272: the whole character literal. -/
def charLiteral (c : Nat) : WStr := [76, 39] ++ escape c false ++ [39]

/-- `AppendStringsWithControl`, lines 221-230: the whole string literal. -/
def stringLiteral (data : WStr) : WStr := [76, 34] ++ data.flatMap (fun c => escape c true) ++ [34]

/-- `AppendStringsWithControl` as an operation on the formatter (the pieces are appended one by one; the concatenation is
the same text). -/
def appendString (s : St) (data : WStr) : St := append s (stringLiteral data)

/-- `Close`, lines 357-366: close the namespace, flush (lines 133-137) and close the file. `onNewline` and the
indentation level stay as they are. -/
def close (nl : WStr) (s : St) : Res St :=
  match s.file with
  | none => .ok s
  | some f => closeNamespace nl s >>= fun s => .ok { s with disk := s.disk ++ [(f, s.out)], out := [], file := none }

/-- Setting `OutputName`, lines 56-67 and `NewOutputFile`, lines 367-371. -/
def setOutput (nl : WStr) (s : St) (name : WStr) : Res St :=
  close nl s >>= fun s => .ok { s with file := some name, disk := s.disk ++ [(name, [])] }

end Verif.Fmt
