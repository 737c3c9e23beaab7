# Formal model of lambertlb/CppTranslator in Lean 4

`/verif/lean/Verif/` contains an executable model of the C++ runtime library (`DotNetLibrary`,
`PlatformSupport`) and of the pure parts of the C# translator (`CppTranslator`), with theorems about it.
Files come in three kinds: `*Model.lean` (function by function transcription, each definition cites the
source lines), `*Spec.lean` (small independent specifications) and `*Props.lean` (property theorems with a
non-vacuity example beside each). Helper lemmas live in `*Lemmas.lean`.

## Conventions
* `Res a` is the outcome of a C++ call: `ok v`, `throw e` (a managed exception) or `ub` (undefined behaviour:
  out-of-bounds access, signed overflow, null dereference, overlapping memcpy).
* Int32/Int64 values are Lean `Int` in range; arithmetic that can overflow goes through checked operations that
  yield `ub`, or through explicit wrap functions where the code uses unsigned arithmetic.
* Where the code violates a property the violation is proved with a concrete witness (`..._refuted`) and the part
  that does hold is proved as `..._partial`.

## Trusted base
* Lean 4.33.0's kernel. Every theorem depends on at most the axioms `propext`, `Classical.choice` and `Quot.sound`; AXIOMS.md
  (generated by tools/axioms.py with `#print axioms`) lists them theorem by theorem. No axioms are added, no compiled evaluation is used
  (`decide +kernel` is reduction by the kernel and is used only for closed witnesses, constant tables and examples).
* The reading of the code: the model is hand-transcribed from /repo and is not extracted from it. Every definition cites the lines it models.
* The small specifications (`*Spec.lean`, and the section "Specification" of each `*Props.lean`): calendar, decimal numerals, list edits, the C++
  grammar fragment and the C# and C++ integer semantics (`CppSpec`, `ILSem`), IEEE 754 values as exact rationals.
* Platform: LP64 little-endian Linux, 32-bit `wchar_t`, two's complement, `swprintf`/`wcslen`/`memmove` as in C99, .NET 6 for the translator.
* ICSharpCode.Decompiler: its syntax tree and instruction tree are the input of the translator's model.

## What is modelled
| Module | Part of /repo |
|---|---|
| DateTimeModel, DateTimeTextModel | DotNetLibrary/src/DateTimeValue.cpp: constructors, parts, arithmetic, comparison, ToString, zone conversion (zone offset a parameter) |
| TimeSpanModel | TimeSpanValue.cpp: all functions except those taking or returning Double (FloatTimeModel) |
| IntModel, MathModel | the eight integer Value.cpp files; DotNetMath.cpp integer functions |
| BoolCharModel | BooleanValue.cpp, CharValue.cpp, Object::ToString (locale classification tables are parameters) |
| FloatModel | DoubleValue.cpp, SingleValue.cpp, DotNetMath.cpp functions on bits, comparisons and rounding |
| StringModel, TextModel | StringDotNet.cpp, CharEnumerator.cpp |
| StringBuilderModel | StringBuilder.cpp, memory cell by cell |
| ArrayModel, BufferModel | Array.cpp, Buffer.cpp, BitConverter.cpp, memory byte by byte |
| AllocModel | PlatformSupport.cpp allocator |
| FmtModel | CppTranslator/Formatter.cs: indentation, braces, names, literals, namespace blocks, files |
| TypesModel, HeaderModel, MemberModel, NamesModel | CppTypeVisitor.cs, HeaderTypeVisitor.cs, ProtoTypeVisitor.cs, CppVisitorBase.cs, Program.cs: types, order of definitions, members, names, paths |
| ConstModel, ExprModel, SemModel, CompoundModel | MyIlInstructionVisitor.cs: constants, expression text, integer semantics, compound assignments |
| LibTable, LibModel, ReportModel | ValidTypes.xml rows, public methods of the library headers, calls of library methods, validation |
| TryModel, BoxModel, DefaultModel, UserOpModel | throw/rethrow/try/catch and the library's exception classes; box, unbox and `get_As...`; default values of structs; overloaded compound assignment |
| AccessModel, DispatchModel | operator before a member name, wrapping of primitive operands; call and callvirt, virtual keyword |
| InitModel | field declarations without initialisers, constructors and static constructors as written, order of the classes |
| LineModel | choice between if statement and conditional expression, semicolons, state of the current line |
| ArithModel | C++ `+ * /` on doubles, conversions between Int64 and double (IEEE 754, round to nearest even) |
| FloatTimeModel | DateTimeValue.cpp `Add(Double, Int32)` and its five callers; TimeSpanValue.cpp `Interval`, `Multiply`, `Divide`, `get_Total*` |
| RoundModel | rounding of a quotient to binary32 or binary64 (used for the C library's number reading) |
| FloatTextModel | DoubleValue.cpp / SingleValue.cpp `FormatString`, `Parse`, `TryParse`, `TryParseInternal`, `Modulus`, and the `%G` conversions of `swprintf`/`swscanf` they call ("C" locale, glibc rounding) |
| FloatExprModel | MyIlInstructionVisitor.cs: the floating-point part of `VisitBinaryNumericInstruction`, `HandleDivideByZero`, `HandleSpecialModulusWithFLoatingNumbers`, `VisitConv`, `VisitComp`, `VisitStLoc`, `VisitLdcF4/F8`; the meaning of the emitted C++ (usual arithmetic conversions, IEEE arithmetic, one NaN per format, FLT_EVAL_METHOD 0) |
| MathRoundModel | DotNetMath.cpp: `Truncate`, `Floor`, `Ceiling`, `Round` with digits and modes, `FusedMultiplyAdd`, `IEEERemainder`, `ILogB`, `ScaleB`; the C library's `trunc`, `floor`, `ceil`, `modf`, `remainder`, `logb`, `scalbn` are assumed to follow ISO C annex F |
| SupportModel | Exception.h (constructors, accessors, the messages of the library's classes); DotNetLibrarySupport.cpp (`Send`, `Run`, `get_ArrayData`); CppTraceListener.cs; the calls to it in Program.cs `Main`. Not modelled: `get_DoubleData` (a constant), formatting of trace arguments (`String.Format`), I/O errors. |
| ClockModel | DateTimeValue.cpp `get_UtcNow`, `get_Now`, `get_Today`, `GetTimeZone`, `ToLocalTime`, `ToUniversalTime`, the branches for systems other than Windows; the results of the C library's clock functions are parameters. Not modelled: `IsDaylightSavingTime` (it depends on an uninitialised field). |
| FieldTypeModel | CppTypeVisitor.cs lines 281-356 (the type visitor, with its error texts) and 173-216 for the forms of types other than type definitions; CppVisitorBase.cs `FormatStaticFieldDeclaration`. What the decompiler's `base.Visit...` makes the visitor write behind the error text is a parameter. |
| SBObject | StringBuilder.cpp `Insert(index, Object*)`. What `ToString()` returns is a parameter. |
| FormatExact | StringBuilder.cpp `FormatString`, Object.cpp `FormatString`. |
| ValueAppend | StringBuilder.cpp `Append(ValueType&, index)` and the typed overloads of `Append` and `Insert` that call it; `FormatString` of the integer and real types with ISO C's `swprintf`. Not modelled: the MinGW branches. |
| DateFormat | DateTimeValue.cpp `FormatString` with its buffers and its builder. Not modelled: the MinGW branch. |
| SpanFormat | TimeSpanValue.cpp `FormatString` with its buffers and its builder. Not modelled: the MinGW branch. |
| EnumModel | ProtoTypeVisitor.cs `OutputEnumValues`, `VisitEnumMemberDeclaration`; casts to an enum type in MyIlInstructionVisitor.cs. |
| VisitModel | MyIlInstructionVisitor.cs: for each `Visit*` method which operands it visits (which ones are visited, not the text). |
| DriveModel | Program.cs 47-75, 103-135; ProtoTypeVisitor.cs 54-88; HeaderTypeVisitor.cs 67-93, 113-128, 152-175; CppVisitorBase.cs 196-204 and the member visitors that throw (which declarations are written, not their text). |
| ObjectModel | Object.cpp 25-34 (Equals), the `Equals(Object*)` of the boxed types and of String. |
| StringRangeProps | StringDotNet.cpp 137-146 (the comparison of parts of strings; model and theorems). |
| StringExact | no new code: `_exact` theorems giving the outcome (value, exception or undefined behaviour) of StringModel's functions also outside the domains of the `_partial` theorems (NULs inside, lengths over the allocator's limit, null elements, ranges past the start). |
| IntExact, CompleteProps, StringComplete, BuildComplete, ArrayComplete, BitsComplete, CompareExact, SpanParseExact, AllocExact, BoolCharExact, StringSearchExact, JoinExact, SBReadExact, MathExact, HeaderExact, HeaderFields, TranslateExact, StmtExact, DeclExact, BoxedExact, NamesExact, JoinCharExact, CastExact | no new code: total theorems (value, exception or undefined behaviour for every argument) about StringModel, IntModel, MathModel, TimeSpanModel, DateTimeModel, ArrayModel, BufferModel, BitConverterModel and FloatModel |
| ExprText | MyIlInstructionVisitor.cs 69-85, 189-253, 592-648, 739-777, 850-870, 914-923 (characters written; expressions over integers only). |
| StmtText | MyIlInstructionVisitor.cs 260-385, 739-788, 979-1000, 1127-1180, 1262-1291, 1319-1344 through Formatter.cs (characters written for method bodies over integers; no injected statement). |
| ProgText, CppProgRead, EvalOrderProps | MyIlInstructionVisitor.cs 159-164, 402-436, 538-571, 979-992, 1127-1165, CppTypeVisitor.cs 187-200, 223-230, 248-265, 530-537 942-954, 1177-1186, 1311-1317 (characters of method bodies with calls of static methods, void or not, static fields and throw statements, and the meaning of the functions they are) | expressions with more than one call; thrown objects made with arguments; initialisers of static fields |
| MathConstModel | DotNetMath.cpp 22-23, 307-321; `log` of the C library is a parameter with the special cases of the C standard |
| AbsModel | DotNetMath.cpp 42-44 and the conversion where the result is assigned to a long |
| ProgramModel | MyIlInstructionVisitor.cs 402-436 (static calls), 538-571, 948-954, 979-992, 1311-1317: what calls, static fields and `throw` mean; their text is in VisitModel/AccessModel | the text of calls inside C156's method bodies; instance calls (C119, C120) |
| ArrProgModel | MyIlInstructionVisitor.cs 872-882, 907-912, 1022-1030, 1177-1186 and Array.cpp 47-74, 115-142: what creating, indexing, assigning to and measuring arrays of integers means inside programs | arrays of references and of floating-point numbers inside programs; foreach; initialised arrays (C99) |
| ObjProgModel, CtorOrderModel | MyIlInstructionVisitor.cs 66, 138-151, 402-436, 578-585, 884-891, 1045-1054, 1177-1186, CppVisitorBase.cs 337-351, 845-870: what calls, fields, casts, `new` and constructors mean inside programs | interfaces, delegates, strings, structs and exception classes inside programs; isinst (writes nothing); objects in variables of type Object that are arrays; memory running out |
| ConcatModel, OrderModel | MyIlInstructionVisitor.cs: string concatenation, arrangement of operands |
| StmtModel, ScopeModel | MyIlInstructionVisitor.cs: blocks, labels, leave/branch/if/switch/try, declarations of locals |

## What is not modelled
Wall clock and time-zone database (parameters); libm functions (Sin, Pow, ...; `log` is a parameter in C178). Floating-point `+ - * /`, comparison, rounding to integers and
conversions are modelled as ISO/IEC 60559 operations, without contraction to fused multiply-add; the C library's `%G` reading and printing of numbers as C99 says, in the "C" locale; C++ virtual dispatch and RTTI (each override is a function of its own);
garbage and lifetime of `new`ed objects (the library never frees); `Console`, `Diagnostics`, file-system errors; the dll/COM plumbing of
PlatformSupport; threads (the library is single-threaded); the Visual Studio and CMake build; lambdas, `yield`, `await`, `lock`, `using` and other
instructions for which the translator has no code (C91 states what happens to them).

## Plan per property
* **C01 DateTime constructor accepts exactly the Gregorian dates**: DateTimeModel.dateToTicks over Int with checked Int32 arithmetic; spec counts days by recursion on years and months; iff theorem.
* **C02 DateTime components return what was constructed**: getDatePart + time getters composed with constructor; omega on Euclidean facts, finite month table lifted.
* **C03 Every DateTime decomposes into a valid date and recomposes**: ticks -> parts -> ticks; getDatePart has an explicit `ub` on table over-read, theorem says it never happens.
* **C04 DayOfWeek and DayOfYear follow the calendar**: spec: calendar successor of a date; DayOfWeek step theorem.
* **C05 IsLeapYear and DaysInMonth implement the Gregorian rule**: bit-mask version of IsLeapYear vs arithmetic rule.
* **C06 DateTime tick arithmetic is exact and range checked**: checked Int64 arithmetic; ok/throw characterisation.
* **C07 AddMonths/AddYears follow the calendar**: C truncating division vs floor spec.
* **C08 Every DateTime obtainable from a constructor is within MinValue..MaxValue**: refuted (millisecond 1000); partial for milliseconds < 1000 or date before the last second.
* **C09 DateTime comparison is the tick order**: order theorem.
* **C10 DateTime.ToString identifies the instant to the second**: refuted at noon/midnight; partial: the printed fields are exact, injective up to 12-hour collisions.
* **C11 ToLocalTime and ToUniversalTime are inverse**: zone offset a parameter; inverse theorem; refutation of true-offset claim with a gm/local hour model.
* **C12 TimeSpan components recompose the value**: Int.tdiv/tmod arithmetic.
* **C13 TimeSpan constructors are exact or throw**: ok/throw characterisation.
* **C14 TimeSpan.Add is exact or reports overflow**: wrap-around BitVec-style model.
* **C15 TimeSpan.Subtract is exact or reports overflow**: refuted; exact characterisation of what the code does; partial.
* **C16 TimeSpan.Negate and Duration**: refuted at 0; partial for nonzero, non-min.
* **C17 TimeSpan comparison is the tick order**: order theorem.
* **C18 TimeSpan text round-trips**: refuted; the spans that survive are characterised exactly (`C18_round_trip_exact`).
* **C19 TimeSpan.Parse rejects malformed text and is memory safe**: refuted twice (accepts junk, writes past numbers[4]); partial: safe up to 4 components.
* **C20 Integer text round-trips**: model of TryParseInternal and of decimal printing; induction on digits; refuted at Int32/Int64 minimum.
* **C21 Integer Parse denotes the numeral or reports overflow**: refuted; partial inside the no-wrap range.
* **C22 TryParse and Parse agree**: case analysis of the same model.
* **C23 Integer CompareTo is a total order**: Proved for 8/16-bit types; refuted for 32/64.
* **C24 Boolean text round-trips and rejects other words**: refuted; partial.
* **C25 StringBuilder never writes outside its buffer**: buffer-level state machine (cells, capacity, terminator), UB outcome; invariants over op histories; refuted for Append(Char,n) at full capacity.
* **C26 StringBuilder behaves as an editable character sequence**: refinement to List of chars.
* **C27 StringBuilder capacity discipline**: invariant; refuted for MaxCapacity.
* **C28 Replace substitutes every leftmost non-overlapping occurrence**: loop model vs list spec of leftmost replacement.
* **C29 Substring/ToCharArray/CopyTo/indexer extract exact ranges**: list drop/take specs. The complement of the partial theorems is characterised in StringExact.
* **C30 IndexOf/LastIndexOf/IndexOfAny return the first/last match in range**: least/greatest index specs; `C30_index_of_exact` without range hypotheses.
* **C31 IndexOf(String) finds the first occurrence inside the range**: refuted; exact result and an iff for when it is right.
* **C32 String.Compare is a total order consistent with equality**: refuted; partial for equal lengths.
* **C33 String equality is character equality**: length + wcscmp; exact condition (C33_exact): equal lengths and equal up to the first NUL; refuted by strings that differ only after a NUL, proved for strings without one.
* **C34 Trim removes exactly leading/trailing trim characters**: dropWhile specs. The complement of the partial theorems is characterised in StringExact.
* **C35 PadLeft/PadRight reach exactly the requested width**: replicate specs. The complement of the partial theorems is characterised in StringExact.
* **C36 Concat and Join concatenate in order**: list join spec. The complement of the partial theorems is characterised in StringExact.
* **C37 StartsWith/EndsWith/Contains decide affix/infix**: refuted corners; partial. The complement of the partial theorems is characterised in StringExact.
* **C38 ToUpper/ToLower are pointwise and idempotent**: pointwise map, classification table as parameter.
* **C39 CharEnumerator visits each character exactly once in order**: state machine, induction over histories.
* **C40 Array element addressing is a bijection**: row-major index arithmetic.
* **C41 Array SetValue/GetValue round-trips**: cell store model.
* **C42 Array.Copy/CopyTo/Clear touch exactly the requested range**: byte-range copy with memcpy-overlap as UB.
* **C43 Array.GetLength/Rank report the declared shape**: refuted at GetLength(Rank).
* **C44 Buffer.BlockCopy is memmove on bytes**: memmove model.
* **C45 BitConverter round-trips**: little-endian encode/decode.
* **C46 BitConverter.ToString is a faithful hex dump**: hex encoder and an independent decoder.
* **C47 Math.Clamp/Min/Max/Sign on integers**: order theory by omega; Sign on BitVec.
* **C48 Math.DivRem and integer division**: tdiv/tmod; refutations.
* **C49 BitIncrement/BitDecrement step to the adjacent double**: on bit patterns ordered by a key.
* **C50 Floating-point classification partitions the doubles**: on bit patterns.
* **C51 Floating-point CompareTo/Equals are consistent**: order key on bit patterns.
* **C52 Platform allocator returns disjoint aligned zeroed blocks**: bump allocator history invariant, uint32 wrap explicit.
* **C53 Generated identifiers are collision-free and not keywords**: list-of-char model of PrefixName; injectivity, keyword list.
* **C54 String literals survive translation**: emit then independent C++ literal lexer; induction.
* **C55 Char literals survive translation**: same for char.
* **C56 Emitted code has balanced braces and correct indentation**: formatter op machine, balance invariant.
* **C57 Each unsupported library type is reported exactly once**: dictionary machine, history theorem.
* **C58 Header declares base classes before derived classes**: insertion machine; refuted; partial.
* **C59 Constants keep their value**: decimal printing; value theorem.
* **C60 Expression translation preserves structure**: printer vs parser-based unambiguity.
* **C61 Translated switch reaches the right section**: refuted for multi-label; partial for single-label.
* **C62 Leave jumps to its own block end**: label machine; uniqueness proved, target refuted.
* **C63 StringBuilder.Equals compares text and capacities**: field by field comparison of two builders; refuted: MaxCapacity ignored.
* **C64 StringBuilder indexer and ToString(start,length) read exact ranges**: indexer and ToString(start,length) as list slices, bounds exact; refutations for missing checks.
* **C65 String.LastIndexOf(String) finds the last occurrence**: greatest index spec for LastIndexOf(String); refuted corner; partial. The complement of the partial theorems is characterised in StringExact.
* **C66 String.Insert, Remove and Replace are the list edits**: Insert/Remove/Replace as list edits; Replace via the StringBuilder model of C28. The complement of the partial theorems is characterised in StringExact.
* **C67 Formatting into a caller's buffer stays inside it**: caller's buffer as a cell list; every write checked; exact length condition.
* **C68 String constructors hold exactly the requested characters**: constructors as lists; zero-filled memory for NUL.
* **C69 IsNullOrEmpty and IsNullOrWhiteSpace**: case analysis over null, empty and white space.
* **C70 Char classification overloads on (string, index) agree with the one-character ones**: overload equals one-character classification at the index, bounds exceptions; classification table a parameter.
* **C71 Char.Parse/TryParse/ToString**: parse accepts exactly one-character strings; round trip.
* **C72 Boolean and Char comparison is a total order consistent with Equals**: order laws on Booleans and code units; refuted: Char.Equals(null) dereferences.
* **C73 Array.IndexOf finds the first match**: least index spec over the element bytes.
* **C74 Math.Round is round-half-to-even**: exact rationals: round-half-even of every finite double.
* **C75 Math.Divide of Doubles by zero**: bit-pattern model of division by zero; refuted sign cases.
* **C76 Math.Min/Max/Clamp/Sign on floating-point values**: order on bit patterns with NaN rules.
* **C77 Math.CopySign**: sign bit spec; refuted for a positive NaN as sign source.
* **C78 Math.BigMul is exact**: product within Int64 by omega-style bounds.
* **C79 Math.Abs on integers**: refuted at minimum values; partial elsewhere.
* **C80 Generated file is its headers followed by its types in closed namespace blocks**: formatter machine run over a list of types in namespaces; text of the file as concatenation of closed blocks.
* **C81 No output file is created or changed before it is complete**: file-system trace of the formatter; invariants over its operations.
* **C82 The supported-type table is loaded completely and every row is effective**: table loader over all rows; refuted for tables with a duplicate row; the shipped table checked row by row.
* **C83 A type used by value is defined before its user**: definition order vs by-value use; refuted; partial for the ordered cases.
* **C84 The header defines each translated type exactly once**: permutation theorem for the insertion order.
* **C85 The base clause names every base, publicly**: base clause text; refuted for second and later bases (private inheritance).
* **C86 Floating constants keep value and type**: value of emitted literal as exact rational; refuted for NaN/infinity/Single text.
* **C87 A name is used in the spelling it is declared with**: declared and used spelling as two functions of the name; exact iff.
* **C88 Enumerator names are distinct**: enumerator names injective inside an enum; refuted for enum names with underscores.
* **C89 Outputs go beside the input and do not overwrite each other**: output path function; refuted collisions.
* **C90 A returned value is converted to the enclosing member's type**: return type state threaded over members; refuted for property accessors.
* **C91 Every statement is translated exactly once, in order**: statement emission as trace; every instruction exactly once in order.
* **C92 A static constructor's generated function returns on every path**: injected return; all paths of the emitted control-flow end in it.
* **C93 Every goto has its label**: every goto target is among the emitted labels.
* **C94 A translated integer expression has the source's value**: C# IL integer semantics vs C++ semantics of the emitted tree, all widths, by structural induction.
* **C95 The labels of a translated method are distinct**: label numbering strictly increasing through the tree.
* **C96 Every label is followed by a statement**: token-level: a label is followed by a statement; refuted for empty loops; exact iff.
* **C97 Null and unsuitable arguments are rejected, never dereferenced**: null/None argument never reaches a dereference; one theorem per group of entry points.
* **C98 Boxed integers compare, equal and convert like the numbers**: boxed integer CompareTo/Equals/get_As* as operations on the numbers.
* **C99 An initialised array has the elements of its initialiser**: emitted initialiser list evaluated back to the elements.
* **C100 Reference types are pointers and members are reached accordingly**: declaration pointer-ness equals access operator for every type.
* **C101 A translated method body does what the method does**: small-step of the source control structure vs the emitted one, fuel-free simulation.
* **C102 A translated method is one function body**: the tokens form one brace-balanced body; refuted for methods of several blocks; exact iff.
* **C103 Local variables are declared where they are used**: scoping of declarations on the emitted block tree; induction.
* **C104 An if statement tests the source's condition**: emitted condition's truth value equals the source's, for all boolean forms.
* **C105 Compound assignments and increments change the variable as the source does**: emitted compound form vs source evaluate-convert-store semantics; refuted classes of operators with conversions.
* **C106 Every declared member has its definition**: header and source items of each member compared element by element, induction over the member list.
* **C107 Members keep their static, virtual and abstract nature**: specifier lists of header items; exact iff; refuted for properties and bodiless methods.
* **C108 Base constructors receive their arguments**: argument texts against a denotation relation (literals read back by the C++ literal readers of C54, C55, C59), exact iff; refuted for dropped expressions and `: this`.
* **C109 By-reference parameters refer to the caller's variable**: declarations read back by a small declarator reader; value/ref proved, out refuted.
* **C110 Every translated struct can be default-constructed**: fold over the member list, exact iff; refuted with a static constructor.
* **C111 A translated string concatenation has the source's value**: emitted pieces read back by a stack reader (operands exactly the source's), overload by operand count, value through the model of `String::Concat` (C36); exact outcome; refuted for a leading null and for eight operands.
* **C112 Operands with side effects are evaluated in the source's order**: small-step C++11 evaluation with arbitrary interleaving of operands; invariance of the left-to-right result under every step when siblings do not interfere, progress and termination; refuted by `x - (x = 1)` and `next() - next()`.
* **C113 Every accepted library call is declared by the library**: generated tables of header declarations and accepted calls (tools/libtable.py); lookup and overload resolution specified and evaluated by the kernel for all rows; refuted for `String.op_Implicit`.
* **C114 Every use of an unsupported library type or member is reported**: names validated vs names mentioned, by induction over instruction trees, composed with C57; refuted for object and array creation, boxing, static fields, default values and overloaded compound assignment.
* **C115 An exception reaches the handler the source says**: C# and C++ big-step semantics of throw/rethrow/try/catch over class hierarchies, by mutual induction over statements and handlers; refuted for variables thrown with a base static type, for the flattened library hierarchy and for filters.
* **C116 Unboxing gives back what was boxed**: the `get_As...` table of the library, by cases over types; exact condition; refuted for the pairs the library converts and for null.
* **C117 The default value of a struct has every field zero**: C++ value-initialisation over nested structs, by mutual induction; exact condition; refuted for structs with a constructor.
* **C118 Compound assignment with an overloaded operator**: reuses C112's small-step semantics; refuted for a target with side effects.
* **C119 Members are reached with the operator the operand's C++ type needs**: pointer depth of the emitted operand against the operator written, by cases over operands of correct IL; exact condition; refuted for out parameters, static struct fields, `this` of a struct in calls, by-reference primitives.
* **C120 A call reaches the method the source says**: C# slots against C++ name lookup and final overriders, by induction over the class chain; exact condition for base calls; refuted for `base.Method()`, `new` methods and overloads in different classes.
* **C121 Fields start with the values of their initialisers**: C#'s zero, initialisers, constructor body against the C++ class written, exact condition; refuted for classes with initialisers and no constructor. That the decompiler shows no constructor for such a class is an assumption about the dependency.
* **C122 Static fields are initialised before they are used**: order of the variables in the code file against execution at first access, by induction over the classes; refuted for a use of a later class.
* **C123 An if is written as a statement where it is one and as an expression where its value is used**: visits as functions on the formatter's state, induction over instruction trees; exact condition for expression statements; refuted for a statement that begins with a conditional.
* **C124 DateTime.AddX(Double)**: doubles as bit patterns with IEEE arithmetic proved to give the nearest double; whole amounts exact, error bound 9/16 ms for the rest; refuted for NaN (undefined) and for the nearest millisecond.
* **C125 TimeSpan.FromX(Double)**: exact trichotomy (value, overflow, undefined) in terms of the exact product; refuted at the upper limit.
* **C126 TimeSpan.Multiply/Divide**: the same trichotomy with rounding to nearest even; refuted at the upper limit and for 0 * infinity.
* **C127 TimeSpan.TotalX**: correct rounding stated against every other double; exactness of whole units; limits of TotalMilliseconds.
* **C128 Floating-point text**: `%G` modelled by exact rational arithmetic (RoundModel, FloatTextModel); proved nearest among all six-digit decimals, over the rationals.
* **C129 Floating-point text round trip**: exact characterisation (round trip iff the value is the rounding of a six-digit decimal), both formats, subnormals included; refuted in general.
* **C130 Double/Single Parse**: `swscanf` modelled; correct rounding of every decimal numeral; refuted for everything that is not one (uninitialised result, ignored rest, null).
* **C131 Double/Single TryParse**: agreement with Parse on every string; refuted on failure.
* **C132 Floating-point remainder**: `fmod` modelled as a rounded remainder; proved exact.
* **C133 Floating-point expressions**: instruction trees and C++ trees over bit patterns, IEEE 754 arithmetic in either format (`C133_operations` ties it to exact rationals); induction over the expression, using that rounding a quotient, sum, difference or product of floats to double first is harmless (FloatDoubleRound). Refuted where an unrounded quotient is used further.
* **C134 Conversions of boxed numbers**: BoxModel's `unbox` against the exact conversions (modulo the size, truncation of the rational, correct rounding). Refuted for reals whose integer part does not fit and for characters where `wchar_t` has 32 bits.
* **C135 Truncate, Floor, Ceiling**: integer division of the exact value; every integer below 2^53 and every quotient of a larger double is a double.
* **C136 Math.Round with digits**: the rounded product, the integer chosen by the mode, the correctly rounded quotient. Refuted as decimal rounding (the product is rounded first).
* **C137 FusedMultiplyAdd**: exact when the product is a double; refuted otherwise.
* **C138 IEEERemainder**, **C139 ILogB**, **C140 ScaleB**: exact rational statements about ISO C annex F's `remainder`, `logb`, `scalbn` as the library uses them. ILogB refuted for zero, infinities and NaN.
* **C141 exception objects**: objects are indices; an inductive relation for the innermost exception, shown to be a total function on well-founded histories; GetBaseException exact condition, rest refuted; null messages refuted.
* **C142 running**: the module is an arbitrary list of messages and an ending; exact condition (iff) under which the console is right; the library's own exceptions proved; null, NUL, unrepresentable messages and foreign exceptions refuted.
* **C143 platform array**: any sequence of accesses against plain memory, over the allocator of C52; refuted when the arena is used up by the wrappers, and for identity.
* **C144 translator log**: any history of open/close/trace; `Open`/`Idle` are predicates on the history alone; one run of `Main`; refuted for failures before the log is opened and for a second run after a failed one.
* **C145 clock**: the broken-down time is a parameter constrained by `Breaks` (the C library's contract); UtcNow, Now and Today for every instant; sub-millisecond part and leap seconds refuted.
* **C146 local time**: the offset found is the zone's exactly when it is whole hours and both dates agree (iff); conversions and their round trip; refuted around midnight, for half-hour zones and at the end of the calendar.
* **C147 enum members**: the emitted text is read back by a small reader of C++ enumerator lists and valued by the C++ rule; equal to the C# rule for every member list; refuted for the least `long` and `ulong` values from 2^63 on.
* **C148 enum range**: the C++ range of values of an enumeration without fixed underlying type ([dcl.enum]); exact condition for a cast to keep the value; flags always do; refuted for complements and values beyond the members.
* **C149 methods over integer variables**: C101 and C94/C104 composed: the source's and the C++'s interpretation of the pieces differ only where a statement is undefined in C++ or overflows in the source; a refinement lemma for interpretations lifts this through both semantics of control flow. The value of `return e;` is part of the outcome; `&&` refuted.
* **C150 every instruction is written**: the visitor as a table from kinds of instructions to what is visited; by induction on trees, everything is written exactly when no construct of a list occurs (iff); the rest is written in order; refuted for each construct of the list.
* **C151 which types are translated**: the filter of `ProcessModules` as a function on lists of types; proved for classes, structs and enums (selected iff ordinary, order kept); refuted for interfaces, namespaces that contain the word `CppTranslatorSupport`, nested types.
* **C152 members and nested types**: the header and source passes as functions that may stop; exact condition (iff) for both files to be complete; refuted: one nested class or event anywhere stops both files of the whole program.
* **C153 comparing parts of strings**: the pointer arithmetic of the five-argument overloads; proved for indices inside both strings; refuted: an index outside the string is a read outside the object instead of an exception.
* **C154 Object.Equals(a, b)**: null tests, identity, then the virtual Equals of each boxed type; exact condition and the three laws of an equivalence.
* **C155 The characters of an integer expression**: the texts of the visitors for variables, constants, operators, comparisons, conversions and conditionals, read back by a lexer with maximal munch, name resolution in the library's scope, the expression grammar of C60 and C++'s typing (specification CppRead); by induction over the expression the reading is one expression, whose value is that of C94. Fails for a conditional as a condition and a variable called Void. (The constant 4294967295 of type long is written `UInt32Value::MaxValue`; C94_limit_refuted shows what follows.)
* **C156 The characters of a whole method**: the visitor of StmtModel run through the formatter's model (StmtText) and read back by CppStmtRead: lexemes, pieces of statements, declarations at the start, the meaning of each piece in the scope of the variables (C155), the statements of FlowSpec. By induction over the tree the lexemes of the text are those of the items of C101; splitting and reading each item gives a body that differs from C149's only in the names of labels (FlowRename). Variables that are first stored in a later block of the main container are outside (they are declared in that block's braces, see C103). The formatter throws beyond 22 levels (refuted); below it does not.
* **C157 Programs of methods that call each other**: `Verif/ProgramModel.lean` gives a program of C149's methods, with static fields, `throw` and calls (arguments converted to the parameters' types, static fields shared, exceptions going through the calls), the meaning of its instructions and of the written functions, as functions of bounds on call depth and jumps. Theorem by induction on the call depth from C101 (any interpretation of the pieces) and the refinement of C149. At most one call per expression, made before the rest of it is evaluated (order of evaluation: C112); the stack has no limit; `C157_refuted` for a callee outside C104.
* **C158 Programs with arrays**: `Verif/ArrProgModel.lean` adds arrays to C157's programs: in the source an array is a shape and a function from index tuples to numbers, in C++ the `Array` object of C40 (sizes and bytes), reached through `Address`, `new Array(..)`, `get_Length()`; references are the numbers of the arrays in the order of their creation on both sides. Both orders of evaluating an assignment to an element are modelled. Proof: a simulation between runs over different states (`Verif/FlowSim.lean`), with the relation 'same variables, every array holds the same elements', by induction on the depth of calls. Partial: stopped where C++ is undefined, at OverflowException, at null references, at arrays of more than 2^31-1 bytes, and where both sides of an assignment raise different exceptions (`C158_refuted` for null and for the last).
* **C159 Programs with objects**: `Verif/ObjProgModel.lean` adds classes, constructors, fields, instance methods, casts and comparisons of references to C158's programs. A call is dispatched in the source by C120's rules for C# and in C++ by C++'s (name lookup from the static type, final overrider), a field of C++ is the nearest of its name, and an object under construction has in C++ the class whose constructor is at work (C++11 12.7). Proof: the simulation of C158 with the relation 'same variables, same objects, arrays that hold the same', C120 for every call. Partial: no hiding, no `base.Method()` of virtual methods, simple base constructor arguments; stopped as in C158 and at failing casts, uses of objects whose constructor raised, and virtual calls during construction that a more derived class overrides (`C159_refuted`: those calls, hidden fields, casts, null).
* **C160 The order in which a new object is made**: `Verif/CtorOrderModel.lean`: instructions of a constructor (initialisers, call of the base constructor, statements), the C++ constructor written for them; traces of what is executed. Proof by induction on the hierarchy: always the same things once (`C160_once`); the same order exactly when no class with initialisers has a base for which something is done (`C160_order_partial`, `C160_order_refuted`).
* **C161 Objects and arrays keep their identity**: specification `Verif/ObjLifeSpec.lean` (what may change from a state to a later one: a preorder); proof over the programs of C159 by induction on the depth of calls, with the simulation of a function by itself (FlowSim) under the relation "the same state, later than the start"; a constructor at work is the one place where an object may advance. The laws of `new`, field assignment and comparisons are proved of both languages.
* **C162 What Parse and TryParse of the integer types do with every text**: specification in `Verif/IntExact.lean` (`Scanned`: the shape of an accepted text; `Congruent`: the value of a type congruent to a number; `ParseDoes`: the closed list of outcomes); total theorems over IntModel, by cases on the type after the scanner lemma of C21.
* **C163 What CompareTo and Equals of the integer types do with every pair**: total theorems over IntModel (`Verif/IntExact.lean`), the wrapped difference given by `Congruent`.
* **C164 What TimeSpan Negate, Duration, Subtract and the DateTime constructor do with every argument**: `Verif/CompleteProps.lean`, total equations over TimeSpanModel and DateTimeModel by joining the partial theorems of C15, C16, C05 with the corners.
* **C165 What the integer functions of Math do with every argument**: `Verif/CompleteProps.lean`, total statements over MathModel; quotients given by `IsDivRem`, the truncated quotient of DivRem(Int64) by `Congruent`.
* **C166 What Substring, ToCharArray and CopyTo do with every argument**: `Verif/StringComplete.lean`, total equations over StringModel, joining C29's partial theorems, the NUL case of StringExact and the corners.
* **C167 What the backward character searches do with every argument**: `Verif/StringComplete.lean`; specification `SearchedBack` (the closed list of outcomes over the last matching position `IsLast`); proof by the loop lemmas of C30 and the run-off lemma of StringExact.
* **C168 What padding, concatenation, insertion, removal, replacement and trimming of strings do with every argument**: `Verif/BuildComplete.lean`, total equations over StringModel and StringBuilderModel; proof by joining C33 to C36 with the overflow lemmas of StringExact.
* **C169 What Array.Copy, Clear, IndexOf and the dimension queries do with every argument**: `Verif/ArrayComplete.lean`, decision lists over ArrayModel for every shape; proof from C41, C42, C73 and the byte-range lemmas.
* **C170 What the Buffer functions do with every argument**: `Verif/ArrayComplete.lean`, decision lists over BufferModel stated with GetByte as the observation.
* **C171 What BitConverter's readers and ToString do with every argument**: `Verif/BitsComplete.lean`; the value is specified by its base-256 digits and shown unique; proof from C45, C46.
* **C172 What IsNegative, BitIncrement, BitDecrement, CopySign and Divide by zero give for every Double**: `Verif/BitsComplete.lean`; specification by class, magnitude and neighbour of the bit pattern.
* **C173 The characters of the methods of a program are functions that call each other and do what the methods do**: `Verif/ProgText.lean` (the characters, through the layout of StmtText), `Verif/CppProgRead.lean` (specification: what functions whose characters have been read do, written without reference to the translator), `Verif/ProgTextProps.lean`. Proof: each piece of text is read as the expression with its call (piece_reads), the body it stands in has one reading whatever the calls do, induction on the depth of calls shows the functions read are the functions of C157, and C157 relates these to the source. `throw` statements for new objects made without arguments are included; the class named behind `new` decides which exception it is (`exn`), the class named in the handler which exceptions it catches (`classes`). Void methods, calls as statements and static fields (one memory shared by all functions, read and written by qualified name) are included; `D.Returns` says which functions return a value. Example: the characters of three methods, `Fac`, `Sum` and the void `Tick`, with the fields `ticks` and `limit`, a `throw`, a `try` and a `catch`: 5! + 6!, an exception caught, one that is not caught, and the count left in `ticks`. `C173_order` (`Verif/EvalOrderProps.lean`): C++ leaves open which operand is evaluated first; all orders are considered (`orders`), and each gives the outcome with the call made first, unless something is undefined; induction over the expression, with one lemma for operands that cannot raise an exception and do not read what the call may change (`quiet`) and one for the place of the call (`once`). `C173_refuted`: for other programs of the kind the property is false: the only functions that can be read from the characters of `Less(a, b)` with `(uint)a < (uint)b` and of `Ask()` return 1 for the call that is 0 in C#.
* **C174 Exactly which StringBuilder calls are undefined**: `Verif/SBExact.lean`; no new code. Specification: `Undefined`, a decision from arguments, Length, Capacity, MaxCapacity. Proof: `step_exact`, case analysis over all operations under the memory invariant `Inv`, which every call that is not undefined keeps; induction over any history.
* **C175 Every DateTime a program can hold**: `Verif/DateTimeHeld.lean`; no new code. Specification: the inductive `Held` of all histories, the calendar of CalendarSpec. Proof: induction over histories for the range, then each operation on the range extended by the one value above MaxValue.
* **C176 Exactly which literals and names survive translation**: `Verif/LiteralExact.lean`; no new code. Specification: the C++ lexer of CppLexSpec, `Surrogate`. Proof: from the exact lexing theorem of C54/C55 and the NUL search of the String constructor, both directions.
* **C177 Math.PI and Math.E**: `Verif/MathConstModel.lean`, `Verif/MathConstProps.lean`. Specification: `Nearest` over the real numbers, Mathlib's `Real.pi` and `Real.exp 1`. The literals have 14 decimals, so the property is false (C177_refuted, with the nearer doubles); proved: they are the doubles nearest to the best 14-place decimals, with error bounds.
* **C178 Math.Log with a base**: `Verif/LogProps.lean`. Specification: `IsLog`, what C11 F.10.3.7 says of `log`, and the table of the .NET documentation. Proof: case analysis, the division of FloatExprModel and its rounding theorem.
* **C179 Math.Abs of a long**: `Verif/AbsModel.lean`, `Verif/AbsProps.lean`. The library returns a Double, which the assignment converts back. Specification: `Bits53`, `Nearest53`. Proof: exact outcome for every Int64 (C179_abs_exact) from the rounding theorem of ArithLemmas; the property is false above 2^53 (C179_refuted), true for numbers of 53 bits.
* **C180 What comparing strings does with every argument**: `Verif/CompareExact.lean`; no new code. Specification: `Way.order` on characters, `Decided` by the first pair that ends the comparison. Proof: induction on the number of pairs; uniqueness of what is decided.
* **C181 What TimeSpan.Parse and TryParse do with every text**: `Verif/SpanParseExact.lean`; no new code. Specification: `numbers`, `decimals`, `secondsOf`, `ticksOf`, recursive readings of a list of characters without memory, lengths or the array. Proof: the loop with its memory, its array of four entries and its pointers is that reading, by induction on the text; undefined exactly at the fifth number.
* **C182 What the platform allocator does with every request, in every history**: `Verif/AllocExact.lean`; no new code. Specification: `taken`, the rounded sizes of the blocks since the last setup; requests of any size. Proof: the invariant of C52 extended by "used = taken", by induction on the history without a bound on sizes; the 32-bit sums by case on the wrap.
* **C183 What Boolean.Parse, and Boolean's and Char's members of an object or of a string and a position, do with every argument**: `Verif/BoolCharExact.lean`; no new code. Specification: `TakenFor`, a beginning of the word, or the whole word before a NUL. Proof: induction on the text along the comparison loop.
* **C184 What the text searches, the forward character searches and the constructors of String do with every argument**: `Verif/StringSearchExact.lean`; no new code. Specification: `before` (the characters before the first NUL), `Seen` (stands there, no NUL in between), `IsFirst`/`IsLast`. Proof: a search in the text before a NUL is a search for seen occurrences, by induction on the position; the backward loop never answers with an occurrence above the position it looks from.
* **C185 What Join with a string separator, StartsWith, EndsWith and Contains do with every argument**: `Verif/JoinExact.lean`; no new code. Specification: `joined`, prefix/suffix/infix of lists, `bufferSize`. Proof: the join loop is the concatenation loop on the pieces, whose exact behaviour is known; the affix tests by cases on lengths over the exact theorems of C37.
* **C186 What reading and comparing StringBuilders does with every argument, after every history**: `Verif/SBReadExact.lean`; no new code. Specification: `before`, take/drop of the text. Proof: the memory invariant of C174 for every history (a NUL ends the block), so the scan for NUL is `before`; for tidy histories the NUL after the text.
* **C187 What Math.Round with digits, Math.ILogB and Math.FusedMultiplyAdd give for every argument**: `Verif/MathExact.lean`; no new code. Specification: `Rounded`, `ByMode`, powers of two as rationals. Proof: case analysis over C136, C137, C139; an infinity is above 10^16; a product that rounds to infinity absorbs the finite summand.
* **C188 Exactly when the generated header defines base classes first**: `Verif/HeaderExact.lean`; no new code (HeaderModel). Specification: `Before`, `Derives`, `DefinedBefore`, `Descends`. Proof: insertion never changes the order of the types already placed; a type goes before its first derived type, so it goes after `b` iff all its derived types already placed are after `b`; induction over the types met.
* **C189 Exactly when the header's by-value fields and its base clauses are right**: `Verif/HeaderFields.lean`; no new code (HeaderModel). Specification: `Before`, `Holds`, `baseClause` (a reader of base clauses). Proof: structs keep the order of the module (C83); a second base of a class reads as private (C85).
* **C190 Exactly which strings, names, namespaces, nestings and tables the translator gets right**: `Verif/TranslateExact.lean`; no new code (FmtModel, TypesModel). Specification: `Surrogate`, `takeWhile`, the C++ lexer of CppLexSpec, `render`. Proof: the converses of C53-C56, C80, C82; induction over strings and rows.
* **C191 Exactly which methods and switches are written correctly**: `Verif/StmtExact.lean`; no new code (StmtModel). Specification: labels, jumps, texts of the items written; `ilSelect`, `cppSelect`. Proof: the labels written are those of the visited blocks that are not omitted (C95); a section keeps only its least label (C61).
* **C192 Exactly which declarations mean in C++ what they mean in C#**: `Verif/DeclExact.lean`; no new code (MemberModel, CtorModel, TypesModel). Specification: `Legal`, `Keeps`, `PassedRight`, `IsReference`. Proof: cases on modifiers, body and kind; the specifier list has one entry per static, abstract or virtual modifier.
* **C193 Exactly what comparing a value with an object gives**: `Verif/BoxedExact.lean`; no new code (ObjectModel, IntModel, BoolCharModel). Specification: `Equal` (C154), `SignSurvives`, `Compares`. Proof: cases on the class of the object; linear arithmetic modulo 2^32.
* **C194 Exactly which names meet their declarations and which enumerators collide**: `Verif/NamesExact.lean`; no new code (NamesModel, FmtModel). Specification: `Clash`, `InDir`, `Changed`. Proof: splitting two equal texts at an underscore (three ways); the prefix `x_` never makes two names meet.
* **C195 Exactly which static fields have one type**: `Verif/FieldTypeModel.lean` (the error texts of the type visitor), `Verif/FieldTypeExact.lean`. Specification: `Agree`. Proof: the declared text starts with the name, `x_`, `void` or `Array`, the error text with `***`; a changed name is longer than, or starts differently from, the defined one.
* **C196 What Append and Insert of an object do, for every builder, index and object**: `Verif/SBObject.lean` (`insertObj`; `appendObj` is in StringModel). Specification: `Adds`, with `AddUndefined`, `Refused` and `position` of SBExact. Proof: both calls are the insertion of the text's cells (the NUL behind them is not read), whose effect is `appendRaw_spec` and whose undefined cases are C174.
* **C197 What Join with a character separator does, for every argument**: `Verif/JoinCharExact.lean`, no new code. Specification: `joined`, `FullBefore`. Proof: induction over the loop with the invariant that Capacity is the least multiple of 128 (at least 128) that holds the text, so the block is full exactly at a positive multiple of 128.
* **C198 Exactly which programs have every returned value converted to the right type**: `Verif/CastExact.lean`, no new code. Specification: `LastMethod`, `Accessor`. Proof: the visitor's state after a prefix is the type of its last method, by induction.
* **C199 What FormatString of String, StringBuilder, Boolean and Object does with every buffer and size**: `Verif/FormatExact.lean` (`sbFormat`, `objectFormat`). Specification: `written`, `Refusing`, `Cutting`. Proof: an equation for `CopyChars` on every memory, size and source.
* **C200 What appending or inserting a number, Boolean or character does, for every builder, index and value**: `Verif/ValueAppend.lean` (`appendValue`, `intFormat`, `realFormat`). Specification: `DecimalOf`, `Adds` (C196). Proof: each text has fewer than 128 characters, so the buffer's first cells are the text and only they are copied; then as C196.
* **C201 What DateTime's FormatString does with every buffer and size**: `Verif/DateFormat.lean` (`dateFormat`). Specification: the statement itself, with `written` (C199) and `DateTime.toString`. Proof: the text before AM/PM has at most 100 characters; too small a size makes `swprintf` return -1, which the builder refuses as a negative capacity; otherwise the builder holds the text and C199 applies.
* **C202 What TimeSpan's FormatString does with every buffer and size**: `Verif/SpanFormat.lean` (`spanFormat`, `spanBuild`). Specification: the statement itself, with `written` (C199) and `TimeSpan.toString`. Proof: the printed parts have at most 20 and 7 characters, so every append stays in the first 128 cells and the builder holds the text; then C199.
