import Verif.CppParse
import Verif.CppSem
import Verif.CppLexSpec
import Verif.ConstSpec
/-!
# Specification: how a C++ compiler reads the characters of an integer expression

Independent of the translator: characters to lexemes by maximal munch (ISO C++ [lex.pptoken], [lex.name], [lex.ppnumber], [lex.operators]), lexemes to tokens by name lookup,
tokens to a syntax tree by the grammar (CppParse), syntax tree to a typed expression (CppSem).
-/
namespace Verif.Read
open Cpp Sem
open Verif.IntVal (Ty)

/-! ## Characters to lexemes -/

inductive Lexeme where
  /-- an identifier or keyword -/
  | word (s : WStr)
  | num (s : WStr)
  | punct (s : WStr)
deriving DecidableEq, Repr

/-- The operators and punctuators of C++ ([lex.operators]), without the digraphs, `...` and the preprocessor's. -/
def puncts : List WStr :=
  ["{", "}", "[", "]", "(", ")", ";", ":", "::", "?", ".", ".*", "->", "->*", "~", "!", "+", "-", "*", "/", "%", "^", "&", "|", "=", "+=", "-=", "*=", "/=", "%=", "^=", "&=",
   "|=", "==", "!=", "<", ">", "<=", ">=", "&&", "||", "<<", ">>", "<<=", ">>=", "++", "--", ","].map w

def isStart (c : Nat) : Bool := c == 95 || (65 ≤ c && c ≤ 90) || (97 ≤ c && c ≤ 122)
def isPart (c : Nat) : Bool := isStart c || isDigit c
/-- Space, tab, newline, carriage return. -/
def isWhite (c : Nat) : Bool := c == 32 || c == 9 || c == 10 || c == 13

/-- The lexeme being read. -/
inductive St where
  | none
  | word (s : WStr)
  | num (s : WStr)
  | punct (s : WStr)
deriving DecidableEq, Repr

/-- The longest sequence of characters that can be a lexeme is one: whether `c` still belongs to the lexeme. -/
def St.extends : St → Nat → Bool
  | .none, _ => false
  | .word _, c => isPart c
  | .num s, c => isPart c || c == 46 || ((c == 43 || c == 45) && (s.getLast? == some 69 || s.getLast? == some 101 || s.getLast? == some 80 || s.getLast? == some 112))
  | .punct s, c => puncts.contains (s ++ [c])

def St.push : St → Nat → St
  | .none, _ => .none
  | .word s, c => .word (s ++ [c])
  | .num s, c => .num (s ++ [c])
  | .punct s, c => .punct (s ++ [c])

def St.flush : St → List Lexeme
  | .none => []
  | .word s => [.word s]
  | .num s => [.num s]
  | .punct s => [.punct s]

/-- A lexeme starts. Quotation marks and other characters are outside this fragment. -/
def start (c : Nat) : Option St :=
  if isWhite c then some .none
  else if isStart c then some (.word [c])
  else if isDigit c then some (.num [c])
  else if puncts.contains [c] then some (.punct [c])
  else none

/-- The lexemes of a text. Comments are outside this fragment. -/
def lexS : St → WStr → Option (List Lexeme)
  | st, [] => some st.flush
  | st, c :: r =>
    if st.extends c then lexS (st.push c) r
    else if st = .punct [47] ∧ (c = 47 ∨ c = 42) then none
    else (start c).bind fun st' => (lexS st' r).map (st.flush ++ ·)

def lex (s : WStr) : Option (List Lexeme) := lexS .none s

/-! ## Names -/

/-- What a name denotes. -/
inductive Entity where
  | type (ty : Ty)
  | var (ty : Ty) (k : Nat)
  | const (v : ConstSpec.IVal)
  /-- the overloaded function `Math::Divide` -/
  | divide
  /-- function number `f` of the program -/
  | func (params : List Ty) (ret : Ty) (f : Nat)
  /-- function number `f` of the program, which returns nothing -/
  | proc (params : List Ty) (f : Nat)
  /-- a static field, kept in variable `k` -/
  | field (ty : Ty) (k : Nat)
deriving DecidableEq, Repr

/-- The names of the runtime library (/repo/DotNetLibrary/include/DotnetTypes.h lines 40-49, DotNetMath.h lines 254-261, {Byte,SByte,...}Value.h). -/
def library : List (WStr × Entity) :=
  [(w "SByte", .type .sbyte), (w "Byte", .type .byte), (w "Int16", .type .int16), (w "UInt16", .type .uint16), (w "Int32", .type .int32),
   (w "UInt32", .type .uint32), (w "Int64", .type .int64), (w "UInt64", .type .uint64), (w "Math::Divide", .divide)] ++
  ConstSpec.named.map fun p => (p.1, .const p.2)

/-- A static member of a class of the program. A function: its name `Class::Method`, the types of its parameters and of its result, or `void`. Or a field: its name `Class::field`, its type `ret`, and `place`, the
number of the variable it is kept in; the numbers of fields are larger than those of the variables of functions. -/
structure Fun where
  name : WStr
  params : List Ty
  ret : Ty
  void : Bool := false
  place : Option Nat := none
deriving DecidableEq

/-- What member number `f` is. -/
def Fun.entity (p : Fun) (f : Nat) : Entity :=
  match p.place with
  | some k => .field p.ret k
  | none => if p.void then .proc p.params f else .func p.params p.ret f

/-- The names in scope: the library's, the variables, the static members of the program's classes. (A variable with a name of the library would hide it; the theorems exclude such names.) -/
def entities (vars : List (WStr × Ty)) (funs : List Fun := []) : List (WStr × Entity) :=
  library ++ (List.range vars.length).zipWith (fun k p => (p.1, Entity.var p.2 k)) vars ++ (List.range funs.length).zipWith (fun f p => (p.name, p.entity f)) funs

/-- The first entity with this name. -/
def position : List (WStr × Entity) → WStr → Option (Nat × Entity)
  | [], _ => none
  | (n, e) :: r, s => if s = n then some (0, e) else (position r s).map fun x => (x.1 + 1, x.2)

/-- A name as a token: names are numbered by their place among the entities; a keyword is no name. -/
def nameTok (ents : List (WStr × Entity)) (s : WStr) : Option Tok :=
  if (CppLex.keywords.map w).contains s then none
  else (position ents s).map fun x => match x.2 with
    | .type _ => .ty x.1
    | _ => .id x.1

def binOp (s : WStr) : Option Op :=
  if s = w "*" then some .mul else if s = w "/" then some .div else if s = w "%" then some .rem
  else if s = w "+" then some .add else if s = w "-" then some .sub
  else if s = w "<<" then some .shl else if s = w ">>" then some .shr
  else if s = w "<" then some .lt else if s = w "<=" then some .le else if s = w ">" then some .gt else if s = w ">=" then some .ge
  else if s = w "==" then some .eq else if s = w "!=" then some .ne
  else if s = w "&" then some .band else if s = w "^" then some .xor else if s = w "|" then some .bor
  else none

def punctTok (s : WStr) : Option Tok :=
  if s = w "(" then some .lp else if s = w ")" then some .rp else if s = w "," then some .comma else if s = w "~" then some .tilde
  else if s = w "?" then some .ques else if s = w ":" then some .colon else if s = w "=" then some .asg else if s = w "->" then some .arrow
  else (binOp s).map .op

/-- A number as a token: the literals follow the names. -/
def numTok (ents : List (WStr × Entity)) (s : WStr) : Option Tok :=
  (ConstSpec.intLiteral s).map fun v => .id (ents.length + v.value.toNat)

/-- Lexemes to tokens; `a::b` is one name. -/
def resolve (ents : List (WStr × Entity)) : List Lexeme → Option (List Tok)
  | [] => some []
  | .word a :: .punct p :: .word b :: r =>
    if p = w "::" then (nameTok ents (a ++ w "::" ++ b)).bind fun t => (resolve ents r).map (t :: ·)
    else (nameTok ents a).bind fun t => (resolve ents (.punct p :: .word b :: r)).map (t :: ·)
  | .word a :: r => (nameTok ents a).bind fun t => (resolve ents r).map (t :: ·)
  | .num s :: r => (numTok ents s).bind fun t => (resolve ents r).map (t :: ·)
  | .punct p :: r => (punctTok p).bind fun t => (resolve ents r).map (t :: ·)

/-! ## Types and values -/

/-- An operator of the integer expressions; `/` is not in the fragment. -/
def binX (o : Op) (l r : CX) : Option CX :=
  match o with
  | .mul => some (.arith .mul l r) | .rem => some (.arith .rem l r) | .add => some (.arith .add l r) | .sub => some (.arith .sub l r)
  | .band => some (.arith .band l r) | .xor => some (.arith .xor l r) | .bor => some (.arith .bor l r)
  | .shl => some (.shift .shl l r) | .shr => some (.shift .shr l r)
  | .lt => some (.rel .lt l r) | .le => some (.rel .le l r) | .gt => some (.rel .gt l r) | .ge => some (.rel .ge l r)
  | .eq => some (.rel .eq l r) | .ne => some (.rel .ne l r)
  | .div => none

/-- The `k`-th name, or the literal after the names. -/
def atomX (ents : List (WStr × Entity)) (k : Nat) : Option CX :=
  match ents[k]? with
  | some (_, .var ty i) => some (.var ty i)
  | some (_, .field ty i) => some (.var ty i)
  | some (_, .const v) => some (.cast v.ty (.lit v.value))
  | some _ => none
  | none => some (.lit (k - ents.length : Nat))

/-- The function a call names. -/
def isDivide (ents : List (WStr × Entity)) (k : Nat) : Bool :=
  match ents[k]? with
  | some (_, .divide) => true
  | _ => false

def typeOf (ents : List (WStr × Entity)) (k : Nat) : Option Ty :=
  match ents[k]? with
  | some (_, .type ty) => some ty
  | _ => none

def Entity.isVar : Entity → Bool
  | .var _ _ => true
  | _ => false

/-- The number that stands for the value of a call: the first one that is no variable in scope. -/
def slotOf (ents : List (WStr × Entity)) : Nat := (ents.filter fun e => e.2.isVar).length

/-- A call of a function of the program: a value of its type. (A call of a function that returns nothing is no part of an expression.) -/
def callX (ents : List (WStr × Entity)) (k : Nat) : Option CX :=
  match ents[k]? with
  | some (_, .func _ R _) => some (.var R (slotOf ents))
  | _ => none

/-- A syntax tree as a typed expression. `-a` is `0 - a` in the promoted type ([expr.unary.op]); a call of `Math::Divide` with two Int64 arguments is one of the overload for
Int64 (DotNetMath.h line 254). For calls of functions of the program see `readX`. -/
def typed (ents : List (WStr × Entity)) : T → Option CX
  | .id k => atomX ents k
  | .neg t => (typed ents t).map fun e => .arith .sub (.lit 0) e
  | .compl t => (typed ents t).map .compl
  | .cast k t => (typeOf ents k).bind fun ty => (typed ents t).map (.cast ty)
  | .bin o l r => (typed ents l).bind fun a => (typed ents r).bind fun b => binX o a b
  | .tern c t f => (typed ents c).bind fun x => (typed ents t).bind fun y => (typed ents f).map fun z => .tern x y z
  | .call (.id k) (.acons a (.acons b .anil)) =>
    if isDivide ents k then (typed ents a).bind fun x => (typed ents b).bind fun y => if x.ty = .i64 ∧ y.ty = .i64 then some (.divide x y) else none
    else callX ents k
  | .call (.id k) _ => callX ents k
  | _ => none

/-! ## Calls -/

/-- The calls of functions of the program in an expression, outside the arguments of calls of such functions: the function, the types of its parameters, the arguments. -/
def callsIn (ents : List (WStr × Entity)) : T → List (Nat × List Ty × T)
  | .neg t | .compl t | .cast _ t => callsIn ents t
  | .bin _ l r => callsIn ents l ++ callsIn ents r
  | .tern c t f => callsIn ents c ++ callsIn ents t ++ callsIn ents f
  | .call (.id k) args =>
    match ents[k]? with
    | some (_, .func ps _ f) => [(f, ps, args)]
    | some (_, .proc ps f) => [(f, ps, args)]
    | _ => callsIn ents args
  | .acons a r => callsIn ents a ++ callsIn ents r
  | _ => []

/-- The function a call names: its number and the types of its parameters. -/
def funcOf (ents : List (WStr × Entity)) (k : Nat) : Option (Nat × List Ty) :=
  match ents[k]? with
  | some (_, .func ps _ f) => some (f, ps)
  | some (_, .proc ps f) => some (f, ps)
  | _ => none

/-- The arguments of a call: as many as there are parameters, no calls in them. -/
def argsOf (ents : List (WStr × Entity)) : List Ty → T → Option (List CX)
  | [], .anil => some []
  | _ :: tys, .acons a r => if callsIn ents a = [] then (typed ents a).bind fun c => (argsOf ents tys r).map (c :: ·) else none
  | _, _ => none

/-- The expression does not use number `k`. -/
def without (k : Nat) : CX → Bool
  | .var _ j => j != k
  | .lit _ => true
  | .arith _ l r | .shift _ l r | .rel _ l r | .divide l r => without k l && without k r
  | .compl e | .cast _ e => without k e
  | .tern c t f => without k c && without k t && without k f

/-- Moreover no exception can come from it, and it does not use static fields, whose numbers are larger. -/
def quiet (k : Nat) : CX → Bool
  | .var _ j => decide (j < k)
  | .lit _ => true
  | .arith .rem _ _ => false
  | .arith _ l r | .shift _ l r | .rel _ l r => quiet k l && quiet k r
  | .divide _ _ => false
  | .compl e | .cast _ e => quiet k e
  | .tern c t f => quiet k c && quiet k t && quiet k f

/-- Number `k` is used exactly once, it is always used, and it can be evaluated first: nothing that is evaluated before it, or in C++ may be evaluated before or after it, raises an exception or uses a static field. -/
def once (k : Nat) : CX → Bool
  | .var _ j => j == k
  | .lit _ => false
  | .arith _ l r | .shift _ l r | .rel _ l r | .divide l r => (once k l && quiet k r) || (quiet k l && once k r)
  | .compl e | .cast _ e => once k e
  | .tern c t f => once k c && without k t && without k f

/-- A call of a function of the program: the function, its arguments, and the number that stands for its value. -/
structure RCall where
  callee : Nat
  args : List CX
  result : Nat

/-- An expression with at most one call of a function of the program, and the expression with the number of its value in the place of the call. -/
structure RX where
  call : Option RCall
  expr : CX

/-- A syntax tree as an expression with at most one call. -/
def readX (ents : List (WStr × Entity)) (t : T) : Option RX :=
  match callsIn ents t with
  | [] => (typed ents t).map fun c => ⟨none, c⟩
  | [(f, ps, as)] => (argsOf ents ps as).bind fun cs => (typed ents t).bind fun c => if once (slotOf ents) c then some ⟨some ⟨f, cs, slotOf ents⟩, c⟩ else none
  | _ => none

/-! ## Texts -/

/-- The characters `s` are, in the scope of the variables `vars`, the expression `c`. -/
def Reads (vars : List (WStr × Ty)) (s : WStr) (c : CX) : Prop :=
  ∃ ls ts t, lex s = some ls ∧ resolve (entities vars) ls = some ts ∧ Parses ts t ∧ typed (entities vars) t = some c

/-- A text is at most one expression. -/
theorem Reads.unique {vars : List (WStr × Ty)} {s : WStr} {a b : CX} (h1 : Reads vars s a) (h2 : Reads vars s b) : a = b := by
  obtain ⟨ls, ts, t, e1, e2, e3, e4⟩ := h1
  obtain ⟨ls', ts', t', f1, f2, f3, f4⟩ := h2
  rw [e1, Option.some.injEq] at f1
  subst f1
  rw [e2, Option.some.injEq] at f2
  subst f2
  rw [e3.unique f3, f4, Option.some.injEq] at e4
  exact e4.symm

end Verif.Read
