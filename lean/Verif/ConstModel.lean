import Verif.FmtModel
import Verif.IntModel
/-!
# Model of the constants emitted by the translator (/repo/CppTranslator/MyIlInstructionVisitor.cs)

`ToString()` of floating-point numbers is that of .NET 6 (the target framework of CppTranslator.csproj): the texts of the limits are
written out below; the text of any other number is a parameter of the functions.
-/
namespace Verif.Const

/-- `Double.MaxValue.ToString()`, line 96. -/
def doubleMax : WStr := w "1.7976931348623157E+308"
/-- `Single.MaxValue.ToString()`, line 95. -/
def singleMax : WStr := w "3.4028235E+38"
/-- `Double.Epsilon.ToString()`, line 108. -/
def doubleEps : WStr := w "5E-324"
/-- `float.Epsilon.ToString()`, line 109. -/
def singleEps : WStr := w "1E-45"

/-- The dictionary `constantConversions`, lines 87-109. -/
def conversions : List (WStr × WStr) :=
  [(decInt 255, w "ByteValue::MaxValue"),
   (decInt 127, w "SByteValue::MaxValue"),
   (decInt 32767, w "Int16Value::MaxValue"),
   (decInt 2147483647, w "Int32Value::MaxValue"),
   (decInt 9223372036854775807, w "Int64Value::MaxValue"),
   (decInt 65535, w "UInt16Value::MaxValue"),
   (decInt 4294967295, w "UInt32Value::MaxValue"),
   (decInt 18446744073709551615, w "UInt64Value::MaxValue"),
   (singleMax, w "SingleValue::MaxValue"),
   (doubleMax, w "DoubleValue::MaxValue"),
   (decInt (-128), w "SByteValue::MinValue"),
   (decInt (-32768), w "Int16Value::MinValue"),
   (decInt (-2147483648), w "Int32Value::MinValue"),
   (decInt (-9223372036854775808), w "Int64Value::MinValue"),
   (45 :: singleMax, w "SingleValue::MinValue"),
   (45 :: doubleMax, w "DoubleValue::MinValue"),
   (w "NaN", w "DoubleValue::NaN"),
   ([8734], w "DoubleValue::PositiveInfinity"),
   ([45, 8734], w "DoubleValue::NegativeInfinity"),
   (doubleEps, w "DoubleValue::Epsilon"),
   (singleEps, w "SingleValue::Epsilon")]

/-- `ContainsKey` and the indexer of the dictionary. -/
def find : List (WStr × WStr) → WStr → Option WStr
  | [], _ => none
  | (k, v) :: r, t => if t = k then some v else find r t

/-- `ConvertConstants`, lines 855-864: the appended text and whether it was converted. -/
def convert (v : WStr) : WStr × Bool :=
  match find conversions v with
  | some t => (t, true)
  | none => (v, false)

/-- `VisitLdcI4`, lines 850-854. -/
def ldcI4 (value : Int) : WStr := (convert (decInt value)).1

/-- `VisitLdcI8`, lines 866-870. -/
def ldcI8 (value : Int) : WStr := (convert (decInt value)).1

/-- `VisitLdcF8`, lines 839-848; `str` is `inst.Value.ToString()`. `Char.IsDigit` is modelled on ASCII (the texts are ASCII but for
the infinity sign, which is not a digit). `str[str.Length - 1]` throws on an empty text, which `ToString` never returns. -/
def ldcF8 (str : WStr) : WStr :=
  let str := if (str.getLast?.map isDigit).getD false && !str.contains 46 && !str.contains 69 then str ++ w ".0" else str
  (convert str).1

/-- `VisitLdcF4`, lines 819-837: `own` is `inst.Value.ToString()`, `asDouble` the text of the value converted to `Double`, `limit` whether it is
one of the three values of line 822. -/
def ldcF4 (limit : Bool) (own asDouble : WStr) : WStr :=
  let value := if limit then own else asDouble
  let r := convert value
  if !r.2 && value.contains 46 then r.1 ++ w "F" else r.1

end Verif.Const
