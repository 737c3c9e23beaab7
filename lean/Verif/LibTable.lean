import Verif.TextModel
/-!
# What the library declares and what the translator accepts

Generated by tools/libtable.py. Texts are numbers in base 256 (ASCII codes, first character most significant), as in ValidTable.
-/
namespace Verif.LibTable

/-- A public method of a library class: name, number of parameters without default, parameter types. -/
structure Method where
  name : Nat
  req : Nat
  params : List Nat

/-- A library class, its base class (0 if none) and its public methods. -/
structure Class where
  name : Nat
  base : Nat
  methods : List Method

/-- A library method accepted by the translator: full name of the class, name, parameter types. -/
structure Call where
  cls : Nat
  name : Nat
  args : List Nat

/-- Array.h: public methods of `Array`. -/
def arrayClass : Class := ⟨0x4172726179, 0x4f626a656374, [
  ⟨0x6765745f4c656e677468, 0, []⟩, -- line 88: get_Length()
  ⟨0x6765745f52616e6b, 0, []⟩, -- line 93: get_Rank()
  ⟨0x41646472657373, 1, [0x496e743332, 0x496e743332, 0x496e743332]⟩, -- line 101: Address(Int32, Int32, Int32)
  ⟨0x436c656172, 3, [0x41727261792a, 0x496e743332, 0x496e743332]⟩, -- line 108: Clear(Array*, Int32, Int32)
  ⟨0x436f6e73747261696e6564436f7079, 5, [0x41727261792a, 0x496e743332, 0x41727261792a, 0x496e743332, 0x496e743332]⟩, -- line 117: ConstrainedCopy(Array*, Int32, Array*, Int32, Int32)
  ⟨0x436f7079, 3, [0x41727261792a, 0x41727261792a, 0x496e743332]⟩, -- line 124: Copy(Array*, Array*, Int32)
  ⟨0x436f7079, 5, [0x41727261792a, 0x496e743332, 0x41727261792a, 0x496e743332, 0x496e743332]⟩, -- line 133: Copy(Array*, Int32, Array*, Int32, Int32)
  ⟨0x436f7079546f, 2, [0x41727261792a, 0x496e743332]⟩, -- line 139: CopyTo(Array*, Int32)
  ⟨0x456e7375726553696e676c6544696d656e73696f6e, 0, []⟩, -- line 143: EnsureSingleDimension()
  ⟨0x4765745261774461746154797065, 0, []⟩, -- line 148: GetRawDataType()
  ⟨0x476574456c656d656e7454797065, 0, []⟩, -- line 156: GetElementType()
  ⟨0x4765744c656e677468, 1, [0x496e743332]⟩, -- line 165: GetLength(Int32)
  ⟨0x4765744c6f776572426f756e64, 1, [0x496e743332]⟩, -- line 171: GetLowerBound(Int32)
  ⟨0x4765745570706572426f756e64, 1, [0x496e743332]⟩, -- line 177: GetUpperBound(Int32)
  ⟨0x47657456616c7565, 1, [0x41727261792a]⟩, -- line 183: GetValue(Array*)
  ⟨0x47657456616c7565, 1, [0x496e743332, 0x496e743332, 0x496e743332]⟩, -- line 191: GetValue(Int32, Int32, Int32)
  ⟨0x496e6465784f66, 2, [0x41727261792a, 0x4f626a6563742a, 0x496e743332, 0x496e743332]⟩, -- line 200: IndexOf(Array*, Object*, Int32, Int32)
  ⟨0x496e697469616c697a65, 1, [0x766f69642a]⟩, -- line 206: Initialize(void*)
  ⟨0x53657456616c7565, 2, [0x4f626a6563742a, 0x496e743332, 0x496e743332, 0x496e743332]⟩, -- line 214: SetValue(Object*, Int32, Int32, Int32)
  ⟨0x53657456616c7565, 2, [0x4f626a6563742a, 0x41727261792a]⟩ -- line 220: SetValue(Object*, Array*)
  ]⟩

/-- BitConverter.h: public methods of `BitConverter`. -/
def bitConverterClass : Class := ⟨0x426974436f6e766572746572, 0x4f626a656374, [
  ⟨0x446f75626c65546f496e74363442697473, 1, [0x446f75626c65]⟩, -- line 59: DoubleToInt64Bits(Double)
  ⟨0x496e74363442697473546f446f75626c65, 1, [0x496e743634]⟩, -- line 65: Int64BitsToDouble(Int64)
  ⟨0x4765744279746573, 1, [0x426f6f6c65616e]⟩, -- line 71: GetBytes(Boolean)
  ⟨0x4765744279746573, 1, [0x43686172]⟩, -- line 77: GetBytes(Char)
  ⟨0x4765744279746573, 1, [0x446f75626c65]⟩, -- line 83: GetBytes(Double)
  ⟨0x4765744279746573, 1, [0x496e743136]⟩, -- line 89: GetBytes(Int16)
  ⟨0x4765744279746573, 1, [0x496e743332]⟩, -- line 95: GetBytes(Int32)
  ⟨0x4765744279746573, 1, [0x496e743634]⟩, -- line 101: GetBytes(Int64)
  ⟨0x4765744279746573, 1, [0x53696e676c65]⟩, -- line 107: GetBytes(Single)
  ⟨0x4765744279746573, 1, [0x55496e743136]⟩, -- line 113: GetBytes(UInt16)
  ⟨0x4765744279746573, 1, [0x55496e743332]⟩, -- line 119: GetBytes(UInt32)
  ⟨0x4765744279746573, 1, [0x55496e743634]⟩, -- line 125: GetBytes(UInt64)
  ⟨0x546f426f6f6c65616e, 2, [0x41727261792a, 0x496e743332]⟩, -- line 132: ToBoolean(Array*, Int32)
  ⟨0x546f43686172, 2, [0x41727261792a, 0x496e743332]⟩, -- line 139: ToChar(Array*, Int32)
  ⟨0x546f446f75626c65, 2, [0x41727261792a, 0x496e743332]⟩, -- line 146: ToDouble(Array*, Int32)
  ⟨0x546f496e743136, 2, [0x41727261792a, 0x496e743332]⟩, -- line 153: ToInt16(Array*, Int32)
  ⟨0x546f496e743332, 2, [0x41727261792a, 0x496e743332]⟩, -- line 160: ToInt32(Array*, Int32)
  ⟨0x546f496e743634, 2, [0x41727261792a, 0x496e743332]⟩, -- line 167: ToInt64(Array*, Int32)
  ⟨0x546f53696e676c65, 2, [0x41727261792a, 0x496e743332]⟩, -- line 174: ToSingle(Array*, Int32)
  ⟨0x546f55496e743136, 2, [0x41727261792a, 0x496e743332]⟩, -- line 181: ToUInt16(Array*, Int32)
  ⟨0x546f55496e743332, 2, [0x41727261792a, 0x496e743332]⟩, -- line 188: ToUInt32(Array*, Int32)
  ⟨0x546f55496e743634, 2, [0x41727261792a, 0x496e743332]⟩, -- line 195: ToUInt64(Array*, Int32)
  ⟨0x546f537472696e67, 1, [0x41727261792a, 0x496e743332, 0x496e743332]⟩ -- line 203: ToString(Array*, Int32, Int32)
  ]⟩

/-- BooleanValue.h: public methods of `BooleanValue`. -/
def booleanValueClass : Class := ⟨0x426f6f6c65616e56616c7565, 0x56616c756554797065, [
  ⟨0x6765745f4173426f6f6c65616e, 0, []⟩, -- line 35: get_AsBoolean()
  ⟨0x6765745f417342797465, 0, []⟩, -- line 40: get_AsByte()
  ⟨0x6765745f41735342797465, 0, []⟩, -- line 45: get_AsSByte()
  ⟨0x6765745f4173496e743136, 0, []⟩, -- line 50: get_AsInt16()
  ⟨0x6765745f417355496e743136, 0, []⟩, -- line 55: get_AsUInt16()
  ⟨0x6765745f4173496e743332, 0, []⟩, -- line 60: get_AsInt32()
  ⟨0x6765745f417355496e743332, 0, []⟩, -- line 65: get_AsUInt32()
  ⟨0x6765745f4173496e743634, 0, []⟩, -- line 70: get_AsInt64()
  ⟨0x6765745f417355496e743634, 0, []⟩, -- line 75: get_AsUInt64()
  ⟨0x4765745261774461746154797065, 0, []⟩, -- line 80: GetRawDataType()
  ⟨0x436f6d70617265546f, 1, [0x426f6f6c65616e]⟩, -- line 86: CompareTo(Boolean)
  ⟨0x436f6d70617265546f, 1, [0x4f626a6563742a]⟩, -- line 92: CompareTo(Object*)
  ⟨0x457175616c73, 1, [0x4f626a6563742a]⟩, -- line 98: Equals(Object*)
  ⟨0x457175616c73, 1, [0x426f6f6c65616e]⟩, -- line 104: Equals(Boolean)
  ⟨0x466f726d6174537472696e67, 2, [0x436861722a, 0x496e743332]⟩, -- line 111: FormatString(Char*, Int32)
  ⟨0x5061727365, 1, [0x537472696e672a]⟩ -- line 117: Parse(String*)
  ]⟩

/-- Buffer.h: public methods of `Buffer`. -/
def bufferClass : Class := ⟨0x427566666572, 0, [
  ⟨0x426c6f636b436f7079, 5, [0x41727261792a, 0x496e743332, 0x41727261792a, 0x496e743332, 0x496e743332]⟩, -- line 38: BlockCopy(Array*, Int32, Array*, Int32, Int32)
  ⟨0x427974654c656e677468, 1, [0x41727261792a]⟩, -- line 44: ByteLength(Array*)
  ⟨0x47657442797465, 2, [0x41727261792a, 0x496e743332]⟩, -- line 51: GetByte(Array*, Int32)
  ⟨0x53657442797465, 3, [0x41727261792a, 0x496e743332, 0x42797465]⟩ -- line 58: SetByte(Array*, Int32, Byte)
  ]⟩

/-- ByteValue.h: public methods of `ByteValue`. -/
def byteValueClass : Class := ⟨0x4279746556616c7565, 0x56616c756554797065, [
  ⟨0x6765745f4173426f6f6c65616e, 0, []⟩, -- line 35: get_AsBoolean()
  ⟨0x6765745f417343686172, 0, []⟩, -- line 40: get_AsChar()
  ⟨0x6765745f417342797465, 0, []⟩, -- line 45: get_AsByte()
  ⟨0x6765745f41735342797465, 0, []⟩, -- line 50: get_AsSByte()
  ⟨0x6765745f4173496e743136, 0, []⟩, -- line 55: get_AsInt16()
  ⟨0x6765745f417355496e743136, 0, []⟩, -- line 60: get_AsUInt16()
  ⟨0x6765745f4173496e743332, 0, []⟩, -- line 65: get_AsInt32()
  ⟨0x6765745f417355496e743332, 0, []⟩, -- line 70: get_AsUInt32()
  ⟨0x6765745f4173496e743634, 0, []⟩, -- line 75: get_AsInt64()
  ⟨0x6765745f417355496e743634, 0, []⟩, -- line 80: get_AsUInt64()
  ⟨0x6765745f417353696e676c65, 0, []⟩, -- line 85: get_AsSingle()
  ⟨0x6765745f4173446f75626c65, 0, []⟩, -- line 90: get_AsDouble()
  ⟨0x436f6d70617265546f, 1, [0x42797465]⟩, -- line 96: CompareTo(Byte)
  ⟨0x436f6d70617265546f, 1, [0x4f626a6563742a]⟩, -- line 102: CompareTo(Object*)
  ⟨0x457175616c73, 1, [0x4f626a6563742a]⟩, -- line 108: Equals(Object*)
  ⟨0x457175616c73, 1, [0x42797465]⟩, -- line 114: Equals(Byte)
  ⟨0x466f726d6174537472696e67, 2, [0x436861722a, 0x496e743332]⟩, -- line 121: FormatString(Char*, Int32)
  ⟨0x4765745261774461746154797065, 0, []⟩, -- line 126: GetRawDataType()
  ⟨0x5061727365, 1, [0x537472696e672a]⟩, -- line 132: Parse(String*)
  ⟨0x5472795061727365, 2, [0x537472696e672a, 0x4279746526]⟩ -- line 139: TryParse(String*, Byte&)
  ]⟩

/-- CharEnumerator.h: public methods of `CharEnumerator`. -/
def charEnumeratorClass : Class := ⟨0x43686172456e756d657261746f72, 0x4f626a656374, [
  ⟨0x6765745f43757272656e74, 0, []⟩, -- line 42: get_Current()
  ⟨0x4d6f76654e657874, 0, []⟩, -- line 47: MoveNext()
  ⟨0x5265736574, 0, []⟩ -- line 51: Reset()
  ]⟩

/-- CharValue.h: public methods of `CharValue`. -/
def charValueClass : Class := ⟨0x4368617256616c7565, 0x56616c756554797065, [
  ⟨0x6765745f417343686172, 0, []⟩, -- line 38: get_AsChar()
  ⟨0x6765745f417342797465, 0, []⟩, -- line 43: get_AsByte()
  ⟨0x6765745f41735342797465, 0, []⟩, -- line 48: get_AsSByte()
  ⟨0x6765745f4173496e743136, 0, []⟩, -- line 53: get_AsInt16()
  ⟨0x6765745f417355496e743136, 0, []⟩, -- line 58: get_AsUInt16()
  ⟨0x6765745f4173496e743332, 0, []⟩, -- line 63: get_AsInt32()
  ⟨0x6765745f417355496e743332, 0, []⟩, -- line 68: get_AsUInt32()
  ⟨0x6765745f4173496e743634, 0, []⟩, -- line 73: get_AsInt64()
  ⟨0x6765745f417355496e743634, 0, []⟩, -- line 78: get_AsUInt64()
  ⟨0x6765745f417353696e676c65, 0, []⟩, -- line 83: get_AsSingle()
  ⟨0x6765745f4173446f75626c65, 0, []⟩, -- line 88: get_AsDouble()
  ⟨0x4765745261774461746154797065, 0, []⟩, -- line 93: GetRawDataType()
  ⟨0x436f6d70617265546f, 1, [0x43686172]⟩, -- line 101: CompareTo(Char)
  ⟨0x436f6d70617265546f, 1, [0x4f626a6563742a]⟩, -- line 107: CompareTo(Object*)
  ⟨0x457175616c73, 1, [0x4f626a6563742a]⟩, -- line 113: Equals(Object*)
  ⟨0x457175616c73, 1, [0x43686172]⟩, -- line 119: Equals(Char)
  ⟨0x466f726d6174537472696e67, 2, [0x436861722a, 0x496e743332]⟩, -- line 126: FormatString(Char*, Int32)
  ⟨0x4765744e756d6572696356616c7565, 1, [0x43686172]⟩, -- line 132: GetNumericValue(Char)
  ⟨0x4765744e756d6572696356616c7565, 2, [0x537472696e672a, 0x496e743332]⟩, -- line 139: GetNumericValue(String*, Int32)
  ⟨0x4973436f6e74726f6c, 1, [0x43686172]⟩, -- line 145: IsControl(Char)
  ⟨0x4973436f6e74726f6c, 2, [0x537472696e672a, 0x496e743332]⟩, -- line 152: IsControl(String*, Int32)
  ⟨0x49734469676974, 1, [0x43686172]⟩, -- line 158: IsDigit(Char)
  ⟨0x49734469676974, 2, [0x537472696e672a, 0x496e743332]⟩, -- line 165: IsDigit(String*, Int32)
  ⟨0x49734c6574746572, 1, [0x43686172]⟩, -- line 171: IsLetter(Char)
  ⟨0x49734c6574746572, 2, [0x537472696e672a, 0x496e743332]⟩, -- line 178: IsLetter(String*, Int32)
  ⟨0x49734c65747465724f724469676974, 1, [0x43686172]⟩, -- line 184: IsLetterOrDigit(Char)
  ⟨0x49734c65747465724f724469676974, 2, [0x537472696e672a, 0x496e743332]⟩, -- line 191: IsLetterOrDigit(String*, Int32)
  ⟨0x49734c6f776572, 1, [0x43686172]⟩, -- line 197: IsLower(Char)
  ⟨0x49734c6f776572, 2, [0x537472696e672a, 0x496e743332]⟩, -- line 204: IsLower(String*, Int32)
  ⟨0x49734e756d626572, 1, [0x43686172]⟩, -- line 210: IsNumber(Char)
  ⟨0x49734e756d626572, 2, [0x537472696e672a, 0x496e743332]⟩, -- line 217: IsNumber(String*, Int32)
  ⟨0x497350756e6374756174696f6e, 1, [0x43686172]⟩, -- line 223: IsPunctuation(Char)
  ⟨0x497350756e6374756174696f6e, 2, [0x537472696e672a, 0x496e743332]⟩, -- line 230: IsPunctuation(String*, Int32)
  ⟨0x4973536570617261746f72, 1, [0x43686172]⟩, -- line 236: IsSeparator(Char)
  ⟨0x4973536570617261746f72, 2, [0x537472696e672a, 0x496e743332]⟩, -- line 243: IsSeparator(String*, Int32)
  ⟨0x49735570706572, 1, [0x43686172]⟩, -- line 249: IsUpper(Char)
  ⟨0x49735570706572, 2, [0x537472696e672a, 0x496e743332]⟩, -- line 256: IsUpper(String*, Int32)
  ⟨0x497357686974655370616365, 1, [0x43686172]⟩, -- line 262: IsWhiteSpace(Char)
  ⟨0x497357686974655370616365, 2, [0x537472696e672a, 0x496e743332]⟩, -- line 269: IsWhiteSpace(String*, Int32)
  ⟨0x5061727365, 1, [0x537472696e672a]⟩, -- line 275: Parse(String*)
  ⟨0x546f4c6f776572, 1, [0x43686172]⟩, -- line 281: ToLower(Char)
  ⟨0x546f5570706572, 1, [0x43686172]⟩, -- line 287: ToUpper(Char)
  ⟨0x5472795061727365, 2, [0x537472696e672a, 0x4368617226]⟩, -- line 294: TryParse(String*, Char&)
  ⟨0x546f537472696e67, 0, []⟩, -- line 299: ToString()
  ⟨0x546f537472696e67, 1, [0x43686172]⟩ -- line 305: ToString(Char)
  ]⟩

/-- DateTimeValue.h: public methods of `DateTimeValue`. -/
def dateTimeValueClass : Class := ⟨0x4461746554696d6556616c7565, 0x56616c756554797065, [
  ⟨0x6765745f41734461746554696d65, 0, []⟩, -- line 97: get_AsDateTime()
  ⟨0x6765745f44617465, 0, []⟩, -- line 102: get_Date()
  ⟨0x6765745f446179, 0, []⟩, -- line 107: get_Day()
  ⟨0x6765745f4461794f665765656b, 0, []⟩, -- line 112: get_DayOfWeek()
  ⟨0x6765745f4461794f6659656172, 0, []⟩, -- line 117: get_DayOfYear()
  ⟨0x6765745f486f7572, 0, []⟩, -- line 122: get_Hour()
  ⟨0x6765745f4d696c6c697365636f6e64, 0, []⟩, -- line 127: get_Millisecond()
  ⟨0x6765745f4d696e757465, 0, []⟩, -- line 132: get_Minute()
  ⟨0x6765745f4d6f6e7468, 0, []⟩, -- line 137: get_Month()
  ⟨0x6765745f4e6f77, 0, []⟩, -- line 142: get_Now()
  ⟨0x6765745f5365636f6e64, 0, []⟩, -- line 147: get_Second()
  ⟨0x6765745f5469636b73, 0, []⟩, -- line 152: get_Ticks()
  ⟨0x6765745f54696d654f66446179, 0, []⟩, -- line 159: get_TimeOfDay()
  ⟨0x6765745f546f646179, 0, []⟩, -- line 164: get_Today()
  ⟨0x6765745f5574634e6f77, 0, []⟩, -- line 169: get_UtcNow()
  ⟨0x6765745f59656172, 0, []⟩, -- line 174: get_Year()
  ⟨0x416464, 2, [0x446f75626c65, 0x496e743332]⟩, -- line 181: Add(Double, Int32)
  ⟨0x416464, 1, [0x54696d655370616e]⟩, -- line 187: Add(TimeSpan)
  ⟨0x41646444617973, 1, [0x446f75626c65]⟩, -- line 193: AddDays(Double)
  ⟨0x416464486f757273, 1, [0x446f75626c65]⟩, -- line 199: AddHours(Double)
  ⟨0x4164644d696c6c697365636f6e6473, 1, [0x446f75626c65]⟩, -- line 205: AddMilliseconds(Double)
  ⟨0x4164644d696e75746573, 1, [0x446f75626c65]⟩, -- line 211: AddMinutes(Double)
  ⟨0x4164644d6f6e746873, 1, [0x496e743332]⟩, -- line 217: AddMonths(Int32)
  ⟨0x4164645365636f6e6473, 1, [0x446f75626c65]⟩, -- line 223: AddSeconds(Double)
  ⟨0x4164645469636b73, 1, [0x496e743634]⟩, -- line 229: AddTicks(Int64)
  ⟨0x4164645965617273, 1, [0x496e743332]⟩, -- line 235: AddYears(Int32)
  ⟨0x436f6d70617265, 2, [0x4461746554696d6526, 0x4461746554696d6526]⟩, -- line 241: Compare(DateTime&, DateTime&)
  ⟨0x436f6d70617265546f, 1, [0x4461746554696d6526]⟩, -- line 247: CompareTo(DateTime&)
  ⟨0x436f6d70617265546f, 1, [0x4f626a6563742a]⟩, -- line 253: CompareTo(Object*)
  ⟨0x44617973496e4d6f6e7468, 2, [0x496e743332, 0x496e743332]⟩, -- line 260: DaysInMonth(Int32, Int32)
  ⟨0x457175616c73, 1, [0x4461746554696d6526]⟩, -- line 266: Equals(DateTime&)
  ⟨0x457175616c73, 2, [0x4461746554696d6526, 0x4461746554696d6526]⟩, -- line 273: Equals(DateTime&, DateTime&)
  ⟨0x457175616c73, 1, [0x4f626a6563742a]⟩, -- line 279: Equals(Object*)
  ⟨0x49734461796c69676874536176696e6754696d65, 0, []⟩, -- line 284: IsDaylightSavingTime()
  ⟨0x49734c65617059656172, 1, [0x496e743332]⟩, -- line 290: IsLeapYear(Int32)
  ⟨0x466f726d6174537472696e67, 2, [0x436861722a, 0x496e743332]⟩, -- line 297: FormatString(Char*, Int32)
  ⟨0x4765744461746550617274, 1, [0x496e743332]⟩, -- line 303: GetDatePart(Int32)
  ⟨0x4765744461746550617274, 3, [0x496e74333226, 0x496e74333226, 0x496e74333226]⟩, -- line 310: GetDatePart(Int32&, Int32&, Int32&)
  ⟨0x4765745261774461746154797065, 0, []⟩, -- line 315: GetRawDataType()
  ⟨0x5375627472616374, 1, [0x4461746554696d6526]⟩, -- line 323: Subtract(DateTime&)
  ⟨0x5375627472616374, 1, [0x54696d655370616e]⟩, -- line 329: Subtract(TimeSpan)
  ⟨0x546f4c6f63616c54696d65, 0, []⟩, -- line 334: ToLocalTime()
  ⟨0x546f4c6f63616c54696d65, 1, [0x426f6f6c65616e]⟩, -- line 340: ToLocalTime(Boolean)
  ⟨0x546f556e6976657273616c54696d65, 0, []⟩, -- line 345: ToUniversalTime()
  ⟨0x6f705f4164646974696f6e, 2, [0x4461746554696d6526, 0x54696d655370616e]⟩, -- line 352: op_Addition(DateTime&, TimeSpan)
  ⟨0x6f705f457175616c697479, 2, [0x4461746554696d6526, 0x4461746554696d6526]⟩, -- line 359: op_Equality(DateTime&, DateTime&)
  ⟨0x6f705f477265617465725468616e, 2, [0x4461746554696d6526, 0x4461746554696d6526]⟩, -- line 366: op_GreaterThan(DateTime&, DateTime&)
  ⟨0x6f705f477265617465725468616e4f72457175616c, 2, [0x4461746554696d6526, 0x4461746554696d6526]⟩, -- line 373: op_GreaterThanOrEqual(DateTime&, DateTime&)
  ⟨0x6f705f496e657175616c697479, 2, [0x4461746554696d6526, 0x4461746554696d6526]⟩, -- line 380: op_Inequality(DateTime&, DateTime&)
  ⟨0x6f705f4c6573735468616e, 2, [0x4461746554696d6526, 0x4461746554696d6526]⟩, -- line 387: op_LessThan(DateTime&, DateTime&)
  ⟨0x6f705f4c6573735468616e4f72457175616c, 2, [0x4461746554696d6526, 0x4461746554696d6526]⟩, -- line 394: op_LessThanOrEqual(DateTime&, DateTime&)
  ⟨0x6f705f5375627472616374696f6e, 2, [0x4461746554696d6526, 0x4461746554696d6526]⟩, -- line 401: op_Subtraction(DateTime&, DateTime&)
  ⟨0x6f705f5375627472616374696f6e, 2, [0x4461746554696d6526, 0x54696d655370616e]⟩ -- line 408: op_Subtraction(DateTime&, TimeSpan)
  ]⟩

/-- DotNetMath.h: public methods of `Math`. -/
def mathClass : Class := ⟨0x4d617468, 0, [
  ⟨0x416273, 1, [0x446f75626c65]⟩, -- line 45: Abs(Double)
  ⟨0x416273, 1, [0x496e743136]⟩, -- line 51: Abs(Int16)
  ⟨0x416273, 1, [0x496e743332]⟩, -- line 57: Abs(Int32)
  ⟨0x416273, 1, [0x496e743634]⟩, -- line 63: Abs(Int64)
  ⟨0x416273, 1, [0x5342797465]⟩, -- line 69: Abs(SByte)
  ⟨0x416273, 1, [0x53696e676c65]⟩, -- line 75: Abs(Single)
  ⟨0x41636f73, 1, [0x446f75626c65]⟩, -- line 81: Acos(Double)
  ⟨0x41636f7368, 1, [0x446f75626c65]⟩, -- line 87: Acosh(Double)
  ⟨0x4173696e, 1, [0x446f75626c65]⟩, -- line 93: Asin(Double)
  ⟨0x4173696e68, 1, [0x446f75626c65]⟩, -- line 99: Asinh(Double)
  ⟨0x4174616e, 1, [0x446f75626c65]⟩, -- line 105: Atan(Double)
  ⟨0x4174616e32, 2, [0x446f75626c65, 0x446f75626c65]⟩, -- line 111: Atan2(Double, Double)
  ⟨0x4174616e68, 1, [0x446f75626c65]⟩, -- line 117: Atanh(Double)
  ⟨0x4269674d756c, 2, [0x496e743332, 0x496e743332]⟩, -- line 124: BigMul(Int32, Int32)
  ⟨0x42697444656372656d656e74, 1, [0x446f75626c65]⟩, -- line 130: BitDecrement(Double)
  ⟨0x426974496e6372656d656e74, 1, [0x446f75626c65]⟩, -- line 136: BitIncrement(Double)
  ⟨0x43627274, 1, [0x446f75626c65]⟩, -- line 142: Cbrt(Double)
  ⟨0x4365696c696e67, 1, [0x446f75626c65]⟩, -- line 148: Ceiling(Double)
  ⟨0x436c616d70, 3, [0x42797465, 0x42797465, 0x42797465]⟩, -- line 156: Clamp(Byte, Byte, Byte)
  ⟨0x436c616d70, 3, [0x446f75626c65, 0x446f75626c65, 0x446f75626c65]⟩, -- line 164: Clamp(Double, Double, Double)
  ⟨0x436c616d70, 3, [0x496e743136, 0x496e743136, 0x496e743136]⟩, -- line 172: Clamp(Int16, Int16, Int16)
  ⟨0x436c616d70, 3, [0x496e743332, 0x496e743332, 0x496e743332]⟩, -- line 180: Clamp(Int32, Int32, Int32)
  ⟨0x436c616d70, 3, [0x496e743634, 0x496e743634, 0x496e743634]⟩, -- line 188: Clamp(Int64, Int64, Int64)
  ⟨0x436c616d70, 3, [0x5342797465, 0x5342797465, 0x5342797465]⟩, -- line 196: Clamp(SByte, SByte, SByte)
  ⟨0x436c616d70, 3, [0x53696e676c65, 0x53696e676c65, 0x53696e676c65]⟩, -- line 204: Clamp(Single, Single, Single)
  ⟨0x436c616d70, 3, [0x55496e743136, 0x55496e743136, 0x55496e743136]⟩, -- line 212: Clamp(UInt16, UInt16, UInt16)
  ⟨0x436c616d70, 3, [0x55496e743332, 0x55496e743332, 0x55496e743332]⟩, -- line 220: Clamp(UInt32, UInt32, UInt32)
  ⟨0x436c616d70, 3, [0x55496e743634, 0x55496e743634, 0x55496e743634]⟩, -- line 228: Clamp(UInt64, UInt64, UInt64)
  ⟨0x436f70795369676e, 2, [0x446f75626c65, 0x446f75626c65]⟩, -- line 235: CopySign(Double, Double)
  ⟨0x436f73, 1, [0x446f75626c65]⟩, -- line 241: Cos(Double)
  ⟨0x436f7368, 1, [0x446f75626c65]⟩, -- line 247: Cosh(Double)
  ⟨0x446976696465, 2, [0x496e743634, 0x496e743634]⟩, -- line 254: Divide(Int64, Int64)
  ⟨0x446976696465, 2, [0x446f75626c65, 0x446f75626c65]⟩, -- line 261: Divide(Double, Double)
  ⟨0x44697652656d, 3, [0x496e743332, 0x496e743332, 0x496e74333226]⟩, -- line 269: DivRem(Int32, Int32, Int32&)
  ⟨0x44697652656d, 3, [0x496e743634, 0x496e743634, 0x496e74363426]⟩, -- line 277: DivRem(Int64, Int64, Int64&)
  ⟨0x457870, 1, [0x446f75626c65]⟩, -- line 283: Exp(Double)
  ⟨0x457874726163744578706f6e656e7446726f6d42697473, 1, [0x55496e743634]⟩, -- line 289: ExtractExponentFromBits(UInt64)
  ⟨0x457874726163745369676e69666963616e6446726f6d42697473, 1, [0x55496e743634]⟩, -- line 295: ExtractSignificandFromBits(UInt64)
  ⟨0x466c6f6f72, 1, [0x446f75626c65]⟩, -- line 301: Floor(Double)
  ⟨0x46757365644d756c7469706c79416464, 3, [0x446f75626c65, 0x446f75626c65, 0x446f75626c65]⟩, -- line 309: FusedMultiplyAdd(Double, Double, Double)
  ⟨0x4945454552656d61696e646572, 2, [0x446f75626c65, 0x446f75626c65]⟩, -- line 316: IEEERemainder(Double, Double)
  ⟨0x494c6f6742, 1, [0x446f75626c65]⟩, -- line 322: ILogB(Double)
  ⟨0x4c6f67, 1, [0x446f75626c65]⟩, -- line 328: Log(Double)
  ⟨0x4c6f67, 2, [0x446f75626c65, 0x446f75626c65]⟩, -- line 335: Log(Double, Double)
  ⟨0x4c6f673130, 1, [0x446f75626c65]⟩, -- line 341: Log10(Double)
  ⟨0x4c6f6732, 1, [0x446f75626c65]⟩, -- line 347: Log2(Double)
  ⟨0x4d6178, 2, [0x42797465, 0x42797465]⟩, -- line 354: Max(Byte, Byte)
  ⟨0x4d6178, 2, [0x446f75626c65, 0x446f75626c65]⟩, -- line 361: Max(Double, Double)
  ⟨0x4d6178, 2, [0x496e743136, 0x496e743136]⟩, -- line 368: Max(Int16, Int16)
  ⟨0x4d6178, 2, [0x496e743332, 0x496e743332]⟩, -- line 375: Max(Int32, Int32)
  ⟨0x4d6178, 2, [0x496e743634, 0x496e743634]⟩, -- line 382: Max(Int64, Int64)
  ⟨0x4d6178, 2, [0x5342797465, 0x5342797465]⟩, -- line 389: Max(SByte, SByte)
  ⟨0x4d6178, 2, [0x53696e676c65, 0x53696e676c65]⟩, -- line 396: Max(Single, Single)
  ⟨0x4d6178, 2, [0x55496e743136, 0x55496e743136]⟩, -- line 403: Max(UInt16, UInt16)
  ⟨0x4d6178, 2, [0x55496e743332, 0x55496e743332]⟩, -- line 410: Max(UInt32, UInt32)
  ⟨0x4d6178, 2, [0x55496e743634, 0x55496e743634]⟩, -- line 417: Max(UInt64, UInt64)
  ⟨0x4d61784d61676e6974756465, 2, [0x446f75626c65, 0x446f75626c65]⟩, -- line 424: MaxMagnitude(Double, Double)
  ⟨0x4d696e, 2, [0x42797465, 0x42797465]⟩, -- line 431: Min(Byte, Byte)
  ⟨0x4d696e, 2, [0x446f75626c65, 0x446f75626c65]⟩, -- line 438: Min(Double, Double)
  ⟨0x4d696e, 2, [0x496e743136, 0x496e743136]⟩, -- line 445: Min(Int16, Int16)
  ⟨0x4d696e, 2, [0x496e743332, 0x496e743332]⟩, -- line 452: Min(Int32, Int32)
  ⟨0x4d696e, 2, [0x496e743634, 0x496e743634]⟩, -- line 459: Min(Int64, Int64)
  ⟨0x4d696e, 2, [0x5342797465, 0x5342797465]⟩, -- line 466: Min(SByte, SByte)
  ⟨0x4d696e, 2, [0x53696e676c65, 0x53696e676c65]⟩, -- line 473: Min(Single, Single)
  ⟨0x4d696e, 2, [0x55496e743136, 0x55496e743136]⟩, -- line 480: Min(UInt16, UInt16)
  ⟨0x4d696e, 2, [0x55496e743332, 0x55496e743332]⟩, -- line 487: Min(UInt32, UInt32)
  ⟨0x4d696e, 2, [0x55496e743634, 0x55496e743634]⟩, -- line 494: Min(UInt64, UInt64)
  ⟨0x4d696e4d61676e6974756465, 2, [0x446f75626c65, 0x446f75626c65]⟩, -- line 501: MinMagnitude(Double, Double)
  ⟨0x506f77, 2, [0x446f75626c65, 0x446f75626c65]⟩, -- line 508: Pow(Double, Double)
  ⟨0x526f756e64, 1, [0x446f75626c65]⟩, -- line 514: Round(Double)
  ⟨0x526f756e64, 2, [0x446f75626c65, 0x496e743332]⟩, -- line 521: Round(Double, Int32)
  ⟨0x526f756e64, 3, [0x446f75626c65, 0x496e743332, 0x4d6964706f696e74526f756e64696e67]⟩, -- line 529: Round(Double, Int32, MidpointRounding)
  ⟨0x5363616c6542, 2, [0x446f75626c65, 0x496e743332]⟩, -- line 536: ScaleB(Double, Int32)
  ⟨0x5369676e, 1, [0x446f75626c65]⟩, -- line 542: Sign(Double)
  ⟨0x5369676e, 1, [0x496e743136]⟩, -- line 548: Sign(Int16)
  ⟨0x5369676e, 1, [0x496e743332]⟩, -- line 554: Sign(Int32)
  ⟨0x5369676e, 1, [0x496e743634]⟩, -- line 560: Sign(Int64)
  ⟨0x5369676e, 1, [0x5342797465]⟩, -- line 566: Sign(SByte)
  ⟨0x5369676e, 1, [0x53696e676c65]⟩, -- line 572: Sign(Single)
  ⟨0x53696e, 1, [0x446f75626c65]⟩, -- line 578: Sin(Double)
  ⟨0x53696e68, 1, [0x446f75626c65]⟩, -- line 584: Sinh(Double)
  ⟨0x53717274, 1, [0x446f75626c65]⟩, -- line 590: Sqrt(Double)
  ⟨0x54616e, 1, [0x446f75626c65]⟩, -- line 596: Tan(Double)
  ⟨0x54616e68, 1, [0x446f75626c65]⟩, -- line 602: Tanh(Double)
  ⟨0x5472756e63617465, 1, [0x446f75626c65]⟩ -- line 608: Truncate(Double)
  ]⟩

/-- DoubleValue.h: public methods of `DoubleValue`. -/
def doubleValueClass : Class := ⟨0x446f75626c6556616c7565, 0x56616c756554797065, [
  ⟨0x6765745f4173496e743136, 0, []⟩, -- line 38: get_AsInt16()
  ⟨0x6765745f417355496e743136, 0, []⟩, -- line 43: get_AsUInt16()
  ⟨0x6765745f4173496e743332, 0, []⟩, -- line 48: get_AsInt32()
  ⟨0x6765745f417355496e743332, 0, []⟩, -- line 53: get_AsUInt32()
  ⟨0x6765745f4173496e743634, 0, []⟩, -- line 58: get_AsInt64()
  ⟨0x6765745f417355496e743634, 0, []⟩, -- line 63: get_AsUInt64()
  ⟨0x6765745f417353696e676c65, 0, []⟩, -- line 68: get_AsSingle()
  ⟨0x6765745f4173446f75626c65, 0, []⟩, -- line 73: get_AsDouble()
  ⟨0x436f6d70617265546f, 1, [0x446f75626c65]⟩, -- line 79: CompareTo(Double)
  ⟨0x436f6d70617265546f, 1, [0x4f626a6563742a]⟩, -- line 85: CompareTo(Object*)
  ⟨0x4765745261774461746154797065, 0, []⟩, -- line 90: GetRawDataType()
  ⟨0x457175616c73, 1, [0x4f626a6563742a]⟩, -- line 98: Equals(Object*)
  ⟨0x457175616c73, 1, [0x446f75626c65]⟩, -- line 104: Equals(Double)
  ⟨0x497346696e697465, 1, [0x446f75626c65]⟩, -- line 110: IsFinite(Double)
  ⟨0x4973496e66696e697479, 1, [0x446f75626c65]⟩, -- line 116: IsInfinity(Double)
  ⟨0x49734e614e, 1, [0x446f75626c65]⟩, -- line 122: IsNaN(Double)
  ⟨0x49734e65676174697665, 1, [0x446f75626c65]⟩, -- line 128: IsNegative(Double)
  ⟨0x49734e65676174697665496e66696e697479, 1, [0x446f75626c65]⟩, -- line 134: IsNegativeInfinity(Double)
  ⟨0x49734e6f726d616c, 1, [0x446f75626c65]⟩, -- line 140: IsNormal(Double)
  ⟨0x4973506f736974697665496e66696e697479, 1, [0x446f75626c65]⟩, -- line 146: IsPositiveInfinity(Double)
  ⟨0x49735375626e6f726d616c, 1, [0x446f75626c65]⟩, -- line 152: IsSubnormal(Double)
  ⟨0x466f726d6174537472696e67, 2, [0x436861722a, 0x496e743332]⟩, -- line 159: FormatString(Char*, Int32)
  ⟨0x4d6f64756c7573, 2, [0x446f75626c65, 0x446f75626c65]⟩, -- line 166: Modulus(Double, Double)
  ⟨0x5061727365, 1, [0x537472696e672a]⟩, -- line 172: Parse(String*)
  ⟨0x5472795061727365, 2, [0x537472696e672a, 0x446f75626c6526]⟩, -- line 179: TryParse(String*, Double&)
  ⟨0x5472795061727365496e7465726e616c, 2, [0x537472696e672a, 0x446f75626c6526]⟩, -- line 186: TryParseInternal(String*, Double&)
  ⟨0x5472795061727365496e7465726e616c, 3, [0x436861722a, 0x496e743332, 0x446f75626c6526]⟩ -- line 194: TryParseInternal(Char*, Int32, Double&)
  ]⟩

/-- Int16Value.h: public methods of `Int16Value`. -/
def int16ValueClass : Class := ⟨0x496e74313656616c7565, 0x56616c756554797065, [
  ⟨0x6765745f4173426f6f6c65616e, 0, []⟩, -- line 38: get_AsBoolean()
  ⟨0x6765745f417343686172, 0, []⟩, -- line 43: get_AsChar()
  ⟨0x6765745f417342797465, 0, []⟩, -- line 48: get_AsByte()
  ⟨0x6765745f41735342797465, 0, []⟩, -- line 53: get_AsSByte()
  ⟨0x6765745f4173496e743136, 0, []⟩, -- line 58: get_AsInt16()
  ⟨0x6765745f417355496e743136, 0, []⟩, -- line 63: get_AsUInt16()
  ⟨0x6765745f4173496e743332, 0, []⟩, -- line 68: get_AsInt32()
  ⟨0x6765745f417355496e743332, 0, []⟩, -- line 73: get_AsUInt32()
  ⟨0x6765745f4173496e743634, 0, []⟩, -- line 78: get_AsInt64()
  ⟨0x6765745f417355496e743634, 0, []⟩, -- line 83: get_AsUInt64()
  ⟨0x6765745f417353696e676c65, 0, []⟩, -- line 88: get_AsSingle()
  ⟨0x6765745f4173446f75626c65, 0, []⟩, -- line 93: get_AsDouble()
  ⟨0x436f6d70617265546f, 1, [0x496e743136]⟩, -- line 99: CompareTo(Int16)
  ⟨0x436f6d70617265546f, 1, [0x4f626a6563742a]⟩, -- line 105: CompareTo(Object*)
  ⟨0x457175616c73, 1, [0x4f626a6563742a]⟩, -- line 111: Equals(Object*)
  ⟨0x457175616c73, 1, [0x496e743136]⟩, -- line 117: Equals(Int16)
  ⟨0x466f726d6174537472696e67, 2, [0x436861722a, 0x496e743332]⟩, -- line 124: FormatString(Char*, Int32)
  ⟨0x4765745261774461746154797065, 0, []⟩, -- line 129: GetRawDataType()
  ⟨0x5061727365, 1, [0x537472696e672a]⟩, -- line 137: Parse(String*)
  ⟨0x5472795061727365, 2, [0x537472696e672a, 0x496e74313626]⟩ -- line 144: TryParse(String*, Int16&)
  ]⟩

/-- Int32Value.h: public methods of `Int32Value`. -/
def int32ValueClass : Class := ⟨0x496e74333256616c7565, 0x56616c756554797065, [
  ⟨0x6765745f4173426f6f6c65616e, 0, []⟩, -- line 38: get_AsBoolean()
  ⟨0x6765745f417343686172, 0, []⟩, -- line 43: get_AsChar()
  ⟨0x6765745f417342797465, 0, []⟩, -- line 48: get_AsByte()
  ⟨0x6765745f41735342797465, 0, []⟩, -- line 53: get_AsSByte()
  ⟨0x6765745f4173496e743136, 0, []⟩, -- line 58: get_AsInt16()
  ⟨0x6765745f417355496e743136, 0, []⟩, -- line 63: get_AsUInt16()
  ⟨0x6765745f4173496e743332, 0, []⟩, -- line 68: get_AsInt32()
  ⟨0x6765745f417355496e743332, 0, []⟩, -- line 73: get_AsUInt32()
  ⟨0x6765745f4173496e743634, 0, []⟩, -- line 78: get_AsInt64()
  ⟨0x6765745f417355496e743634, 0, []⟩, -- line 83: get_AsUInt64()
  ⟨0x6765745f417353696e676c65, 0, []⟩, -- line 88: get_AsSingle()
  ⟨0x6765745f4173446f75626c65, 0, []⟩, -- line 93: get_AsDouble()
  ⟨0x436f6d70617265546f, 1, [0x496e743332]⟩, -- line 99: CompareTo(Int32)
  ⟨0x436f6d70617265546f, 1, [0x4f626a6563742a]⟩, -- line 105: CompareTo(Object*)
  ⟨0x457175616c73, 1, [0x4f626a6563742a]⟩, -- line 111: Equals(Object*)
  ⟨0x457175616c73, 1, [0x496e743332]⟩, -- line 117: Equals(Int32)
  ⟨0x466f726d6174537472696e67, 2, [0x436861722a, 0x496e743332]⟩, -- line 124: FormatString(Char*, Int32)
  ⟨0x4765745261774461746154797065, 0, []⟩, -- line 129: GetRawDataType()
  ⟨0x5061727365, 1, [0x537472696e672a]⟩, -- line 137: Parse(String*)
  ⟨0x5472795061727365, 2, [0x537472696e672a, 0x496e74333226]⟩ -- line 144: TryParse(String*, Int32&)
  ]⟩

/-- Int64Value.h: public methods of `Int64Value`. -/
def int64ValueClass : Class := ⟨0x496e74363456616c7565, 0x56616c756554797065, [
  ⟨0x6765745f4173426f6f6c65616e, 0, []⟩, -- line 38: get_AsBoolean()
  ⟨0x6765745f417343686172, 0, []⟩, -- line 43: get_AsChar()
  ⟨0x6765745f417342797465, 0, []⟩, -- line 48: get_AsByte()
  ⟨0x6765745f41735342797465, 0, []⟩, -- line 53: get_AsSByte()
  ⟨0x6765745f4173496e743136, 0, []⟩, -- line 58: get_AsInt16()
  ⟨0x6765745f417355496e743136, 0, []⟩, -- line 63: get_AsUInt16()
  ⟨0x6765745f4173496e743332, 0, []⟩, -- line 68: get_AsInt32()
  ⟨0x6765745f417355496e743332, 0, []⟩, -- line 73: get_AsUInt32()
  ⟨0x6765745f4173496e743634, 0, []⟩, -- line 78: get_AsInt64()
  ⟨0x6765745f417355496e743634, 0, []⟩, -- line 83: get_AsUInt64()
  ⟨0x6765745f417353696e676c65, 0, []⟩, -- line 88: get_AsSingle()
  ⟨0x6765745f4173446f75626c65, 0, []⟩, -- line 93: get_AsDouble()
  ⟨0x436f6d70617265546f, 1, [0x496e743634]⟩, -- line 99: CompareTo(Int64)
  ⟨0x436f6d70617265546f, 1, [0x4f626a6563742a]⟩, -- line 105: CompareTo(Object*)
  ⟨0x457175616c73, 1, [0x4f626a6563742a]⟩, -- line 111: Equals(Object*)
  ⟨0x457175616c73, 1, [0x496e743634]⟩, -- line 117: Equals(Int64)
  ⟨0x466f726d6174537472696e67, 2, [0x436861722a, 0x496e743332]⟩, -- line 124: FormatString(Char*, Int32)
  ⟨0x4765745261774461746154797065, 0, []⟩, -- line 129: GetRawDataType()
  ⟨0x5061727365, 1, [0x537472696e672a]⟩, -- line 137: Parse(String*)
  ⟨0x5472795061727365, 2, [0x537472696e672a, 0x496e74363426]⟩ -- line 144: TryParse(String*, Int64&)
  ]⟩

/-- Object.h: public methods of `Object`. -/
def objectClass : Class := ⟨0x4f626a656374, 0, [
  ⟨0x6765745f4173426f6f6c65616e, 0, []⟩, -- line 37: get_AsBoolean()
  ⟨0x6765745f417343686172, 0, []⟩, -- line 42: get_AsChar()
  ⟨0x6765745f417342797465, 0, []⟩, -- line 47: get_AsByte()
  ⟨0x6765745f41735342797465, 0, []⟩, -- line 52: get_AsSByte()
  ⟨0x6765745f4173496e743136, 0, []⟩, -- line 57: get_AsInt16()
  ⟨0x6765745f417355496e743136, 0, []⟩, -- line 62: get_AsUInt16()
  ⟨0x6765745f4173496e743332, 0, []⟩, -- line 67: get_AsInt32()
  ⟨0x6765745f417355496e743332, 0, []⟩, -- line 72: get_AsUInt32()
  ⟨0x6765745f4173496e743634, 0, []⟩, -- line 77: get_AsInt64()
  ⟨0x6765745f417355496e743634, 0, []⟩, -- line 82: get_AsUInt64()
  ⟨0x6765745f417353696e676c65, 0, []⟩, -- line 87: get_AsSingle()
  ⟨0x6765745f4173446f75626c65, 0, []⟩, -- line 92: get_AsDouble()
  ⟨0x6765745f41734461746554696d65, 0, []⟩, -- line 97: get_AsDateTime()
  ⟨0x6765745f417354696d655370616e, 0, []⟩, -- line 102: get_AsTimeSpan()
  ⟨0x457175616c73, 2, [0x4f626a6563742a, 0x4f626a6563742a]⟩, -- line 109: Equals(Object*, Object*)
  ⟨0x457175616c73, 1, [0x4f626a6563742a]⟩, -- line 115: Equals(Object*)
  ⟨0x466f726d6174537472696e67, 2, [0x436861722a, 0x496e743332]⟩, -- line 122: FormatString(Char*, Int32)
  ⟨0x4765745261774461746154797065, 0, []⟩, -- line 127: GetRawDataType()
  ⟨0x49735072696d697469766554797065, 1, [0x4461746154797065]⟩, -- line 135: IsPrimitiveType(DataType)
  ⟨0x546f537472696e67, 0, []⟩ -- line 140: ToString()
  ]⟩

/-- SByteValue.h: public methods of `SByteValue`. -/
def sByteValueClass : Class := ⟨0x534279746556616c7565, 0x56616c756554797065, [
  ⟨0x6765745f4173426f6f6c65616e, 0, []⟩, -- line 35: get_AsBoolean()
  ⟨0x6765745f417343686172, 0, []⟩, -- line 40: get_AsChar()
  ⟨0x6765745f417342797465, 0, []⟩, -- line 45: get_AsByte()
  ⟨0x6765745f41735342797465, 0, []⟩, -- line 50: get_AsSByte()
  ⟨0x6765745f4173496e743136, 0, []⟩, -- line 55: get_AsInt16()
  ⟨0x6765745f417355496e743136, 0, []⟩, -- line 60: get_AsUInt16()
  ⟨0x6765745f4173496e743332, 0, []⟩, -- line 65: get_AsInt32()
  ⟨0x6765745f417355496e743332, 0, []⟩, -- line 70: get_AsUInt32()
  ⟨0x6765745f4173496e743634, 0, []⟩, -- line 75: get_AsInt64()
  ⟨0x6765745f417355496e743634, 0, []⟩, -- line 80: get_AsUInt64()
  ⟨0x6765745f417353696e676c65, 0, []⟩, -- line 85: get_AsSingle()
  ⟨0x6765745f4173446f75626c65, 0, []⟩, -- line 90: get_AsDouble()
  ⟨0x436f6d70617265546f, 1, [0x5342797465]⟩, -- line 96: CompareTo(SByte)
  ⟨0x436f6d70617265546f, 1, [0x4f626a6563742a]⟩, -- line 102: CompareTo(Object*)
  ⟨0x457175616c73, 1, [0x4f626a6563742a]⟩, -- line 108: Equals(Object*)
  ⟨0x457175616c73, 1, [0x5342797465]⟩, -- line 114: Equals(SByte)
  ⟨0x466f726d6174537472696e67, 2, [0x436861722a, 0x496e743332]⟩, -- line 121: FormatString(Char*, Int32)
  ⟨0x4765745261774461746154797065, 0, []⟩, -- line 126: GetRawDataType()
  ⟨0x5061727365, 1, [0x537472696e672a]⟩, -- line 134: Parse(String*)
  ⟨0x5472795061727365, 2, [0x537472696e672a, 0x534279746526]⟩ -- line 141: TryParse(String*, SByte&)
  ]⟩

/-- SingleValue.h: public methods of `SingleValue`. -/
def singleValueClass : Class := ⟨0x53696e676c6556616c7565, 0x56616c756554797065, [
  ⟨0x6765745f4173496e743136, 0, []⟩, -- line 34: get_AsInt16()
  ⟨0x6765745f417355496e743136, 0, []⟩, -- line 39: get_AsUInt16()
  ⟨0x6765745f4173496e743332, 0, []⟩, -- line 44: get_AsInt32()
  ⟨0x6765745f417355496e743332, 0, []⟩, -- line 49: get_AsUInt32()
  ⟨0x6765745f4173496e743634, 0, []⟩, -- line 54: get_AsInt64()
  ⟨0x6765745f417355496e743634, 0, []⟩, -- line 59: get_AsUInt64()
  ⟨0x6765745f417353696e676c65, 0, []⟩, -- line 64: get_AsSingle()
  ⟨0x6765745f4173446f75626c65, 0, []⟩, -- line 69: get_AsDouble()
  ⟨0x436f6d70617265546f, 1, [0x53696e676c65]⟩, -- line 75: CompareTo(Single)
  ⟨0x436f6d70617265546f, 1, [0x4f626a6563742a]⟩, -- line 81: CompareTo(Object*)
  ⟨0x457175616c73, 1, [0x4f626a6563742a]⟩, -- line 87: Equals(Object*)
  ⟨0x457175616c73, 1, [0x53696e676c65]⟩, -- line 93: Equals(Single)
  ⟨0x497346696e697465, 1, [0x53696e676c65]⟩, -- line 99: IsFinite(Single)
  ⟨0x4973496e66696e697479, 1, [0x53696e676c65]⟩, -- line 105: IsInfinity(Single)
  ⟨0x49734e614e, 1, [0x53696e676c65]⟩, -- line 111: IsNaN(Single)
  ⟨0x49734e65676174697665, 1, [0x53696e676c65]⟩, -- line 117: IsNegative(Single)
  ⟨0x49734e65676174697665496e66696e697479, 1, [0x53696e676c65]⟩, -- line 123: IsNegativeInfinity(Single)
  ⟨0x49734e6f726d616c, 1, [0x53696e676c65]⟩, -- line 129: IsNormal(Single)
  ⟨0x4973506f736974697665496e66696e697479, 1, [0x53696e676c65]⟩, -- line 135: IsPositiveInfinity(Single)
  ⟨0x49735375626e6f726d616c, 1, [0x53696e676c65]⟩, -- line 141: IsSubnormal(Single)
  ⟨0x4765745261774461746154797065, 0, []⟩, -- line 146: GetRawDataType()
  ⟨0x466f726d6174537472696e67, 2, [0x436861722a, 0x496e743332]⟩, -- line 155: FormatString(Char*, Int32)
  ⟨0x4d6f64756c7573, 2, [0x53696e676c65, 0x53696e676c65]⟩, -- line 162: Modulus(Single, Single)
  ⟨0x5061727365, 1, [0x537472696e672a]⟩, -- line 168: Parse(String*)
  ⟨0x5472795061727365, 2, [0x537472696e672a, 0x53696e676c6526]⟩, -- line 175: TryParse(String*, Single&)
  ⟨0x5472795061727365496e7465726e616c, 2, [0x537472696e672a, 0x53696e676c6526]⟩, -- line 182: TryParseInternal(String*, Single&)
  ⟨0x5472795061727365496e7465726e616c, 3, [0x436861722a, 0x496e743332, 0x53696e676c6526]⟩, -- line 190: TryParseInternal(Char*, Int32, Single&)
  ⟨0x546f53696e676c65, 1, [0x55496e743332]⟩, -- line 196: ToSingle(UInt32)
  ⟨0x546f55496e743332, 1, [0x53696e676c65]⟩ -- line 202: ToUInt32(Single)
  ]⟩

/-- StringBuilder.h: public methods of `StringBuilder`. -/
def stringBuilderClass : Class := ⟨0x537472696e674275696c646572, 0x4f626a656374, [
  ⟨0x6765745f427566666572, 0, []⟩, -- line 50: get_Buffer()
  ⟨0x41646472657373, 1, [0x496e743332, 0x496e743332, 0x496e743332]⟩, -- line 61: Address(Int32, Int32, Int32)
  ⟨0x6765745f4361706163697479, 0, []⟩, -- line 66: get_Capacity()
  ⟨0x6765745f4368617273, 1, [0x496e743332]⟩, -- line 72: get_Chars(Int32)
  ⟨0x6765745f4c656e677468, 0, []⟩, -- line 77: get_Length()
  ⟨0x6765745f4d61784361706163697479, 0, []⟩, -- line 82: get_MaxCapacity()
  ⟨0x7365745f4368617273, 2, [0x496e743332, 0x43686172]⟩, -- line 88: set_Chars(Int32, Char)
  ⟨0x7365745f4361706163697479, 1, [0x496e743332]⟩, -- line 93: set_Capacity(Int32)
  ⟨0x7365745f4c656e677468, 1, [0x496e743332]⟩, -- line 98: set_Length(Int32)
  ⟨0x417070656e64, 2, [0x436861722a, 0x496e743332, 0x496e743332]⟩, -- line 106: Append(Char*, Int32, Int32)
  ⟨0x417070656e64, 1, [0x41727261792a, 0x496e743332, 0x496e743332]⟩, -- line 114: Append(Array*, Int32, Int32)
  ⟨0x417070656e64, 1, [0x56616c75655479706526, 0x496e743332]⟩, -- line 121: Append(ValueType&, Int32)
  ⟨0x417070656e64, 1, [0x426f6f6c65616e]⟩, -- line 127: Append(Boolean)
  ⟨0x417070656e64, 1, [0x42797465]⟩, -- line 133: Append(Byte)
  ⟨0x417070656e64, 1, [0x43686172]⟩, -- line 139: Append(Char)
  ⟨0x417070656e64, 2, [0x43686172, 0x496e743332]⟩, -- line 146: Append(Char, Int32)
  ⟨0x417070656e64, 1, [0x446f75626c65]⟩, -- line 152: Append(Double)
  ⟨0x417070656e64, 1, [0x496e743136]⟩, -- line 158: Append(Int16)
  ⟨0x417070656e64, 1, [0x496e743332]⟩, -- line 164: Append(Int32)
  ⟨0x417070656e64, 1, [0x496e743634]⟩, -- line 170: Append(Int64)
  ⟨0x417070656e64, 1, [0x4f626a6563742a]⟩, -- line 176: Append(Object*)
  ⟨0x417070656e64, 1, [0x5342797465]⟩, -- line 182: Append(SByte)
  ⟨0x417070656e64, 1, [0x53696e676c65]⟩, -- line 188: Append(Single)
  ⟨0x417070656e64, 1, [0x537472696e672a, 0x496e743332, 0x496e743332]⟩, -- line 196: Append(String*, Int32, Int32)
  ⟨0x417070656e64, 1, [0x55496e743136]⟩, -- line 202: Append(UInt16)
  ⟨0x417070656e64, 1, [0x55496e743332]⟩, -- line 208: Append(UInt32)
  ⟨0x417070656e64, 1, [0x55496e743634]⟩, -- line 214: Append(UInt64)
  ⟨0x417070656e644c696e65, 0, []⟩, -- line 219: AppendLine()
  ⟨0x417070656e644c696e65, 1, [0x537472696e672a]⟩, -- line 225: AppendLine(String*)
  ⟨0x436c656172, 0, []⟩, -- line 230: Clear()
  ⟨0x436f756e74537562537472696e6773, 3, [0x537472696e672a, 0x496e743332, 0x496e743332]⟩, -- line 238: CountSubStrings(String*, Int32, Int32)
  ⟨0x456e73757265526f6f6d466f72, 1, [0x496e743332]⟩, -- line 244: EnsureRoomFor(Int32)
  ⟨0x456e737572654361706163697479, 1, [0x496e743332]⟩, -- line 250: EnsureCapacity(Int32)
  ⟨0x457175616c73, 1, [0x537472696e674275696c6465722a]⟩, -- line 256: Equals(StringBuilder*)
  ⟨0x466f726d6174537472696e67, 2, [0x436861722a, 0x496e743332]⟩, -- line 263: FormatString(Char*, Int32)
  ⟨0x4765745261774461746154797065, 0, []⟩, -- line 268: GetRawDataType()
  ⟨0x496e697469616c697a65, 0, []⟩, -- line 274: Initialize()
  ⟨0x496e73657274, 2, [0x496e743332, 0x426f6f6c65616e]⟩, -- line 281: Insert(Int32, Boolean)
  ⟨0x496e73657274, 2, [0x496e743332, 0x42797465]⟩, -- line 288: Insert(Int32, Byte)
  ⟨0x496e73657274, 2, [0x496e743332, 0x43686172]⟩, -- line 295: Insert(Int32, Char)
  ⟨0x496e73657274, 2, [0x496e743332, 0x41727261792a, 0x496e743332, 0x496e743332]⟩, -- line 304: Insert(Int32, Array*, Int32, Int32)
  ⟨0x496e73657274, 2, [0x496e743332, 0x446f75626c65]⟩, -- line 311: Insert(Int32, Double)
  ⟨0x496e73657274, 2, [0x496e743332, 0x496e743136]⟩, -- line 318: Insert(Int32, Int16)
  ⟨0x496e73657274, 2, [0x496e743332, 0x496e743332]⟩, -- line 325: Insert(Int32, Int32)
  ⟨0x496e73657274, 2, [0x496e743332, 0x496e743634]⟩, -- line 332: Insert(Int32, Int64)
  ⟨0x496e73657274, 2, [0x496e743332, 0x4f626a6563742a]⟩, -- line 339: Insert(Int32, Object*)
  ⟨0x496e73657274, 2, [0x496e743332, 0x537472696e672a, 0x496e743332]⟩, -- line 347: Insert(Int32, String*, Int32)
  ⟨0x496e73657274, 2, [0x496e743332, 0x5342797465]⟩, -- line 354: Insert(Int32, SByte)
  ⟨0x496e73657274, 2, [0x496e743332, 0x53696e676c65]⟩, -- line 361: Insert(Int32, Single)
  ⟨0x496e73657274, 2, [0x496e743332, 0x55496e743136]⟩, -- line 368: Insert(Int32, UInt16)
  ⟨0x496e73657274, 2, [0x496e743332, 0x55496e743332]⟩, -- line 375: Insert(Int32, UInt32)
  ⟨0x496e73657274, 2, [0x496e743332, 0x55496e743634]⟩, -- line 382: Insert(Int32, UInt64)
  ⟨0x4973496e7465726e616c, 0, []⟩, -- line 387: IsInternal()
  ⟨0x52656d6f7665, 2, [0x496e743332, 0x496e743332]⟩, -- line 396: Remove(Int32, Int32)
  ⟨0x5265706c616365, 2, [0x43686172, 0x43686172]⟩, -- line 403: Replace(Char, Char)
  ⟨0x5265706c616365, 2, [0x537472696e672a, 0x537472696e672a]⟩, -- line 410: Replace(String*, String*)
  ⟨0x5265706c616365, 4, [0x43686172, 0x43686172, 0x496e743332, 0x496e743332]⟩, -- line 419: Replace(Char, Char, Int32, Int32)
  ⟨0x5265706c616365, 4, [0x537472696e672a, 0x537472696e672a, 0x496e743332, 0x496e743332]⟩, -- line 428: Replace(String*, String*, Int32, Int32)
  ⟨0x5265706c616365537562537472696e67, 4, [0x537472696e672a, 0x537472696e672a, 0x496e743332, 0x496e743332]⟩, -- line 437: ReplaceSubString(String*, String*, Int32, Int32)
  ⟨0x546f537472696e67, 0, []⟩, -- line 442: ToString()
  ⟨0x546f537472696e67, 2, [0x496e743332, 0x496e743332]⟩ -- line 449: ToString(Int32, Int32)
  ]⟩

/-- StringDotNet.h: public methods of `String`. -/
def stringClass : Class := ⟨0x537472696e67, 0x4f626a656374, [
  ⟨0x6765745f427566666572, 0, []⟩, -- line 46: get_Buffer()
  ⟨0x6765745f4368617273, 1, [0x496e743332]⟩, -- line 54: get_Chars(Int32)
  ⟨0x6765745f4c656e677468, 0, []⟩, -- line 59: get_Length()
  ⟨0x41646472657373, 1, [0x496e743332, 0x496e743332, 0x496e743332]⟩, -- line 69: Address(Int32, Int32, Int32)
  ⟨0x436f6d70617265, 7, [0x436861722a, 0x496e743332, 0x436861722a, 0x496e743332, 0x496e743332, 0x426f6f6c65616e, 0x426f6f6c65616e]⟩, -- line 81: Compare(Char*, Int32, Char*, Int32, Int32, Boolean, Boolean)
  ⟨0x436f6d70617265, 2, [0x537472696e672a, 0x537472696e672a, 0x426f6f6c65616e]⟩, -- line 90: Compare(String*, String*, Boolean)
  ⟨0x436f6d70617265, 5, [0x537472696e672a, 0x496e743332, 0x537472696e672a, 0x496e743332, 0x496e743332, 0x426f6f6c65616e]⟩, -- line 102: Compare(String*, Int32, String*, Int32, Int32, Boolean)
  ⟨0x436f6d706172654f7264696e616c, 2, [0x537472696e672a, 0x537472696e672a]⟩, -- line 110: CompareOrdinal(String*, String*)
  ⟨0x436f6d706172654f7264696e616c, 5, [0x537472696e672a, 0x496e743332, 0x537472696e672a, 0x496e743332, 0x496e743332]⟩, -- line 120: CompareOrdinal(String*, Int32, String*, Int32, Int32)
  ⟨0x436f6d70617265546f, 1, [0x4f626a6563742a]⟩, -- line 126: CompareTo(Object*)
  ⟨0x436f6d70617265546f, 1, [0x537472696e672a]⟩, -- line 132: CompareTo(String*)
  ⟨0x436f6e636174, 1, [0x41727261792a]⟩, -- line 138: Concat(Array*)
  ⟨0x436f6e636174, 1, [0x4f626a6563742a, 0x4f626a6563742a, 0x4f626a6563742a, 0x4f626a6563742a, 0x4f626a6563742a, 0x4f626a6563742a, 0x4f626a6563742a]⟩, -- line 150: Concat(Object*, Object*, Object*, Object*, Object*, Object*, Object*)
  ⟨0x436f6e7461696e73, 1, [0x537472696e672a]⟩, -- line 157: Contains(String*)
  ⟨0x436f7079, 1, [0x537472696e672a]⟩, -- line 163: Copy(String*)
  ⟨0x436f7079546f, 4, [0x496e743332, 0x41727261792a, 0x496e743332, 0x496e743332]⟩, -- line 171: CopyTo(Int32, Array*, Int32, Int32)
  ⟨0x456e647357697468, 1, [0x537472696e672a]⟩, -- line 177: EndsWith(String*)
  ⟨0x456e647357697468, 1, [0x43686172]⟩, -- line 183: EndsWith(Char)
  ⟨0x457175616c73, 1, [0x4f626a6563742a]⟩, -- line 189: Equals(Object*)
  ⟨0x457175616c73, 1, [0x537472696e672a]⟩, -- line 195: Equals(String*)
  ⟨0x457175616c73, 2, [0x537472696e672a, 0x4f626a6563742a]⟩, -- line 202: Equals(String*, Object*)
  ⟨0x457175616c73, 2, [0x4f626a6563742a, 0x537472696e672a]⟩, -- line 209: Equals(Object*, String*)
  ⟨0x457175616c73, 2, [0x537472696e672a, 0x537472696e672a]⟩, -- line 216: Equals(String*, String*)
  ⟨0x466f726d6174537472696e67, 2, [0x436861722a, 0x496e743332]⟩, -- line 223: FormatString(Char*, Int32)
  ⟨0x476574456e756d657261746f72, 0, []⟩, -- line 228: GetEnumerator()
  ⟨0x4765745261774461746154797065, 0, []⟩, -- line 233: GetRawDataType()
  ⟨0x496e6465784f66, 1, [0x43686172]⟩, -- line 241: IndexOf(Char)
  ⟨0x496e6465784f66, 1, [0x537472696e672a]⟩, -- line 247: IndexOf(String*)
  ⟨0x496e6465784f66, 2, [0x43686172, 0x496e743332]⟩, -- line 254: IndexOf(Char, Int32)
  ⟨0x496e6465784f66, 2, [0x537472696e672a, 0x496e743332]⟩, -- line 261: IndexOf(String*, Int32)
  ⟨0x496e6465784f66, 3, [0x43686172, 0x496e743332, 0x496e743332]⟩, -- line 269: IndexOf(Char, Int32, Int32)
  ⟨0x496e6465784f66, 3, [0x537472696e672a, 0x496e743332, 0x496e743332]⟩, -- line 277: IndexOf(String*, Int32, Int32)
  ⟨0x496e6465784f66416e79, 1, [0x41727261792a]⟩, -- line 283: IndexOfAny(Array*)
  ⟨0x496e6465784f66416e79, 2, [0x41727261792a, 0x496e743332]⟩, -- line 290: IndexOfAny(Array*, Int32)
  ⟨0x496e6465784f66416e79, 3, [0x41727261792a, 0x496e743332, 0x496e743332]⟩, -- line 298: IndexOfAny(Array*, Int32, Int32)
  ⟨0x496e73657274, 2, [0x496e743332, 0x537472696e672a]⟩, -- line 305: Insert(Int32, String*)
  ⟨0x4973416c6c6f6361746564, 0, []⟩, -- line 310: IsAllocated()
  ⟨0x49734e756c6c4f72456d707479, 1, [0x537472696e672a]⟩, -- line 318: IsNullOrEmpty(String*)
  ⟨0x49734e756c6c4f7257686974655370616365, 1, [0x537472696e672a]⟩, -- line 324: IsNullOrWhiteSpace(String*)
  ⟨0x497357686974655370616365, 3, [0x43686172, 0x436861722a, 0x496e743332]⟩, -- line 332: IsWhiteSpace(Char, Char*, Int32)
  ⟨0x4a6f696e, 2, [0x43686172, 0x41727261792a, 0x496e743332, 0x496e743332]⟩, -- line 341: Join(Char, Array*, Int32, Int32)
  ⟨0x4a6f696e, 2, [0x537472696e672a, 0x41727261792a, 0x496e743332, 0x496e743332]⟩, -- line 350: Join(String*, Array*, Int32, Int32)
  ⟨0x4c617374496e6465784f66, 1, [0x43686172, 0x496e743332, 0x496e743332]⟩, -- line 358: LastIndexOf(Char, Int32, Int32)
  ⟨0x4c617374496e6465784f66, 1, [0x537472696e672a, 0x496e743332, 0x496e743332]⟩, -- line 366: LastIndexOf(String*, Int32, Int32)
  ⟨0x4c617374496e6465784f66416e79, 1, [0x41727261792a, 0x496e743332, 0x496e743332]⟩, -- line 374: LastIndexOfAny(Array*, Int32, Int32)
  ⟨0x5061644c656674, 1, [0x496e743332, 0x43686172]⟩, -- line 381: PadLeft(Int32, Char)
  ⟨0x5061645269676874, 1, [0x496e743332, 0x43686172]⟩, -- line 388: PadRight(Int32, Char)
  ⟨0x52656d6f7665, 1, [0x496e743332, 0x496e743332]⟩, -- line 395: Remove(Int32, Int32)
  ⟨0x5265706c616365, 2, [0x43686172, 0x43686172]⟩, -- line 402: Replace(Char, Char)
  ⟨0x5265706c616365, 2, [0x537472696e672a, 0x537472696e672a]⟩, -- line 409: Replace(String*, String*)
  ⟨0x53746172747357697468, 1, [0x537472696e672a]⟩, -- line 415: StartsWith(String*)
  ⟨0x537562737472696e67, 1, [0x496e743332, 0x496e743332]⟩, -- line 422: Substring(Int32, Int32)
  ⟨0x546f436861724172726179, 0, [0x496e743332, 0x496e743332]⟩, -- line 429: ToCharArray(Int32, Int32)
  ⟨0x546f4c6f776572, 0, []⟩, -- line 434: ToLower()
  ⟨0x546f4c6f776572496e76617269616e74, 0, []⟩, -- line 439: ToLowerInvariant()
  ⟨0x546f537472696e67, 0, []⟩, -- line 444: ToString()
  ⟨0x546f5570706572, 0, []⟩, -- line 449: ToUpper()
  ⟨0x546f5570706572496e76617269616e74, 0, []⟩, -- line 454: ToUpperInvariant()
  ⟨0x5472696d, 0, []⟩, -- line 459: Trim()
  ⟨0x5472696d, 1, [0x41727261792a]⟩, -- line 465: Trim(Array*)
  ⟨0x5472696d48656c706572, 3, [0x41727261792a, 0x426f6f6c65616e, 0x426f6f6c65616e]⟩, -- line 473: TrimHelper(Array*, Boolean, Boolean)
  ⟨0x5472696d48656c706572, 4, [0x436861722a, 0x496e743332, 0x426f6f6c65616e, 0x426f6f6c65616e]⟩, -- line 482: TrimHelper(Char*, Int32, Boolean, Boolean)
  ⟨0x5472696d456e64, 1, [0x41727261792a]⟩, -- line 488: TrimEnd(Array*)
  ⟨0x5472696d5374617274, 1, [0x41727261792a]⟩, -- line 494: TrimStart(Array*)
  ⟨0x6f705f496e657175616c697479, 2, [0x537472696e672a, 0x537472696e672a]⟩ -- line 501: op_Inequality(String*, String*)
  ]⟩

/-- TimeSpanValue.h: public methods of `TimeSpanValue`. -/
def timeSpanValueClass : Class := ⟨0x54696d655370616e56616c7565, 0x56616c756554797065, [
  ⟨0x6765745f417354696d655370616e, 0, []⟩, -- line 47: get_AsTimeSpan()
  ⟨0x6765745f44617973, 0, []⟩, -- line 52: get_Days()
  ⟨0x6765745f486f757273, 0, []⟩, -- line 57: get_Hours()
  ⟨0x6765745f4d696c6c697365636f6e6473, 0, []⟩, -- line 62: get_Milliseconds()
  ⟨0x6765745f4d696e75746573, 0, []⟩, -- line 67: get_Minutes()
  ⟨0x6765745f5365636f6e6473, 0, []⟩, -- line 72: get_Seconds()
  ⟨0x6765745f5469636b73, 0, []⟩, -- line 77: get_Ticks()
  ⟨0x6765745f546f74616c44617973, 0, []⟩, -- line 82: get_TotalDays()
  ⟨0x6765745f546f74616c486f757273, 0, []⟩, -- line 87: get_TotalHours()
  ⟨0x6765745f546f74616c4d696c6c697365636f6e6473, 0, []⟩, -- line 92: get_TotalMilliseconds()
  ⟨0x6765745f546f74616c4d696e75746573, 0, []⟩, -- line 97: get_TotalMinutes()
  ⟨0x6765745f546f74616c5365636f6e6473, 0, []⟩, -- line 102: get_TotalSeconds()
  ⟨0x416464, 1, [0x54696d655370616e26]⟩, -- line 108: Add(TimeSpan&)
  ⟨0x436f6d70617265, 2, [0x54696d655370616e26, 0x54696d655370616e26]⟩, -- line 115: Compare(TimeSpan&, TimeSpan&)
  ⟨0x436f6d70617265546f, 1, [0x54696d655370616e]⟩, -- line 121: CompareTo(TimeSpan)
  ⟨0x436f6d70617265546f, 1, [0x4f626a6563742a]⟩, -- line 127: CompareTo(Object*)
  ⟨0x446976696465, 1, [0x54696d655370616e]⟩, -- line 133: Divide(TimeSpan)
  ⟨0x446976696465, 1, [0x446f75626c65]⟩, -- line 139: Divide(Double)
  ⟨0x4475726174696f6e, 0, []⟩, -- line 144: Duration()
  ⟨0x457175616c73, 1, [0x54696d655370616e26]⟩, -- line 150: Equals(TimeSpan&)
  ⟨0x457175616c73, 2, [0x54696d655370616e26, 0x54696d655370616e26]⟩, -- line 157: Equals(TimeSpan&, TimeSpan&)
  ⟨0x457175616c73, 1, [0x4f626a6563742a]⟩, -- line 163: Equals(Object*)
  ⟨0x46726f6d44617973, 1, [0x446f75626c65]⟩, -- line 169: FromDays(Double)
  ⟨0x46726f6d486f757273, 1, [0x446f75626c65]⟩, -- line 175: FromHours(Double)
  ⟨0x46726f6d4d696c6c697365636f6e6473, 1, [0x446f75626c65]⟩, -- line 181: FromMilliseconds(Double)
  ⟨0x46726f6d4d696e75746573, 1, [0x446f75626c65]⟩, -- line 187: FromMinutes(Double)
  ⟨0x46726f6d5365636f6e6473, 1, [0x446f75626c65]⟩, -- line 193: FromSeconds(Double)
  ⟨0x46726f6d5469636b73, 1, [0x496e743634]⟩, -- line 199: FromTicks(Int64)
  ⟨0x466f726d6174537472696e67, 2, [0x436861722a, 0x496e743332]⟩, -- line 206: FormatString(Char*, Int32)
  ⟨0x4765745261774461746154797065, 0, []⟩, -- line 211: GetRawDataType()
  ⟨0x496e74657276616c, 2, [0x446f75626c65, 0x446f75626c65]⟩, -- line 221: Interval(Double, Double)
  ⟨0x4d756c7469706c79, 1, [0x446f75626c65]⟩, -- line 227: Multiply(Double)
  ⟨0x4e6567617465, 0, []⟩, -- line 232: Negate()
  ⟨0x5061727365, 1, [0x537472696e672a]⟩, -- line 238: Parse(String*)
  ⟨0x5375627472616374, 1, [0x54696d655370616e26]⟩, -- line 244: Subtract(TimeSpan&)
  ⟨0x5472795061727365, 2, [0x537472696e672a, 0x54696d655370616e26]⟩, -- line 251: TryParse(String*, TimeSpan&)
  ⟨0x6f705f4164646974696f6e, 2, [0x54696d655370616e26, 0x54696d655370616e26]⟩, -- line 258: op_Addition(TimeSpan&, TimeSpan&)
  ⟨0x6f705f4469766973696f6e, 2, [0x54696d655370616e26, 0x54696d655370616e26]⟩, -- line 265: op_Division(TimeSpan&, TimeSpan&)
  ⟨0x6f705f4469766973696f6e, 2, [0x54696d655370616e26, 0x446f75626c6526]⟩, -- line 272: op_Division(TimeSpan&, Double&)
  ⟨0x6f705f457175616c697479, 2, [0x54696d655370616e26, 0x54696d655370616e26]⟩, -- line 279: op_Equality(TimeSpan&, TimeSpan&)
  ⟨0x6f705f477265617465725468616e, 2, [0x54696d655370616e26, 0x54696d655370616e26]⟩, -- line 286: op_GreaterThan(TimeSpan&, TimeSpan&)
  ⟨0x6f705f477265617465725468616e4f72457175616c, 2, [0x54696d655370616e26, 0x54696d655370616e26]⟩, -- line 293: op_GreaterThanOrEqual(TimeSpan&, TimeSpan&)
  ⟨0x6f705f496e657175616c697479, 2, [0x54696d655370616e26, 0x54696d655370616e26]⟩, -- line 300: op_Inequality(TimeSpan&, TimeSpan&)
  ⟨0x6f705f4c6573735468616e, 2, [0x54696d655370616e26, 0x54696d655370616e26]⟩, -- line 307: op_LessThan(TimeSpan&, TimeSpan&)
  ⟨0x6f705f4c6573735468616e4f72457175616c, 2, [0x54696d655370616e26, 0x54696d655370616e26]⟩, -- line 314: op_LessThanOrEqual(TimeSpan&, TimeSpan&)
  ⟨0x6f705f4d756c7469706c79, 2, [0x54696d655370616e26, 0x446f75626c6526]⟩, -- line 321: op_Multiply(TimeSpan&, Double&)
  ⟨0x6f705f4d756c7469706c79, 2, [0x446f75626c6526, 0x54696d655370616e26]⟩, -- line 328: op_Multiply(Double&, TimeSpan&)
  ⟨0x6f705f5375627472616374696f6e, 2, [0x54696d655370616e26, 0x54696d655370616e26]⟩, -- line 335: op_Subtraction(TimeSpan&, TimeSpan&)
  ⟨0x6f705f556e6172794e65676174696f6e, 1, [0x54696d655370616e26]⟩, -- line 341: op_UnaryNegation(TimeSpan&)
  ⟨0x6f705f556e617279506c7573, 1, [0x54696d655370616e26]⟩ -- line 347: op_UnaryPlus(TimeSpan&)
  ]⟩

/-- UInt16Value.h: public methods of `UInt16Value`. -/
def uInt16ValueClass : Class := ⟨0x55496e74313656616c7565, 0x56616c756554797065, [
  ⟨0x6765745f4173426f6f6c65616e, 0, []⟩, -- line 39: get_AsBoolean()
  ⟨0x6765745f417343686172, 0, []⟩, -- line 44: get_AsChar()
  ⟨0x6765745f417342797465, 0, []⟩, -- line 49: get_AsByte()
  ⟨0x6765745f41735342797465, 0, []⟩, -- line 54: get_AsSByte()
  ⟨0x6765745f4173496e743136, 0, []⟩, -- line 59: get_AsInt16()
  ⟨0x6765745f417355496e743136, 0, []⟩, -- line 64: get_AsUInt16()
  ⟨0x6765745f4173496e743332, 0, []⟩, -- line 69: get_AsInt32()
  ⟨0x6765745f417355496e743332, 0, []⟩, -- line 74: get_AsUInt32()
  ⟨0x6765745f4173496e743634, 0, []⟩, -- line 79: get_AsInt64()
  ⟨0x6765745f417355496e743634, 0, []⟩, -- line 84: get_AsUInt64()
  ⟨0x6765745f417353696e676c65, 0, []⟩, -- line 89: get_AsSingle()
  ⟨0x6765745f4173446f75626c65, 0, []⟩, -- line 94: get_AsDouble()
  ⟨0x436f6d70617265546f, 1, [0x55496e743136]⟩, -- line 100: CompareTo(UInt16)
  ⟨0x436f6d70617265546f, 1, [0x4f626a6563742a]⟩, -- line 106: CompareTo(Object*)
  ⟨0x457175616c73, 1, [0x4f626a6563742a]⟩, -- line 112: Equals(Object*)
  ⟨0x457175616c73, 1, [0x55496e743136]⟩, -- line 118: Equals(UInt16)
  ⟨0x466f726d6174537472696e67, 2, [0x436861722a, 0x496e743332]⟩, -- line 125: FormatString(Char*, Int32)
  ⟨0x4765745261774461746154797065, 0, []⟩, -- line 130: GetRawDataType()
  ⟨0x5061727365, 1, [0x537472696e672a]⟩, -- line 138: Parse(String*)
  ⟨0x5472795061727365, 2, [0x537472696e672a, 0x55496e74313626]⟩ -- line 145: TryParse(String*, UInt16&)
  ]⟩

/-- UInt32Value.h: public methods of `UInt32Value`. -/
def uInt32ValueClass : Class := ⟨0x55496e74333256616c7565, 0x56616c756554797065, [
  ⟨0x6765745f4173426f6f6c65616e, 0, []⟩, -- line 39: get_AsBoolean()
  ⟨0x6765745f417343686172, 0, []⟩, -- line 44: get_AsChar()
  ⟨0x6765745f417342797465, 0, []⟩, -- line 49: get_AsByte()
  ⟨0x6765745f41735342797465, 0, []⟩, -- line 54: get_AsSByte()
  ⟨0x6765745f4173496e743136, 0, []⟩, -- line 59: get_AsInt16()
  ⟨0x6765745f417355496e743136, 0, []⟩, -- line 64: get_AsUInt16()
  ⟨0x6765745f4173496e743332, 0, []⟩, -- line 69: get_AsInt32()
  ⟨0x6765745f417355496e743332, 0, []⟩, -- line 74: get_AsUInt32()
  ⟨0x6765745f4173496e743634, 0, []⟩, -- line 79: get_AsInt64()
  ⟨0x6765745f417355496e743634, 0, []⟩, -- line 84: get_AsUInt64()
  ⟨0x6765745f417353696e676c65, 0, []⟩, -- line 89: get_AsSingle()
  ⟨0x6765745f4173446f75626c65, 0, []⟩, -- line 94: get_AsDouble()
  ⟨0x436f6d70617265546f, 1, [0x55496e743332]⟩, -- line 100: CompareTo(UInt32)
  ⟨0x436f6d70617265546f, 1, [0x4f626a6563742a]⟩, -- line 106: CompareTo(Object*)
  ⟨0x457175616c73, 1, [0x4f626a6563742a]⟩, -- line 112: Equals(Object*)
  ⟨0x457175616c73, 1, [0x55496e743332]⟩, -- line 118: Equals(UInt32)
  ⟨0x466f726d6174537472696e67, 2, [0x436861722a, 0x496e743332]⟩, -- line 125: FormatString(Char*, Int32)
  ⟨0x4765745261774461746154797065, 0, []⟩, -- line 130: GetRawDataType()
  ⟨0x5061727365, 1, [0x537472696e672a]⟩, -- line 138: Parse(String*)
  ⟨0x5472795061727365, 2, [0x537472696e672a, 0x55496e74333226]⟩ -- line 145: TryParse(String*, UInt32&)
  ]⟩

/-- UInt64Value.h: public methods of `UInt64Value`. -/
def uInt64ValueClass : Class := ⟨0x55496e74363456616c7565, 0x56616c756554797065, [
  ⟨0x6765745f4173426f6f6c65616e, 0, []⟩, -- line 47: get_AsBoolean()
  ⟨0x6765745f417343686172, 0, []⟩, -- line 52: get_AsChar()
  ⟨0x6765745f417342797465, 0, []⟩, -- line 57: get_AsByte()
  ⟨0x6765745f41735342797465, 0, []⟩, -- line 62: get_AsSByte()
  ⟨0x6765745f4173496e743136, 0, []⟩, -- line 67: get_AsInt16()
  ⟨0x6765745f417355496e743136, 0, []⟩, -- line 72: get_AsUInt16()
  ⟨0x6765745f4173496e743332, 0, []⟩, -- line 77: get_AsInt32()
  ⟨0x6765745f417355496e743332, 0, []⟩, -- line 82: get_AsUInt32()
  ⟨0x6765745f4173496e743634, 0, []⟩, -- line 87: get_AsInt64()
  ⟨0x6765745f417355496e743634, 0, []⟩, -- line 92: get_AsUInt64()
  ⟨0x6765745f417353696e676c65, 0, []⟩, -- line 97: get_AsSingle()
  ⟨0x6765745f4173446f75626c65, 0, []⟩, -- line 102: get_AsDouble()
  ⟨0x436f6d70617265546f, 1, [0x55496e743634]⟩, -- line 108: CompareTo(UInt64)
  ⟨0x436f6d70617265546f, 1, [0x4f626a6563742a]⟩, -- line 114: CompareTo(Object*)
  ⟨0x457175616c73, 1, [0x4f626a6563742a]⟩, -- line 120: Equals(Object*)
  ⟨0x457175616c73, 1, [0x55496e743634]⟩, -- line 126: Equals(UInt64)
  ⟨0x466f726d6174537472696e67, 2, [0x436861722a, 0x496e743332]⟩, -- line 133: FormatString(Char*, Int32)
  ⟨0x4765745261774461746154797065, 0, []⟩, -- line 138: GetRawDataType()
  ⟨0x5061727365, 1, [0x537472696e672a]⟩, -- line 146: Parse(String*)
  ⟨0x5472795061727365, 2, [0x537472696e672a, 0x55496e74363426]⟩, -- line 153: TryParse(String*, UInt64&)
  ⟨0x5472795061727365496e7465726e616c, 3, [0x537472696e672a, 0x55496e74363426, 0x496e74333226]⟩, -- line 161: TryParseInternal(String*, UInt64&, Int32&)
  ⟨0x5472795061727365496e7465726e616c, 4, [0x436861722a, 0x496e743332, 0x55496e74363426, 0x496e74333226]⟩ -- line 170: TryParseInternal(Char*, Int32, UInt64&, Int32&)
  ]⟩

/-- ValueType.h: public methods of `ValueType`. -/
def valueTypeClass : Class := ⟨0x56616c756554797065, 0x4f626a656374, [
  ⟨0x457175616c73, 1, [0x4f626a6563742a]⟩ -- line 34: Equals(Object*)
  ]⟩

/-- The classes whose methods the translator accepts. -/
def library : List Class := [arrayClass, bitConverterClass, booleanValueClass, bufferClass, byteValueClass, charEnumeratorClass, charValueClass, dateTimeValueClass, mathClass, doubleValueClass, int16ValueClass, int32ValueClass, int64ValueClass, objectClass, sByteValueClass, singleValueClass, stringBuilderClass, stringClass, timeSpanValueClass, uInt16ValueClass, uInt32ValueClass, uInt64ValueClass, valueTypeClass]

/-- The method rows of ValidTypes.xml, in file order. -/
def calls : List Call := [
  ⟨0x53797374656d2e4172726179, 0x436c656172, [0x53797374656d2e4172726179, 0x53797374656d2e496e743332, 0x53797374656d2e496e743332]⟩, -- System.Array.Clear(System.Array,System.Int32,System.Int32)
  ⟨0x53797374656d2e4172726179, 0x436f6e73747261696e6564436f7079, [0x53797374656d2e4172726179, 0x53797374656d2e496e743332, 0x53797374656d2e4172726179, 0x53797374656d2e496e743332, 0x53797374656d2e496e743332]⟩, -- System.Array.ConstrainedCopy(System.Array,System.Int32,System.Array,System.Int32,System.Int32)
  ⟨0x53797374656d2e4172726179, 0x436f7079, [0x53797374656d2e4172726179, 0x53797374656d2e4172726179, 0x53797374656d2e496e743332]⟩, -- System.Array.Copy(System.Array,System.Array,System.Int32)
  ⟨0x53797374656d2e4172726179, 0x436f7079, [0x53797374656d2e4172726179, 0x53797374656d2e496e743332, 0x53797374656d2e4172726179, 0x53797374656d2e496e743332, 0x53797374656d2e496e743332]⟩, -- System.Array.Copy(System.Array,System.Int32,System.Array,System.Int32,System.Int32)
  ⟨0x53797374656d2e4172726179, 0x436f7079546f, [0x53797374656d2e4172726179, 0x53797374656d2e496e743332]⟩, -- System.Array.CopyTo(System.Array,System.Int32)
  ⟨0x53797374656d2e4172726179, 0x4765744c656e677468, [0x53797374656d2e496e743332]⟩, -- System.Array.GetLength(System.Int32)
  ⟨0x53797374656d2e4172726179, 0x4765744c6f776572426f756e64, [0x53797374656d2e496e743332]⟩, -- System.Array.GetLowerBound(System.Int32)
  ⟨0x53797374656d2e4172726179, 0x4765745570706572426f756e64, [0x53797374656d2e496e743332]⟩, -- System.Array.GetUpperBound(System.Int32)
  ⟨0x53797374656d2e4172726179, 0x47657456616c7565, [0x53797374656d2e496e743332]⟩, -- System.Array.GetValue(System.Int32)
  ⟨0x53797374656d2e4172726179, 0x47657456616c7565, [0x53797374656d2e496e743332, 0x53797374656d2e496e743332]⟩, -- System.Array.GetValue(System.Int32,System.Int32)
  ⟨0x53797374656d2e4172726179, 0x47657456616c7565, [0x53797374656d2e496e743332, 0x53797374656d2e496e743332, 0x53797374656d2e496e743332]⟩, -- System.Array.GetValue(System.Int32,System.Int32,System.Int32)
  ⟨0x53797374656d2e4172726179, 0x47657456616c7565, [0x53797374656d2e496e7433325b5d]⟩, -- System.Array.GetValue(System.Int32[])
  ⟨0x53797374656d2e4172726179, 0x496e6465784f66, [0x53797374656d2e537472696e675b5d, 0x53797374656d2e537472696e67]⟩, -- System.Array.IndexOf(System.String[],System.String)
  ⟨0x53797374656d2e4172726179, 0x496e6465784f66, [0x53797374656d2e537472696e675b5d, 0x53797374656d2e537472696e67, 0x53797374656d2e496e743332]⟩, -- System.Array.IndexOf(System.String[],System.String,System.Int32)
  ⟨0x53797374656d2e4172726179, 0x496e6465784f66, [0x53797374656d2e537472696e675b5d, 0x53797374656d2e537472696e67, 0x53797374656d2e496e743332, 0x53797374656d2e496e743332]⟩, -- System.Array.IndexOf(System.String[],System.String,System.Int32,System.Int32)
  ⟨0x53797374656d2e4172726179, 0x53657456616c7565, [0x53797374656d2e4f626a656374, 0x53797374656d2e496e743332]⟩, -- System.Array.SetValue(System.Object,System.Int32)
  ⟨0x53797374656d2e4172726179, 0x53657456616c7565, [0x53797374656d2e4f626a656374, 0x53797374656d2e496e743332, 0x53797374656d2e496e743332]⟩, -- System.Array.SetValue(System.Object,System.Int32,System.Int32)
  ⟨0x53797374656d2e4172726179, 0x53657456616c7565, [0x53797374656d2e4f626a656374, 0x53797374656d2e496e743332, 0x53797374656d2e496e743332, 0x53797374656d2e496e743332]⟩, -- System.Array.SetValue(System.Object,System.Int32,System.Int32,System.Int32)
  ⟨0x53797374656d2e4172726179, 0x53657456616c7565, [0x53797374656d2e4f626a656374, 0x53797374656d2e496e7433325b5d]⟩, -- System.Array.SetValue(System.Object,System.Int32[])
  ⟨0x53797374656d2e4172726179, 0x6765745f4c656e677468, []⟩, -- System.Array.get_Length()
  ⟨0x53797374656d2e4172726179, 0x6765745f52616e6b, []⟩, -- System.Array.get_Rank()
  ⟨0x53797374656d2e426974436f6e766572746572, 0x4765744279746573, [0x53797374656d2e426f6f6c65616e]⟩, -- System.BitConverter.GetBytes(System.Boolean)
  ⟨0x53797374656d2e426974436f6e766572746572, 0x4765744279746573, [0x53797374656d2e43686172]⟩, -- System.BitConverter.GetBytes(System.Char)
  ⟨0x53797374656d2e426974436f6e766572746572, 0x4765744279746573, [0x53797374656d2e446f75626c65]⟩, -- System.BitConverter.GetBytes(System.Double)
  ⟨0x53797374656d2e426974436f6e766572746572, 0x4765744279746573, [0x53797374656d2e496e743136]⟩, -- System.BitConverter.GetBytes(System.Int16)
  ⟨0x53797374656d2e426974436f6e766572746572, 0x4765744279746573, [0x53797374656d2e496e743332]⟩, -- System.BitConverter.GetBytes(System.Int32)
  ⟨0x53797374656d2e426974436f6e766572746572, 0x4765744279746573, [0x53797374656d2e496e743634]⟩, -- System.BitConverter.GetBytes(System.Int64)
  ⟨0x53797374656d2e426974436f6e766572746572, 0x4765744279746573, [0x53797374656d2e53696e676c65]⟩, -- System.BitConverter.GetBytes(System.Single)
  ⟨0x53797374656d2e426974436f6e766572746572, 0x4765744279746573, [0x53797374656d2e55496e743136]⟩, -- System.BitConverter.GetBytes(System.UInt16)
  ⟨0x53797374656d2e426974436f6e766572746572, 0x4765744279746573, [0x53797374656d2e55496e743332]⟩, -- System.BitConverter.GetBytes(System.UInt32)
  ⟨0x53797374656d2e426974436f6e766572746572, 0x4765744279746573, [0x53797374656d2e55496e743634]⟩, -- System.BitConverter.GetBytes(System.UInt64)
  ⟨0x53797374656d2e426974436f6e766572746572, 0x546f426f6f6c65616e, [0x53797374656d2e427974655b5d, 0x53797374656d2e496e743332]⟩, -- System.BitConverter.ToBoolean(System.Byte[],System.Int32)
  ⟨0x53797374656d2e426974436f6e766572746572, 0x546f43686172, [0x53797374656d2e427974655b5d, 0x53797374656d2e496e743332]⟩, -- System.BitConverter.ToChar(System.Byte[],System.Int32)
  ⟨0x53797374656d2e426974436f6e766572746572, 0x546f446f75626c65, [0x53797374656d2e427974655b5d, 0x53797374656d2e496e743332]⟩, -- System.BitConverter.ToDouble(System.Byte[],System.Int32)
  ⟨0x53797374656d2e426974436f6e766572746572, 0x546f496e743136, [0x53797374656d2e427974655b5d, 0x53797374656d2e496e743332]⟩, -- System.BitConverter.ToInt16(System.Byte[],System.Int32)
  ⟨0x53797374656d2e426974436f6e766572746572, 0x546f496e743332, [0x53797374656d2e427974655b5d, 0x53797374656d2e496e743332]⟩, -- System.BitConverter.ToInt32(System.Byte[],System.Int32)
  ⟨0x53797374656d2e426974436f6e766572746572, 0x546f496e743634, [0x53797374656d2e427974655b5d, 0x53797374656d2e496e743332]⟩, -- System.BitConverter.ToInt64(System.Byte[],System.Int32)
  ⟨0x53797374656d2e426974436f6e766572746572, 0x546f53696e676c65, [0x53797374656d2e427974655b5d, 0x53797374656d2e496e743332]⟩, -- System.BitConverter.ToSingle(System.Byte[],System.Int32)
  ⟨0x53797374656d2e426974436f6e766572746572, 0x546f537472696e67, [0x53797374656d2e427974655b5d]⟩, -- System.BitConverter.ToString(System.Byte[])
  ⟨0x53797374656d2e426974436f6e766572746572, 0x546f537472696e67, [0x53797374656d2e427974655b5d, 0x53797374656d2e496e743332]⟩, -- System.BitConverter.ToString(System.Byte[],System.Int32)
  ⟨0x53797374656d2e426974436f6e766572746572, 0x546f537472696e67, [0x53797374656d2e427974655b5d, 0x53797374656d2e496e743332, 0x53797374656d2e496e743332]⟩, -- System.BitConverter.ToString(System.Byte[],System.Int32,System.Int32)
  ⟨0x53797374656d2e426974436f6e766572746572, 0x546f55496e743136, [0x53797374656d2e427974655b5d, 0x53797374656d2e496e743332]⟩, -- System.BitConverter.ToUInt16(System.Byte[],System.Int32)
  ⟨0x53797374656d2e426974436f6e766572746572, 0x546f55496e743332, [0x53797374656d2e427974655b5d, 0x53797374656d2e496e743332]⟩, -- System.BitConverter.ToUInt32(System.Byte[],System.Int32)
  ⟨0x53797374656d2e426974436f6e766572746572, 0x546f55496e743634, [0x53797374656d2e427974655b5d, 0x53797374656d2e496e743332]⟩, -- System.BitConverter.ToUInt64(System.Byte[],System.Int32)
  ⟨0x53797374656d2e426f6f6c65616e, 0x436f6d70617265546f, [0x53797374656d2e426f6f6c65616e]⟩, -- System.Boolean.CompareTo(System.Boolean)
  ⟨0x53797374656d2e426f6f6c65616e, 0x436f6d70617265546f, [0x53797374656d2e4f626a656374]⟩, -- System.Boolean.CompareTo(System.Object)
  ⟨0x53797374656d2e426f6f6c65616e, 0x457175616c73, [0x53797374656d2e426f6f6c65616e]⟩, -- System.Boolean.Equals(System.Boolean)
  ⟨0x53797374656d2e426f6f6c65616e, 0x457175616c73, [0x53797374656d2e4f626a656374]⟩, -- System.Boolean.Equals(System.Object)
  ⟨0x53797374656d2e426f6f6c65616e, 0x5061727365, [0x53797374656d2e537472696e67]⟩, -- System.Boolean.Parse(System.String)
  ⟨0x53797374656d2e426f6f6c65616e, 0x546f537472696e67, []⟩, -- System.Boolean.ToString()
  ⟨0x53797374656d2e427566666572, 0x426c6f636b436f7079, [0x53797374656d2e4172726179, 0x53797374656d2e496e743332, 0x53797374656d2e4172726179, 0x53797374656d2e496e743332, 0x53797374656d2e496e743332]⟩, -- System.Buffer.BlockCopy(System.Array,System.Int32,System.Array,System.Int32,System.Int32)
  ⟨0x53797374656d2e427566666572, 0x427974654c656e677468, [0x53797374656d2e4172726179]⟩, -- System.Buffer.ByteLength(System.Array)
  ⟨0x53797374656d2e427566666572, 0x47657442797465, [0x53797374656d2e4172726179, 0x53797374656d2e496e743332]⟩, -- System.Buffer.GetByte(System.Array,System.Int32)
  ⟨0x53797374656d2e427566666572, 0x53657442797465, [0x53797374656d2e4172726179, 0x53797374656d2e496e743332, 0x53797374656d2e42797465]⟩, -- System.Buffer.SetByte(System.Array,System.Int32,System.Byte)
  ⟨0x53797374656d2e42797465, 0x436f6d70617265546f, [0x53797374656d2e42797465]⟩, -- System.Byte.CompareTo(System.Byte)
  ⟨0x53797374656d2e42797465, 0x436f6d70617265546f, [0x53797374656d2e4f626a656374]⟩, -- System.Byte.CompareTo(System.Object)
  ⟨0x53797374656d2e42797465, 0x457175616c73, [0x53797374656d2e42797465]⟩, -- System.Byte.Equals(System.Byte)
  ⟨0x53797374656d2e42797465, 0x457175616c73, [0x53797374656d2e4f626a656374]⟩, -- System.Byte.Equals(System.Object)
  ⟨0x53797374656d2e42797465, 0x5061727365, [0x53797374656d2e537472696e67]⟩, -- System.Byte.Parse(System.String)
  ⟨0x53797374656d2e42797465, 0x546f537472696e67, []⟩, -- System.Byte.ToString()
  ⟨0x53797374656d2e42797465, 0x5472795061727365, [0x53797374656d2e537472696e67, 0x53797374656d2e42797465]⟩, -- System.Byte.TryParse(System.String,System.Byte)
  ⟨0x53797374656d2e43686172, 0x436f6d70617265546f, [0x53797374656d2e43686172]⟩, -- System.Char.CompareTo(System.Char)
  ⟨0x53797374656d2e43686172, 0x436f6d70617265546f, [0x53797374656d2e4f626a656374]⟩, -- System.Char.CompareTo(System.Object)
  ⟨0x53797374656d2e43686172, 0x457175616c73, [0x53797374656d2e43686172]⟩, -- System.Char.Equals(System.Char)
  ⟨0x53797374656d2e43686172, 0x457175616c73, [0x53797374656d2e4f626a656374]⟩, -- System.Char.Equals(System.Object)
  ⟨0x53797374656d2e43686172, 0x4765744e756d6572696356616c7565, [0x53797374656d2e43686172]⟩, -- System.Char.GetNumericValue(System.Char)
  ⟨0x53797374656d2e43686172, 0x4765744e756d6572696356616c7565, [0x53797374656d2e537472696e67, 0x53797374656d2e496e743332]⟩, -- System.Char.GetNumericValue(System.String,System.Int32)
  ⟨0x53797374656d2e43686172, 0x4973436f6e74726f6c, [0x53797374656d2e43686172]⟩, -- System.Char.IsControl(System.Char)
  ⟨0x53797374656d2e43686172, 0x4973436f6e74726f6c, [0x53797374656d2e537472696e67, 0x53797374656d2e496e743332]⟩, -- System.Char.IsControl(System.String,System.Int32)
  ⟨0x53797374656d2e43686172, 0x49734469676974, [0x53797374656d2e43686172]⟩, -- System.Char.IsDigit(System.Char)
  ⟨0x53797374656d2e43686172, 0x49734469676974, [0x53797374656d2e537472696e67, 0x53797374656d2e496e743332]⟩, -- System.Char.IsDigit(System.String,System.Int32)
  ⟨0x53797374656d2e43686172, 0x49734c6574746572, [0x53797374656d2e43686172]⟩, -- System.Char.IsLetter(System.Char)
  ⟨0x53797374656d2e43686172, 0x49734c6574746572, [0x53797374656d2e537472696e67, 0x53797374656d2e496e743332]⟩, -- System.Char.IsLetter(System.String,System.Int32)
  ⟨0x53797374656d2e43686172, 0x49734c65747465724f724469676974, [0x53797374656d2e43686172]⟩, -- System.Char.IsLetterOrDigit(System.Char)
  ⟨0x53797374656d2e43686172, 0x49734c65747465724f724469676974, [0x53797374656d2e537472696e67, 0x53797374656d2e496e743332]⟩, -- System.Char.IsLetterOrDigit(System.String,System.Int32)
  ⟨0x53797374656d2e43686172, 0x49734c6f776572, [0x53797374656d2e43686172]⟩, -- System.Char.IsLower(System.Char)
  ⟨0x53797374656d2e43686172, 0x49734c6f776572, [0x53797374656d2e537472696e67, 0x53797374656d2e496e743332]⟩, -- System.Char.IsLower(System.String,System.Int32)
  ⟨0x53797374656d2e43686172, 0x49734e756d626572, [0x53797374656d2e43686172]⟩, -- System.Char.IsNumber(System.Char)
  ⟨0x53797374656d2e43686172, 0x49734e756d626572, [0x53797374656d2e537472696e67, 0x53797374656d2e496e743332]⟩, -- System.Char.IsNumber(System.String,System.Int32)
  ⟨0x53797374656d2e43686172, 0x497350756e6374756174696f6e, [0x53797374656d2e43686172]⟩, -- System.Char.IsPunctuation(System.Char)
  ⟨0x53797374656d2e43686172, 0x497350756e6374756174696f6e, [0x53797374656d2e537472696e67, 0x53797374656d2e496e743332]⟩, -- System.Char.IsPunctuation(System.String,System.Int32)
  ⟨0x53797374656d2e43686172, 0x4973536570617261746f72, [0x53797374656d2e43686172]⟩, -- System.Char.IsSeparator(System.Char)
  ⟨0x53797374656d2e43686172, 0x4973536570617261746f72, [0x53797374656d2e537472696e67, 0x53797374656d2e496e743332]⟩, -- System.Char.IsSeparator(System.String,System.Int32)
  ⟨0x53797374656d2e43686172, 0x49735570706572, [0x53797374656d2e43686172]⟩, -- System.Char.IsUpper(System.Char)
  ⟨0x53797374656d2e43686172, 0x49735570706572, [0x53797374656d2e537472696e67, 0x53797374656d2e496e743332]⟩, -- System.Char.IsUpper(System.String,System.Int32)
  ⟨0x53797374656d2e43686172, 0x497357686974655370616365, [0x53797374656d2e43686172]⟩, -- System.Char.IsWhiteSpace(System.Char)
  ⟨0x53797374656d2e43686172, 0x497357686974655370616365, [0x53797374656d2e537472696e67, 0x53797374656d2e496e743332]⟩, -- System.Char.IsWhiteSpace(System.String,System.Int32)
  ⟨0x53797374656d2e43686172, 0x5061727365, [0x53797374656d2e537472696e67]⟩, -- System.Char.Parse(System.String)
  ⟨0x53797374656d2e43686172, 0x546f4c6f776572, [0x53797374656d2e43686172]⟩, -- System.Char.ToLower(System.Char)
  ⟨0x53797374656d2e43686172, 0x546f537472696e67, []⟩, -- System.Char.ToString()
  ⟨0x53797374656d2e43686172, 0x546f537472696e67, [0x53797374656d2e43686172]⟩, -- System.Char.ToString(System.Char)
  ⟨0x53797374656d2e43686172, 0x546f5570706572, [0x53797374656d2e43686172]⟩, -- System.Char.ToUpper(System.Char)
  ⟨0x53797374656d2e43686172, 0x5472795061727365, [0x53797374656d2e537472696e67, 0x53797374656d2e43686172]⟩, -- System.Char.TryParse(System.String,System.Char)
  ⟨0x53797374656d2e43686172456e756d657261746f72, 0x2e63746f72, [0x53797374656d2e537472696e67]⟩, -- System.CharEnumerator..ctor(System.String)
  ⟨0x53797374656d2e43686172456e756d657261746f72, 0x4d6f76654e657874, []⟩, -- System.CharEnumerator.MoveNext()
  ⟨0x53797374656d2e43686172456e756d657261746f72, 0x5265736574, []⟩, -- System.CharEnumerator.Reset()
  ⟨0x53797374656d2e43686172456e756d657261746f72, 0x6765745f43757272656e74, []⟩, -- System.CharEnumerator.get_Current()
  ⟨0x53797374656d2e4461746554696d65, 0x416464, [0x53797374656d2e54696d655370616e]⟩, -- System.DateTime.Add(System.TimeSpan)
  ⟨0x53797374656d2e4461746554696d65, 0x41646444617973, [0x53797374656d2e446f75626c65]⟩, -- System.DateTime.AddDays(System.Double)
  ⟨0x53797374656d2e4461746554696d65, 0x416464486f757273, [0x53797374656d2e446f75626c65]⟩, -- System.DateTime.AddHours(System.Double)
  ⟨0x53797374656d2e4461746554696d65, 0x4164644d696c6c697365636f6e6473, [0x53797374656d2e446f75626c65]⟩, -- System.DateTime.AddMilliseconds(System.Double)
  ⟨0x53797374656d2e4461746554696d65, 0x4164644d696e75746573, [0x53797374656d2e446f75626c65]⟩, -- System.DateTime.AddMinutes(System.Double)
  ⟨0x53797374656d2e4461746554696d65, 0x4164644d6f6e746873, [0x53797374656d2e496e743332]⟩, -- System.DateTime.AddMonths(System.Int32)
  ⟨0x53797374656d2e4461746554696d65, 0x4164645365636f6e6473, [0x53797374656d2e446f75626c65]⟩, -- System.DateTime.AddSeconds(System.Double)
  ⟨0x53797374656d2e4461746554696d65, 0x4164645469636b73, [0x53797374656d2e496e743634]⟩, -- System.DateTime.AddTicks(System.Int64)
  ⟨0x53797374656d2e4461746554696d65, 0x4164645965617273, [0x53797374656d2e496e743332]⟩, -- System.DateTime.AddYears(System.Int32)
  ⟨0x53797374656d2e4461746554696d65, 0x436f6d70617265, [0x53797374656d2e4461746554696d65, 0x53797374656d2e4461746554696d65]⟩, -- System.DateTime.Compare(System.DateTime,System.DateTime)
  ⟨0x53797374656d2e4461746554696d65, 0x436f6d70617265546f, [0x53797374656d2e4461746554696d65]⟩, -- System.DateTime.CompareTo(System.DateTime)
  ⟨0x53797374656d2e4461746554696d65, 0x436f6d70617265546f, [0x53797374656d2e4f626a656374]⟩, -- System.DateTime.CompareTo(System.Object)
  ⟨0x53797374656d2e4461746554696d65, 0x44617973496e4d6f6e7468, [0x53797374656d2e496e743332, 0x53797374656d2e496e743332]⟩, -- System.DateTime.DaysInMonth(System.Int32,System.Int32)
  ⟨0x53797374656d2e4461746554696d65, 0x457175616c73, [0x53797374656d2e4461746554696d65]⟩, -- System.DateTime.Equals(System.DateTime)
  ⟨0x53797374656d2e4461746554696d65, 0x457175616c73, [0x53797374656d2e4461746554696d65, 0x53797374656d2e4461746554696d65]⟩, -- System.DateTime.Equals(System.DateTime,System.DateTime)
  ⟨0x53797374656d2e4461746554696d65, 0x457175616c73, [0x53797374656d2e4f626a656374]⟩, -- System.DateTime.Equals(System.Object)
  ⟨0x53797374656d2e4461746554696d65, 0x49734461796c69676874536176696e6754696d65, []⟩, -- System.DateTime.IsDaylightSavingTime()
  ⟨0x53797374656d2e4461746554696d65, 0x49734c65617059656172, [0x53797374656d2e496e743332]⟩, -- System.DateTime.IsLeapYear(System.Int32)
  ⟨0x53797374656d2e4461746554696d65, 0x5375627472616374, [0x53797374656d2e4461746554696d65]⟩, -- System.DateTime.Subtract(System.DateTime)
  ⟨0x53797374656d2e4461746554696d65, 0x5375627472616374, [0x53797374656d2e54696d655370616e]⟩, -- System.DateTime.Subtract(System.TimeSpan)
  ⟨0x53797374656d2e4461746554696d65, 0x546f4c6f63616c54696d65, []⟩, -- System.DateTime.ToLocalTime()
  ⟨0x53797374656d2e4461746554696d65, 0x546f537472696e67, []⟩, -- System.DateTime.ToString()
  ⟨0x53797374656d2e4461746554696d65, 0x546f556e6976657273616c54696d65, []⟩, -- System.DateTime.ToUniversalTime()
  ⟨0x53797374656d2e4461746554696d65, 0x6765745f44617465, []⟩, -- System.DateTime.get_Date()
  ⟨0x53797374656d2e4461746554696d65, 0x6765745f446179, []⟩, -- System.DateTime.get_Day()
  ⟨0x53797374656d2e4461746554696d65, 0x6765745f4461794f665765656b, []⟩, -- System.DateTime.get_DayOfWeek()
  ⟨0x53797374656d2e4461746554696d65, 0x6765745f4461794f6659656172, []⟩, -- System.DateTime.get_DayOfYear()
  ⟨0x53797374656d2e4461746554696d65, 0x6765745f486f7572, []⟩, -- System.DateTime.get_Hour()
  ⟨0x53797374656d2e4461746554696d65, 0x6765745f4d696c6c697365636f6e64, []⟩, -- System.DateTime.get_Millisecond()
  ⟨0x53797374656d2e4461746554696d65, 0x6765745f4d696e757465, []⟩, -- System.DateTime.get_Minute()
  ⟨0x53797374656d2e4461746554696d65, 0x6765745f4d6f6e7468, []⟩, -- System.DateTime.get_Month()
  ⟨0x53797374656d2e4461746554696d65, 0x6765745f4e6f77, []⟩, -- System.DateTime.get_Now()
  ⟨0x53797374656d2e4461746554696d65, 0x6765745f5365636f6e64, []⟩, -- System.DateTime.get_Second()
  ⟨0x53797374656d2e4461746554696d65, 0x6765745f5469636b73, []⟩, -- System.DateTime.get_Ticks()
  ⟨0x53797374656d2e4461746554696d65, 0x6765745f54696d654f66446179, []⟩, -- System.DateTime.get_TimeOfDay()
  ⟨0x53797374656d2e4461746554696d65, 0x6765745f546f646179, []⟩, -- System.DateTime.get_Today()
  ⟨0x53797374656d2e4461746554696d65, 0x6765745f5574634e6f77, []⟩, -- System.DateTime.get_UtcNow()
  ⟨0x53797374656d2e4461746554696d65, 0x6765745f59656172, []⟩, -- System.DateTime.get_Year()
  ⟨0x53797374656d2e4461746554696d65, 0x6f705f4164646974696f6e, [0x53797374656d2e4461746554696d65, 0x53797374656d2e54696d655370616e]⟩, -- System.DateTime.op_Addition(System.DateTime,System.TimeSpan)
  ⟨0x53797374656d2e4461746554696d65, 0x6f705f457175616c697479, [0x53797374656d2e4461746554696d65, 0x53797374656d2e4461746554696d65]⟩, -- System.DateTime.op_Equality(System.DateTime,System.DateTime)
  ⟨0x53797374656d2e4461746554696d65, 0x6f705f477265617465725468616e, [0x53797374656d2e4461746554696d65, 0x53797374656d2e4461746554696d65]⟩, -- System.DateTime.op_GreaterThan(System.DateTime,System.DateTime)
  ⟨0x53797374656d2e4461746554696d65, 0x6f705f477265617465725468616e4f72457175616c, [0x53797374656d2e4461746554696d65, 0x53797374656d2e4461746554696d65]⟩, -- System.DateTime.op_GreaterThanOrEqual(System.DateTime,System.DateTime)
  ⟨0x53797374656d2e4461746554696d65, 0x6f705f496e657175616c697479, [0x53797374656d2e4461746554696d65, 0x53797374656d2e4461746554696d65]⟩, -- System.DateTime.op_Inequality(System.DateTime,System.DateTime)
  ⟨0x53797374656d2e4461746554696d65, 0x6f705f4c6573735468616e, [0x53797374656d2e4461746554696d65, 0x53797374656d2e4461746554696d65]⟩, -- System.DateTime.op_LessThan(System.DateTime,System.DateTime)
  ⟨0x53797374656d2e4461746554696d65, 0x6f705f4c6573735468616e4f72457175616c, [0x53797374656d2e4461746554696d65, 0x53797374656d2e4461746554696d65]⟩, -- System.DateTime.op_LessThanOrEqual(System.DateTime,System.DateTime)
  ⟨0x53797374656d2e4461746554696d65, 0x6f705f5375627472616374696f6e, [0x53797374656d2e4461746554696d65, 0x53797374656d2e4461746554696d65]⟩, -- System.DateTime.op_Subtraction(System.DateTime,System.DateTime)
  ⟨0x53797374656d2e4461746554696d65, 0x6f705f5375627472616374696f6e, [0x53797374656d2e4461746554696d65, 0x53797374656d2e54696d655370616e]⟩, -- System.DateTime.op_Subtraction(System.DateTime,System.TimeSpan)
  ⟨0x53797374656d2e446f75626c65, 0x436f6d70617265546f, [0x53797374656d2e446f75626c65]⟩, -- System.Double.CompareTo(System.Double)
  ⟨0x53797374656d2e446f75626c65, 0x436f6d70617265546f, [0x53797374656d2e4f626a656374]⟩, -- System.Double.CompareTo(System.Object)
  ⟨0x53797374656d2e446f75626c65, 0x457175616c73, [0x53797374656d2e446f75626c65]⟩, -- System.Double.Equals(System.Double)
  ⟨0x53797374656d2e446f75626c65, 0x457175616c73, [0x53797374656d2e4f626a656374]⟩, -- System.Double.Equals(System.Object)
  ⟨0x53797374656d2e446f75626c65, 0x497346696e697465, [0x53797374656d2e446f75626c65]⟩, -- System.Double.IsFinite(System.Double)
  ⟨0x53797374656d2e446f75626c65, 0x4973496e66696e697479, [0x53797374656d2e446f75626c65]⟩, -- System.Double.IsInfinity(System.Double)
  ⟨0x53797374656d2e446f75626c65, 0x49734e614e, [0x53797374656d2e446f75626c65]⟩, -- System.Double.IsNaN(System.Double)
  ⟨0x53797374656d2e446f75626c65, 0x49734e65676174697665, [0x53797374656d2e446f75626c65]⟩, -- System.Double.IsNegative(System.Double)
  ⟨0x53797374656d2e446f75626c65, 0x49734e65676174697665496e66696e697479, [0x53797374656d2e446f75626c65]⟩, -- System.Double.IsNegativeInfinity(System.Double)
  ⟨0x53797374656d2e446f75626c65, 0x49734e6f726d616c, [0x53797374656d2e446f75626c65]⟩, -- System.Double.IsNormal(System.Double)
  ⟨0x53797374656d2e446f75626c65, 0x4973506f736974697665496e66696e697479, [0x53797374656d2e446f75626c65]⟩, -- System.Double.IsPositiveInfinity(System.Double)
  ⟨0x53797374656d2e446f75626c65, 0x49735375626e6f726d616c, [0x53797374656d2e446f75626c65]⟩, -- System.Double.IsSubnormal(System.Double)
  ⟨0x53797374656d2e446f75626c65, 0x5061727365, [0x53797374656d2e537472696e67]⟩, -- System.Double.Parse(System.String)
  ⟨0x53797374656d2e446f75626c65, 0x546f537472696e67, []⟩, -- System.Double.ToString()
  ⟨0x53797374656d2e446f75626c65, 0x5472795061727365, [0x53797374656d2e537472696e67, 0x53797374656d2e446f75626c65]⟩, -- System.Double.TryParse(System.String,System.Double)
  ⟨0x53797374656d2e496e743136, 0x436f6d70617265546f, [0x53797374656d2e496e743136]⟩, -- System.Int16.CompareTo(System.Int16)
  ⟨0x53797374656d2e496e743136, 0x436f6d70617265546f, [0x53797374656d2e4f626a656374]⟩, -- System.Int16.CompareTo(System.Object)
  ⟨0x53797374656d2e496e743136, 0x457175616c73, [0x53797374656d2e496e743136]⟩, -- System.Int16.Equals(System.Int16)
  ⟨0x53797374656d2e496e743136, 0x457175616c73, [0x53797374656d2e4f626a656374]⟩, -- System.Int16.Equals(System.Object)
  ⟨0x53797374656d2e496e743136, 0x5061727365, [0x53797374656d2e537472696e67]⟩, -- System.Int16.Parse(System.String)
  ⟨0x53797374656d2e496e743136, 0x546f537472696e67, []⟩, -- System.Int16.ToString()
  ⟨0x53797374656d2e496e743136, 0x5472795061727365, [0x53797374656d2e537472696e67, 0x53797374656d2e496e743136]⟩, -- System.Int16.TryParse(System.String,System.Int16)
  ⟨0x53797374656d2e496e743332, 0x436f6d70617265546f, [0x53797374656d2e496e743332]⟩, -- System.Int32.CompareTo(System.Int32)
  ⟨0x53797374656d2e496e743332, 0x436f6d70617265546f, [0x53797374656d2e4f626a656374]⟩, -- System.Int32.CompareTo(System.Object)
  ⟨0x53797374656d2e496e743332, 0x457175616c73, [0x53797374656d2e496e743332]⟩, -- System.Int32.Equals(System.Int32)
  ⟨0x53797374656d2e496e743332, 0x457175616c73, [0x53797374656d2e4f626a656374]⟩, -- System.Int32.Equals(System.Object)
  ⟨0x53797374656d2e496e743332, 0x5061727365, [0x53797374656d2e537472696e67]⟩, -- System.Int32.Parse(System.String)
  ⟨0x53797374656d2e496e743332, 0x546f537472696e67, []⟩, -- System.Int32.ToString()
  ⟨0x53797374656d2e496e743332, 0x5472795061727365, [0x53797374656d2e537472696e67, 0x53797374656d2e496e743332]⟩, -- System.Int32.TryParse(System.String,System.Int32)
  ⟨0x53797374656d2e496e743634, 0x436f6d70617265546f, [0x53797374656d2e496e743634]⟩, -- System.Int64.CompareTo(System.Int64)
  ⟨0x53797374656d2e496e743634, 0x436f6d70617265546f, [0x53797374656d2e4f626a656374]⟩, -- System.Int64.CompareTo(System.Object)
  ⟨0x53797374656d2e496e743634, 0x457175616c73, [0x53797374656d2e496e743634]⟩, -- System.Int64.Equals(System.Int64)
  ⟨0x53797374656d2e496e743634, 0x457175616c73, [0x53797374656d2e4f626a656374]⟩, -- System.Int64.Equals(System.Object)
  ⟨0x53797374656d2e496e743634, 0x5061727365, [0x53797374656d2e537472696e67]⟩, -- System.Int64.Parse(System.String)
  ⟨0x53797374656d2e496e743634, 0x546f537472696e67, []⟩, -- System.Int64.ToString()
  ⟨0x53797374656d2e496e743634, 0x5472795061727365, [0x53797374656d2e537472696e67, 0x53797374656d2e496e743634]⟩, -- System.Int64.TryParse(System.String,System.Int64)
  ⟨0x53797374656d2e4d617468, 0x416273, [0x53797374656d2e446f75626c65]⟩, -- System.Math.Abs(System.Double)
  ⟨0x53797374656d2e4d617468, 0x416273, [0x53797374656d2e496e743136]⟩, -- System.Math.Abs(System.Int16)
  ⟨0x53797374656d2e4d617468, 0x416273, [0x53797374656d2e496e743332]⟩, -- System.Math.Abs(System.Int32)
  ⟨0x53797374656d2e4d617468, 0x416273, [0x53797374656d2e496e743634]⟩, -- System.Math.Abs(System.Int64)
  ⟨0x53797374656d2e4d617468, 0x416273, [0x53797374656d2e5342797465]⟩, -- System.Math.Abs(System.SByte)
  ⟨0x53797374656d2e4d617468, 0x416273, [0x53797374656d2e53696e676c65]⟩, -- System.Math.Abs(System.Single)
  ⟨0x53797374656d2e4d617468, 0x41636f73, [0x53797374656d2e446f75626c65]⟩, -- System.Math.Acos(System.Double)
  ⟨0x53797374656d2e4d617468, 0x41636f7368, [0x53797374656d2e446f75626c65]⟩, -- System.Math.Acosh(System.Double)
  ⟨0x53797374656d2e4d617468, 0x4173696e, [0x53797374656d2e446f75626c65]⟩, -- System.Math.Asin(System.Double)
  ⟨0x53797374656d2e4d617468, 0x4173696e68, [0x53797374656d2e446f75626c65]⟩, -- System.Math.Asinh(System.Double)
  ⟨0x53797374656d2e4d617468, 0x4174616e, [0x53797374656d2e446f75626c65]⟩, -- System.Math.Atan(System.Double)
  ⟨0x53797374656d2e4d617468, 0x4174616e32, [0x53797374656d2e446f75626c65, 0x53797374656d2e446f75626c65]⟩, -- System.Math.Atan2(System.Double,System.Double)
  ⟨0x53797374656d2e4d617468, 0x4174616e68, [0x53797374656d2e446f75626c65]⟩, -- System.Math.Atanh(System.Double)
  ⟨0x53797374656d2e4d617468, 0x4269674d756c, [0x53797374656d2e496e743332, 0x53797374656d2e496e743332]⟩, -- System.Math.BigMul(System.Int32,System.Int32)
  ⟨0x53797374656d2e4d617468, 0x42697444656372656d656e74, [0x53797374656d2e446f75626c65]⟩, -- System.Math.BitDecrement(System.Double)
  ⟨0x53797374656d2e4d617468, 0x426974496e6372656d656e74, [0x53797374656d2e446f75626c65]⟩, -- System.Math.BitIncrement(System.Double)
  ⟨0x53797374656d2e4d617468, 0x43627274, [0x53797374656d2e446f75626c65]⟩, -- System.Math.Cbrt(System.Double)
  ⟨0x53797374656d2e4d617468, 0x4365696c696e67, [0x53797374656d2e446f75626c65]⟩, -- System.Math.Ceiling(System.Double)
  ⟨0x53797374656d2e4d617468, 0x436c616d70, [0x53797374656d2e42797465, 0x53797374656d2e42797465, 0x53797374656d2e42797465]⟩, -- System.Math.Clamp(System.Byte,System.Byte,System.Byte)
  ⟨0x53797374656d2e4d617468, 0x436c616d70, [0x53797374656d2e446f75626c65, 0x53797374656d2e446f75626c65, 0x53797374656d2e446f75626c65]⟩, -- System.Math.Clamp(System.Double,System.Double,System.Double)
  ⟨0x53797374656d2e4d617468, 0x436c616d70, [0x53797374656d2e496e743136, 0x53797374656d2e496e743136, 0x53797374656d2e496e743136]⟩, -- System.Math.Clamp(System.Int16,System.Int16,System.Int16)
  ⟨0x53797374656d2e4d617468, 0x436c616d70, [0x53797374656d2e496e743332, 0x53797374656d2e496e743332, 0x53797374656d2e496e743332]⟩, -- System.Math.Clamp(System.Int32,System.Int32,System.Int32)
  ⟨0x53797374656d2e4d617468, 0x436c616d70, [0x53797374656d2e496e743634, 0x53797374656d2e496e743634, 0x53797374656d2e496e743634]⟩, -- System.Math.Clamp(System.Int64,System.Int64,System.Int64)
  ⟨0x53797374656d2e4d617468, 0x436c616d70, [0x53797374656d2e5342797465, 0x53797374656d2e5342797465, 0x53797374656d2e5342797465]⟩, -- System.Math.Clamp(System.SByte,System.SByte,System.SByte)
  ⟨0x53797374656d2e4d617468, 0x436c616d70, [0x53797374656d2e55496e743136, 0x53797374656d2e55496e743136, 0x53797374656d2e55496e743136]⟩, -- System.Math.Clamp(System.UInt16,System.UInt16,System.UInt16)
  ⟨0x53797374656d2e4d617468, 0x436c616d70, [0x53797374656d2e55496e743332, 0x53797374656d2e55496e743332, 0x53797374656d2e55496e743332]⟩, -- System.Math.Clamp(System.UInt32,System.UInt32,System.UInt32)
  ⟨0x53797374656d2e4d617468, 0x436c616d70, [0x53797374656d2e55496e743634, 0x53797374656d2e55496e743634, 0x53797374656d2e55496e743634]⟩, -- System.Math.Clamp(System.UInt64,System.UInt64,System.UInt64)
  ⟨0x53797374656d2e4d617468, 0x436f70795369676e, [0x53797374656d2e446f75626c65, 0x53797374656d2e446f75626c65]⟩, -- System.Math.CopySign(System.Double,System.Double)
  ⟨0x53797374656d2e4d617468, 0x436f73, [0x53797374656d2e446f75626c65]⟩, -- System.Math.Cos(System.Double)
  ⟨0x53797374656d2e4d617468, 0x436f7368, [0x53797374656d2e446f75626c65]⟩, -- System.Math.Cosh(System.Double)
  ⟨0x53797374656d2e4d617468, 0x44697652656d, [0x53797374656d2e496e743332, 0x53797374656d2e496e743332, 0x53797374656d2e496e743332]⟩, -- System.Math.DivRem(System.Int32,System.Int32,System.Int32)
  ⟨0x53797374656d2e4d617468, 0x44697652656d, [0x53797374656d2e496e743634, 0x53797374656d2e496e743634, 0x53797374656d2e496e743634]⟩, -- System.Math.DivRem(System.Int64,System.Int64,System.Int64)
  ⟨0x53797374656d2e4d617468, 0x457870, [0x53797374656d2e446f75626c65]⟩, -- System.Math.Exp(System.Double)
  ⟨0x53797374656d2e4d617468, 0x466c6f6f72, [0x53797374656d2e446f75626c65]⟩, -- System.Math.Floor(System.Double)
  ⟨0x53797374656d2e4d617468, 0x46757365644d756c7469706c79416464, [0x53797374656d2e446f75626c65, 0x53797374656d2e446f75626c65, 0x53797374656d2e446f75626c65]⟩, -- System.Math.FusedMultiplyAdd(System.Double,System.Double,System.Double)
  ⟨0x53797374656d2e4d617468, 0x4945454552656d61696e646572, [0x53797374656d2e446f75626c65, 0x53797374656d2e446f75626c65]⟩, -- System.Math.IEEERemainder(System.Double,System.Double)
  ⟨0x53797374656d2e4d617468, 0x494c6f6742, [0x53797374656d2e446f75626c65]⟩, -- System.Math.ILogB(System.Double)
  ⟨0x53797374656d2e4d617468, 0x4c6f67, [0x53797374656d2e446f75626c65]⟩, -- System.Math.Log(System.Double)
  ⟨0x53797374656d2e4d617468, 0x4c6f67, [0x53797374656d2e446f75626c65, 0x53797374656d2e446f75626c65]⟩, -- System.Math.Log(System.Double,System.Double)
  ⟨0x53797374656d2e4d617468, 0x4c6f6732, [0x53797374656d2e446f75626c65]⟩, -- System.Math.Log2(System.Double)
  ⟨0x53797374656d2e4d617468, 0x4c6f673130, [0x53797374656d2e446f75626c65]⟩, -- System.Math.Log10(System.Double)
  ⟨0x53797374656d2e4d617468, 0x4d6178, [0x53797374656d2e42797465, 0x53797374656d2e42797465]⟩, -- System.Math.Max(System.Byte,System.Byte)
  ⟨0x53797374656d2e4d617468, 0x4d6178, [0x53797374656d2e446f75626c65, 0x53797374656d2e446f75626c65]⟩, -- System.Math.Max(System.Double,System.Double)
  ⟨0x53797374656d2e4d617468, 0x4d6178, [0x53797374656d2e496e743136, 0x53797374656d2e496e743136]⟩, -- System.Math.Max(System.Int16,System.Int16)
  ⟨0x53797374656d2e4d617468, 0x4d6178, [0x53797374656d2e496e743332, 0x53797374656d2e496e743332]⟩, -- System.Math.Max(System.Int32,System.Int32)
  ⟨0x53797374656d2e4d617468, 0x4d6178, [0x53797374656d2e496e743634, 0x53797374656d2e496e743634]⟩, -- System.Math.Max(System.Int64,System.Int64)
  ⟨0x53797374656d2e4d617468, 0x4d6178, [0x53797374656d2e5342797465, 0x53797374656d2e5342797465]⟩, -- System.Math.Max(System.SByte,System.SByte)
  ⟨0x53797374656d2e4d617468, 0x4d6178, [0x53797374656d2e53696e676c65, 0x53797374656d2e53696e676c65]⟩, -- System.Math.Max(System.Single,System.Single)
  ⟨0x53797374656d2e4d617468, 0x4d6178, [0x53797374656d2e55496e743136, 0x53797374656d2e55496e743136]⟩, -- System.Math.Max(System.UInt16,System.UInt16)
  ⟨0x53797374656d2e4d617468, 0x4d6178, [0x53797374656d2e55496e743332, 0x53797374656d2e55496e743332]⟩, -- System.Math.Max(System.UInt32,System.UInt32)
  ⟨0x53797374656d2e4d617468, 0x4d6178, [0x53797374656d2e55496e743634, 0x53797374656d2e55496e743634]⟩, -- System.Math.Max(System.UInt64,System.UInt64)
  ⟨0x53797374656d2e4d617468, 0x4d61784d61676e6974756465, [0x53797374656d2e446f75626c65, 0x53797374656d2e446f75626c65]⟩, -- System.Math.MaxMagnitude(System.Double,System.Double)
  ⟨0x53797374656d2e4d617468, 0x4d696e, [0x53797374656d2e42797465, 0x53797374656d2e42797465]⟩, -- System.Math.Min(System.Byte,System.Byte)
  ⟨0x53797374656d2e4d617468, 0x4d696e, [0x53797374656d2e446f75626c65, 0x53797374656d2e446f75626c65]⟩, -- System.Math.Min(System.Double,System.Double)
  ⟨0x53797374656d2e4d617468, 0x4d696e, [0x53797374656d2e496e743136, 0x53797374656d2e496e743136]⟩, -- System.Math.Min(System.Int16,System.Int16)
  ⟨0x53797374656d2e4d617468, 0x4d696e, [0x53797374656d2e496e743332, 0x53797374656d2e496e743332]⟩, -- System.Math.Min(System.Int32,System.Int32)
  ⟨0x53797374656d2e4d617468, 0x4d696e, [0x53797374656d2e496e743634, 0x53797374656d2e496e743634]⟩, -- System.Math.Min(System.Int64,System.Int64)
  ⟨0x53797374656d2e4d617468, 0x4d696e, [0x53797374656d2e5342797465, 0x53797374656d2e5342797465]⟩, -- System.Math.Min(System.SByte,System.SByte)
  ⟨0x53797374656d2e4d617468, 0x4d696e, [0x53797374656d2e53696e676c65, 0x53797374656d2e53696e676c65]⟩, -- System.Math.Min(System.Single,System.Single)
  ⟨0x53797374656d2e4d617468, 0x4d696e, [0x53797374656d2e55496e743136, 0x53797374656d2e55496e743136]⟩, -- System.Math.Min(System.UInt16,System.UInt16)
  ⟨0x53797374656d2e4d617468, 0x4d696e, [0x53797374656d2e55496e743332, 0x53797374656d2e55496e743332]⟩, -- System.Math.Min(System.UInt32,System.UInt32)
  ⟨0x53797374656d2e4d617468, 0x4d696e, [0x53797374656d2e55496e743634, 0x53797374656d2e55496e743634]⟩, -- System.Math.Min(System.UInt64,System.UInt64)
  ⟨0x53797374656d2e4d617468, 0x4d696e4d61676e6974756465, [0x53797374656d2e446f75626c65, 0x53797374656d2e446f75626c65]⟩, -- System.Math.MinMagnitude(System.Double,System.Double)
  ⟨0x53797374656d2e4d617468, 0x506f77, [0x53797374656d2e446f75626c65, 0x53797374656d2e446f75626c65]⟩, -- System.Math.Pow(System.Double,System.Double)
  ⟨0x53797374656d2e4d617468, 0x526f756e64, [0x53797374656d2e446f75626c65]⟩, -- System.Math.Round(System.Double)
  ⟨0x53797374656d2e4d617468, 0x526f756e64, [0x53797374656d2e446f75626c65, 0x53797374656d2e496e743332]⟩, -- System.Math.Round(System.Double,System.Int32)
  ⟨0x53797374656d2e4d617468, 0x526f756e64, [0x53797374656d2e446f75626c65, 0x53797374656d2e496e743332, 0x53797374656d2e4d6964706f696e74526f756e64696e67]⟩, -- System.Math.Round(System.Double,System.Int32,System.MidpointRounding)
  ⟨0x53797374656d2e4d617468, 0x5363616c6542, [0x53797374656d2e446f75626c65, 0x53797374656d2e496e743332]⟩, -- System.Math.ScaleB(System.Double,System.Int32)
  ⟨0x53797374656d2e4d617468, 0x5369676e, [0x53797374656d2e446f75626c65]⟩, -- System.Math.Sign(System.Double)
  ⟨0x53797374656d2e4d617468, 0x5369676e, [0x53797374656d2e496e743136]⟩, -- System.Math.Sign(System.Int16)
  ⟨0x53797374656d2e4d617468, 0x5369676e, [0x53797374656d2e496e743332]⟩, -- System.Math.Sign(System.Int32)
  ⟨0x53797374656d2e4d617468, 0x5369676e, [0x53797374656d2e496e743634]⟩, -- System.Math.Sign(System.Int64)
  ⟨0x53797374656d2e4d617468, 0x5369676e, [0x53797374656d2e5342797465]⟩, -- System.Math.Sign(System.SByte)
  ⟨0x53797374656d2e4d617468, 0x5369676e, [0x53797374656d2e53696e676c65]⟩, -- System.Math.Sign(System.Single)
  ⟨0x53797374656d2e4d617468, 0x53696e, [0x53797374656d2e446f75626c65]⟩, -- System.Math.Sin(System.Double)
  ⟨0x53797374656d2e4d617468, 0x53696e68, [0x53797374656d2e446f75626c65]⟩, -- System.Math.Sinh(System.Double)
  ⟨0x53797374656d2e4d617468, 0x53717274, [0x53797374656d2e446f75626c65]⟩, -- System.Math.Sqrt(System.Double)
  ⟨0x53797374656d2e4d617468, 0x54616e, [0x53797374656d2e446f75626c65]⟩, -- System.Math.Tan(System.Double)
  ⟨0x53797374656d2e4d617468, 0x54616e68, [0x53797374656d2e446f75626c65]⟩, -- System.Math.Tanh(System.Double)
  ⟨0x53797374656d2e4d617468, 0x5472756e63617465, [0x53797374656d2e446f75626c65]⟩, -- System.Math.Truncate(System.Double)
  ⟨0x53797374656d2e4f626a656374, 0x2e63746f72, []⟩, -- System.Object..ctor()
  ⟨0x53797374656d2e4f626a656374, 0x457175616c73, [0x53797374656d2e4f626a656374]⟩, -- System.Object.Equals(System.Object)
  ⟨0x53797374656d2e4f626a656374, 0x457175616c73, [0x53797374656d2e4f626a656374, 0x53797374656d2e4f626a656374]⟩, -- System.Object.Equals(System.Object,System.Object)
  ⟨0x53797374656d2e4f626a656374, 0x546f537472696e67, []⟩, -- System.Object.ToString()
  ⟨0x53797374656d2e5342797465, 0x436f6d70617265546f, [0x53797374656d2e4f626a656374]⟩, -- System.SByte.CompareTo(System.Object)
  ⟨0x53797374656d2e5342797465, 0x436f6d70617265546f, [0x53797374656d2e5342797465]⟩, -- System.SByte.CompareTo(System.SByte)
  ⟨0x53797374656d2e5342797465, 0x457175616c73, [0x53797374656d2e4f626a656374]⟩, -- System.SByte.Equals(System.Object)
  ⟨0x53797374656d2e5342797465, 0x457175616c73, [0x53797374656d2e5342797465]⟩, -- System.SByte.Equals(System.SByte)
  ⟨0x53797374656d2e5342797465, 0x5061727365, [0x53797374656d2e537472696e67]⟩, -- System.SByte.Parse(System.String)
  ⟨0x53797374656d2e5342797465, 0x546f537472696e67, []⟩, -- System.SByte.ToString()
  ⟨0x53797374656d2e5342797465, 0x5472795061727365, [0x53797374656d2e537472696e67, 0x53797374656d2e5342797465]⟩, -- System.SByte.TryParse(System.String,System.SByte)
  ⟨0x53797374656d2e53696e676c65, 0x436f6d70617265546f, [0x53797374656d2e4f626a656374]⟩, -- System.Single.CompareTo(System.Object)
  ⟨0x53797374656d2e53696e676c65, 0x436f6d70617265546f, [0x53797374656d2e53696e676c65]⟩, -- System.Single.CompareTo(System.Single)
  ⟨0x53797374656d2e53696e676c65, 0x457175616c73, [0x53797374656d2e4f626a656374]⟩, -- System.Single.Equals(System.Object)
  ⟨0x53797374656d2e53696e676c65, 0x457175616c73, [0x53797374656d2e53696e676c65]⟩, -- System.Single.Equals(System.Single)
  ⟨0x53797374656d2e53696e676c65, 0x497346696e697465, [0x53797374656d2e53696e676c65]⟩, -- System.Single.IsFinite(System.Single)
  ⟨0x53797374656d2e53696e676c65, 0x4973496e66696e697479, [0x53797374656d2e53696e676c65]⟩, -- System.Single.IsInfinity(System.Single)
  ⟨0x53797374656d2e53696e676c65, 0x49734e614e, [0x53797374656d2e53696e676c65]⟩, -- System.Single.IsNaN(System.Single)
  ⟨0x53797374656d2e53696e676c65, 0x49734e65676174697665, [0x53797374656d2e53696e676c65]⟩, -- System.Single.IsNegative(System.Single)
  ⟨0x53797374656d2e53696e676c65, 0x49734e65676174697665496e66696e697479, [0x53797374656d2e53696e676c65]⟩, -- System.Single.IsNegativeInfinity(System.Single)
  ⟨0x53797374656d2e53696e676c65, 0x49734e6f726d616c, [0x53797374656d2e53696e676c65]⟩, -- System.Single.IsNormal(System.Single)
  ⟨0x53797374656d2e53696e676c65, 0x4973506f736974697665496e66696e697479, [0x53797374656d2e53696e676c65]⟩, -- System.Single.IsPositiveInfinity(System.Single)
  ⟨0x53797374656d2e53696e676c65, 0x49735375626e6f726d616c, [0x53797374656d2e53696e676c65]⟩, -- System.Single.IsSubnormal(System.Single)
  ⟨0x53797374656d2e53696e676c65, 0x5061727365, [0x53797374656d2e537472696e67]⟩, -- System.Single.Parse(System.String)
  ⟨0x53797374656d2e53696e676c65, 0x546f537472696e67, []⟩, -- System.Single.ToString()
  ⟨0x53797374656d2e53696e676c65, 0x5472795061727365, [0x53797374656d2e537472696e67, 0x53797374656d2e53696e676c65]⟩, -- System.Single.TryParse(System.String,System.Single)
  ⟨0x53797374656d2e537472696e67, 0x436f6d70617265, [0x53797374656d2e537472696e67, 0x53797374656d2e496e743332, 0x53797374656d2e537472696e67, 0x53797374656d2e496e743332, 0x53797374656d2e496e743332]⟩, -- System.String.Compare(System.String,System.Int32,System.String,System.Int32,System.Int32)
  ⟨0x53797374656d2e537472696e67, 0x436f6d70617265, [0x53797374656d2e537472696e67, 0x53797374656d2e496e743332, 0x53797374656d2e537472696e67, 0x53797374656d2e496e743332, 0x53797374656d2e496e743332, 0x53797374656d2e426f6f6c65616e]⟩, -- System.String.Compare(System.String,System.Int32,System.String,System.Int32,System.Int32,System.Boolean)
  ⟨0x53797374656d2e537472696e67, 0x436f6d70617265, [0x53797374656d2e537472696e67, 0x53797374656d2e537472696e67]⟩, -- System.String.Compare(System.String,System.String)
  ⟨0x53797374656d2e537472696e67, 0x436f6d70617265, [0x53797374656d2e537472696e67, 0x53797374656d2e537472696e67, 0x53797374656d2e426f6f6c65616e]⟩, -- System.String.Compare(System.String,System.String,System.Boolean)
  ⟨0x53797374656d2e537472696e67, 0x436f6d706172654f7264696e616c, [0x53797374656d2e537472696e67, 0x53797374656d2e496e743332, 0x53797374656d2e537472696e67, 0x53797374656d2e496e743332, 0x53797374656d2e496e743332]⟩, -- System.String.CompareOrdinal(System.String,System.Int32,System.String,System.Int32,System.Int32)
  ⟨0x53797374656d2e537472696e67, 0x436f6d706172654f7264696e616c, [0x53797374656d2e537472696e67, 0x53797374656d2e537472696e67]⟩, -- System.String.CompareOrdinal(System.String,System.String)
  ⟨0x53797374656d2e537472696e67, 0x436f6d70617265546f, [0x53797374656d2e4f626a656374]⟩, -- System.String.CompareTo(System.Object)
  ⟨0x53797374656d2e537472696e67, 0x436f6d70617265546f, [0x53797374656d2e537472696e67]⟩, -- System.String.CompareTo(System.String)
  ⟨0x53797374656d2e537472696e67, 0x436f6e636174, [0x53797374656d2e4f626a656374, 0x53797374656d2e4f626a656374]⟩, -- System.String.Concat(System.Object,System.Object)
  ⟨0x53797374656d2e537472696e67, 0x436f6e636174, [0x53797374656d2e4f626a656374, 0x53797374656d2e4f626a656374, 0x53797374656d2e4f626a656374]⟩, -- System.String.Concat(System.Object,System.Object,System.Object)
  ⟨0x53797374656d2e537472696e67, 0x436f6e636174, [0x53797374656d2e4f626a656374, 0x53797374656d2e4f626a656374, 0x53797374656d2e4f626a656374, 0x53797374656d2e4f626a656374]⟩, -- System.String.Concat(System.Object,System.Object,System.Object,System.Object)
  ⟨0x53797374656d2e537472696e67, 0x436f6e636174, [0x53797374656d2e4f626a656374, 0x53797374656d2e4f626a656374, 0x53797374656d2e4f626a656374, 0x53797374656d2e4f626a656374, 0x53797374656d2e4f626a656374]⟩, -- System.String.Concat(System.Object,System.Object,System.Object,System.Object,System.Object)
  ⟨0x53797374656d2e537472696e67, 0x436f6e636174, [0x53797374656d2e4f626a656374, 0x53797374656d2e4f626a656374, 0x53797374656d2e4f626a656374, 0x53797374656d2e4f626a656374, 0x53797374656d2e4f626a656374, 0x53797374656d2e4f626a656374]⟩, -- System.String.Concat(System.Object,System.Object,System.Object,System.Object,System.Object,System.Object)
  ⟨0x53797374656d2e537472696e67, 0x436f6e636174, [0x53797374656d2e4f626a656374, 0x53797374656d2e4f626a656374, 0x53797374656d2e4f626a656374, 0x53797374656d2e4f626a656374, 0x53797374656d2e4f626a656374, 0x53797374656d2e4f626a656374, 0x53797374656d2e4f626a656374]⟩, -- System.String.Concat(System.Object,System.Object,System.Object,System.Object,System.Object,System.Object,System.Object)
  ⟨0x53797374656d2e537472696e67, 0x436f6e636174, [0x53797374656d2e4f626a6563745b5d]⟩, -- System.String.Concat(System.Object[])
  ⟨0x53797374656d2e537472696e67, 0x436f6e636174, [0x53797374656d2e537472696e67, 0x53797374656d2e537472696e67]⟩, -- System.String.Concat(System.String,System.String)
  ⟨0x53797374656d2e537472696e67, 0x436f6e636174, [0x53797374656d2e537472696e67, 0x53797374656d2e537472696e67, 0x53797374656d2e537472696e67]⟩, -- System.String.Concat(System.String,System.String,System.String)
  ⟨0x53797374656d2e537472696e67, 0x436f6e636174, [0x53797374656d2e537472696e67, 0x53797374656d2e537472696e67, 0x53797374656d2e537472696e67, 0x53797374656d2e537472696e67]⟩, -- System.String.Concat(System.String,System.String,System.String,System.String)
  ⟨0x53797374656d2e537472696e67, 0x436f6e636174, [0x53797374656d2e537472696e67, 0x53797374656d2e537472696e67, 0x53797374656d2e537472696e67, 0x53797374656d2e537472696e67, 0x53797374656d2e537472696e67]⟩, -- System.String.Concat(System.String,System.String,System.String,System.String,System.String)
  ⟨0x53797374656d2e537472696e67, 0x436f6e636174, [0x53797374656d2e537472696e67, 0x53797374656d2e537472696e67, 0x53797374656d2e537472696e67, 0x53797374656d2e537472696e67, 0x53797374656d2e537472696e67, 0x53797374656d2e537472696e67]⟩, -- System.String.Concat(System.String,System.String,System.String,System.String,System.String,System.String)
  ⟨0x53797374656d2e537472696e67, 0x436f6e636174, [0x53797374656d2e537472696e67, 0x53797374656d2e537472696e67, 0x53797374656d2e537472696e67, 0x53797374656d2e537472696e67, 0x53797374656d2e537472696e67, 0x53797374656d2e537472696e67, 0x53797374656d2e537472696e67]⟩, -- System.String.Concat(System.String,System.String,System.String,System.String,System.String,System.String,System.String)
  ⟨0x53797374656d2e537472696e67, 0x436f6e636174, [0x53797374656d2e537472696e675b5d]⟩, -- System.String.Concat(System.String[])
  ⟨0x53797374656d2e537472696e67, 0x436f6e7461696e73, [0x53797374656d2e537472696e67]⟩, -- System.String.Contains(System.String)
  ⟨0x53797374656d2e537472696e67, 0x436f7079, [0x53797374656d2e537472696e67]⟩, -- System.String.Copy(System.String)
  ⟨0x53797374656d2e537472696e67, 0x436f7079546f, [0x53797374656d2e496e743332, 0x53797374656d2e436861725b5d, 0x53797374656d2e496e743332, 0x53797374656d2e496e743332]⟩, -- System.String.CopyTo(System.Int32,System.Char[],System.Int32,System.Int32)
  ⟨0x53797374656d2e537472696e67, 0x456e647357697468, [0x53797374656d2e43686172]⟩, -- System.String.EndsWith(System.Char)
  ⟨0x53797374656d2e537472696e67, 0x456e647357697468, [0x53797374656d2e537472696e67]⟩, -- System.String.EndsWith(System.String)
  ⟨0x53797374656d2e537472696e67, 0x457175616c73, [0x53797374656d2e537472696e67]⟩, -- System.String.Equals(System.String)
  ⟨0x53797374656d2e537472696e67, 0x457175616c73, [0x53797374656d2e537472696e67, 0x53797374656d2e537472696e67]⟩, -- System.String.Equals(System.String,System.String)
  ⟨0x53797374656d2e537472696e67, 0x476574456e756d657261746f72, []⟩, -- System.String.GetEnumerator()
  ⟨0x53797374656d2e537472696e67, 0x496e6465784f66, [0x53797374656d2e43686172]⟩, -- System.String.IndexOf(System.Char)
  ⟨0x53797374656d2e537472696e67, 0x496e6465784f66, [0x53797374656d2e43686172, 0x53797374656d2e496e743332]⟩, -- System.String.IndexOf(System.Char,System.Int32)
  ⟨0x53797374656d2e537472696e67, 0x496e6465784f66, [0x53797374656d2e43686172, 0x53797374656d2e496e743332, 0x53797374656d2e496e743332]⟩, -- System.String.IndexOf(System.Char,System.Int32,System.Int32)
  ⟨0x53797374656d2e537472696e67, 0x496e6465784f66, [0x53797374656d2e537472696e67]⟩, -- System.String.IndexOf(System.String)
  ⟨0x53797374656d2e537472696e67, 0x496e6465784f66, [0x53797374656d2e537472696e67, 0x53797374656d2e496e743332]⟩, -- System.String.IndexOf(System.String,System.Int32)
  ⟨0x53797374656d2e537472696e67, 0x496e6465784f66, [0x53797374656d2e537472696e67, 0x53797374656d2e496e743332, 0x53797374656d2e496e743332]⟩, -- System.String.IndexOf(System.String,System.Int32,System.Int32)
  ⟨0x53797374656d2e537472696e67, 0x496e6465784f66416e79, [0x53797374656d2e436861725b5d]⟩, -- System.String.IndexOfAny(System.Char[])
  ⟨0x53797374656d2e537472696e67, 0x496e6465784f66416e79, [0x53797374656d2e436861725b5d, 0x53797374656d2e496e743332]⟩, -- System.String.IndexOfAny(System.Char[],System.Int32)
  ⟨0x53797374656d2e537472696e67, 0x496e6465784f66416e79, [0x53797374656d2e436861725b5d, 0x53797374656d2e496e743332, 0x53797374656d2e496e743332]⟩, -- System.String.IndexOfAny(System.Char[],System.Int32,System.Int32)
  ⟨0x53797374656d2e537472696e67, 0x496e73657274, [0x53797374656d2e496e743332, 0x53797374656d2e537472696e67]⟩, -- System.String.Insert(System.Int32,System.String)
  ⟨0x53797374656d2e537472696e67, 0x49734e756c6c4f72456d707479, [0x53797374656d2e537472696e67]⟩, -- System.String.IsNullOrEmpty(System.String)
  ⟨0x53797374656d2e537472696e67, 0x49734e756c6c4f7257686974655370616365, [0x53797374656d2e537472696e67]⟩, -- System.String.IsNullOrWhiteSpace(System.String)
  ⟨0x53797374656d2e537472696e67, 0x4a6f696e, [0x53797374656d2e43686172, 0x53797374656d2e4f626a6563745b5d]⟩, -- System.String.Join(System.Char,System.Object[])
  ⟨0x53797374656d2e537472696e67, 0x4a6f696e, [0x53797374656d2e43686172, 0x53797374656d2e537472696e675b5d]⟩, -- System.String.Join(System.Char,System.String[])
  ⟨0x53797374656d2e537472696e67, 0x4a6f696e, [0x53797374656d2e43686172, 0x53797374656d2e537472696e675b5d, 0x53797374656d2e496e743332, 0x53797374656d2e496e743332]⟩, -- System.String.Join(System.Char,System.String[],System.Int32,System.Int32)
  ⟨0x53797374656d2e537472696e67, 0x4a6f696e, [0x53797374656d2e537472696e67, 0x53797374656d2e4f626a6563745b5d]⟩, -- System.String.Join(System.String,System.Object[])
  ⟨0x53797374656d2e537472696e67, 0x4a6f696e, [0x53797374656d2e537472696e67, 0x53797374656d2e537472696e675b5d]⟩, -- System.String.Join(System.String,System.String[])
  ⟨0x53797374656d2e537472696e67, 0x4a6f696e, [0x53797374656d2e537472696e67, 0x53797374656d2e537472696e675b5d, 0x53797374656d2e496e743332, 0x53797374656d2e496e743332]⟩, -- System.String.Join(System.String,System.String[],System.Int32,System.Int32)
  ⟨0x53797374656d2e537472696e67, 0x4c617374496e6465784f66, [0x53797374656d2e43686172]⟩, -- System.String.LastIndexOf(System.Char)
  ⟨0x53797374656d2e537472696e67, 0x4c617374496e6465784f66, [0x53797374656d2e43686172, 0x53797374656d2e496e743332]⟩, -- System.String.LastIndexOf(System.Char,System.Int32)
  ⟨0x53797374656d2e537472696e67, 0x4c617374496e6465784f66, [0x53797374656d2e43686172, 0x53797374656d2e496e743332, 0x53797374656d2e496e743332]⟩, -- System.String.LastIndexOf(System.Char,System.Int32,System.Int32)
  ⟨0x53797374656d2e537472696e67, 0x4c617374496e6465784f66, [0x53797374656d2e537472696e67]⟩, -- System.String.LastIndexOf(System.String)
  ⟨0x53797374656d2e537472696e67, 0x4c617374496e6465784f66, [0x53797374656d2e537472696e67, 0x53797374656d2e496e743332]⟩, -- System.String.LastIndexOf(System.String,System.Int32)
  ⟨0x53797374656d2e537472696e67, 0x4c617374496e6465784f66, [0x53797374656d2e537472696e67, 0x53797374656d2e496e743332, 0x53797374656d2e496e743332]⟩, -- System.String.LastIndexOf(System.String,System.Int32,System.Int32)
  ⟨0x53797374656d2e537472696e67, 0x4c617374496e6465784f66416e79, [0x53797374656d2e436861725b5d]⟩, -- System.String.LastIndexOfAny(System.Char[])
  ⟨0x53797374656d2e537472696e67, 0x4c617374496e6465784f66416e79, [0x53797374656d2e436861725b5d, 0x53797374656d2e496e743332]⟩, -- System.String.LastIndexOfAny(System.Char[],System.Int32)
  ⟨0x53797374656d2e537472696e67, 0x4c617374496e6465784f66416e79, [0x53797374656d2e436861725b5d, 0x53797374656d2e496e743332, 0x53797374656d2e496e743332]⟩, -- System.String.LastIndexOfAny(System.Char[],System.Int32,System.Int32)
  ⟨0x53797374656d2e537472696e67, 0x5061644c656674, [0x53797374656d2e496e743332]⟩, -- System.String.PadLeft(System.Int32)
  ⟨0x53797374656d2e537472696e67, 0x5061644c656674, [0x53797374656d2e496e743332, 0x53797374656d2e43686172]⟩, -- System.String.PadLeft(System.Int32,System.Char)
  ⟨0x53797374656d2e537472696e67, 0x5061645269676874, [0x53797374656d2e496e743332]⟩, -- System.String.PadRight(System.Int32)
  ⟨0x53797374656d2e537472696e67, 0x5061645269676874, [0x53797374656d2e496e743332, 0x53797374656d2e43686172]⟩, -- System.String.PadRight(System.Int32,System.Char)
  ⟨0x53797374656d2e537472696e67, 0x52656d6f7665, [0x53797374656d2e496e743332]⟩, -- System.String.Remove(System.Int32)
  ⟨0x53797374656d2e537472696e67, 0x52656d6f7665, [0x53797374656d2e496e743332, 0x53797374656d2e496e743332]⟩, -- System.String.Remove(System.Int32,System.Int32)
  ⟨0x53797374656d2e537472696e67, 0x5265706c616365, [0x53797374656d2e43686172, 0x53797374656d2e43686172]⟩, -- System.String.Replace(System.Char,System.Char)
  ⟨0x53797374656d2e537472696e67, 0x5265706c616365, [0x53797374656d2e537472696e67, 0x53797374656d2e537472696e67]⟩, -- System.String.Replace(System.String,System.String)
  ⟨0x53797374656d2e537472696e67, 0x53746172747357697468, [0x53797374656d2e537472696e67]⟩, -- System.String.StartsWith(System.String)
  ⟨0x53797374656d2e537472696e67, 0x537562737472696e67, [0x53797374656d2e496e743332]⟩, -- System.String.Substring(System.Int32)
  ⟨0x53797374656d2e537472696e67, 0x537562737472696e67, [0x53797374656d2e496e743332, 0x53797374656d2e496e743332]⟩, -- System.String.Substring(System.Int32,System.Int32)
  ⟨0x53797374656d2e537472696e67, 0x546f436861724172726179, []⟩, -- System.String.ToCharArray()
  ⟨0x53797374656d2e537472696e67, 0x546f436861724172726179, [0x53797374656d2e496e743332, 0x53797374656d2e496e743332]⟩, -- System.String.ToCharArray(System.Int32,System.Int32)
  ⟨0x53797374656d2e537472696e67, 0x546f4c6f776572, []⟩, -- System.String.ToLower()
  ⟨0x53797374656d2e537472696e67, 0x546f4c6f776572496e76617269616e74, []⟩, -- System.String.ToLowerInvariant()
  ⟨0x53797374656d2e537472696e67, 0x546f537472696e67, []⟩, -- System.String.ToString()
  ⟨0x53797374656d2e537472696e67, 0x546f5570706572, []⟩, -- System.String.ToUpper()
  ⟨0x53797374656d2e537472696e67, 0x546f5570706572496e76617269616e74, []⟩, -- System.String.ToUpperInvariant()
  ⟨0x53797374656d2e537472696e67, 0x5472696d, []⟩, -- System.String.Trim()
  ⟨0x53797374656d2e537472696e67, 0x5472696d, [0x53797374656d2e436861725b5d]⟩, -- System.String.Trim(System.Char[])
  ⟨0x53797374656d2e537472696e67, 0x5472696d456e64, [0x53797374656d2e436861725b5d]⟩, -- System.String.TrimEnd(System.Char[])
  ⟨0x53797374656d2e537472696e67, 0x5472696d5374617274, [0x53797374656d2e436861725b5d]⟩, -- System.String.TrimStart(System.Char[])
  ⟨0x53797374656d2e537472696e67, 0x6765745f4368617273, [0x53797374656d2e496e743332]⟩, -- System.String.get_Chars(System.Int32)
  ⟨0x53797374656d2e537472696e67, 0x6765745f4c656e677468, []⟩, -- System.String.get_Length()
  ⟨0x53797374656d2e537472696e67, 0x6f705f457175616c697479, [0x53797374656d2e537472696e67, 0x53797374656d2e537472696e67]⟩, -- System.String.op_Equality(System.String,System.String)
  ⟨0x53797374656d2e537472696e67, 0x6f705f496d706c69636974, [0x53797374656d2e537472696e67]⟩, -- System.String.op_Implicit(System.String)
  ⟨0x53797374656d2e537472696e67, 0x6f705f496e657175616c697479, [0x53797374656d2e537472696e67, 0x53797374656d2e537472696e67]⟩, -- System.String.op_Inequality(System.String,System.String)
  ⟨0x53797374656d2e546578742e537472696e674275696c646572, 0x417070656e64, [0x53797374656d2e426f6f6c65616e]⟩, -- System.Text.StringBuilder.Append(System.Boolean)
  ⟨0x53797374656d2e546578742e537472696e674275696c646572, 0x417070656e64, [0x53797374656d2e42797465]⟩, -- System.Text.StringBuilder.Append(System.Byte)
  ⟨0x53797374656d2e546578742e537472696e674275696c646572, 0x417070656e64, [0x53797374656d2e43686172]⟩, -- System.Text.StringBuilder.Append(System.Char)
  ⟨0x53797374656d2e546578742e537472696e674275696c646572, 0x417070656e64, [0x53797374656d2e43686172, 0x53797374656d2e496e743332]⟩, -- System.Text.StringBuilder.Append(System.Char,System.Int32)
  ⟨0x53797374656d2e546578742e537472696e674275696c646572, 0x417070656e64, [0x53797374656d2e436861725b5d]⟩, -- System.Text.StringBuilder.Append(System.Char[])
  ⟨0x53797374656d2e546578742e537472696e674275696c646572, 0x417070656e64, [0x53797374656d2e436861725b5d, 0x53797374656d2e496e743332, 0x53797374656d2e496e743332]⟩, -- System.Text.StringBuilder.Append(System.Char[],System.Int32,System.Int32)
  ⟨0x53797374656d2e546578742e537472696e674275696c646572, 0x417070656e64, [0x53797374656d2e446f75626c65]⟩, -- System.Text.StringBuilder.Append(System.Double)
  ⟨0x53797374656d2e546578742e537472696e674275696c646572, 0x417070656e64, [0x53797374656d2e496e743136]⟩, -- System.Text.StringBuilder.Append(System.Int16)
  ⟨0x53797374656d2e546578742e537472696e674275696c646572, 0x417070656e64, [0x53797374656d2e496e743332]⟩, -- System.Text.StringBuilder.Append(System.Int32)
  ⟨0x53797374656d2e546578742e537472696e674275696c646572, 0x417070656e64, [0x53797374656d2e496e743634]⟩, -- System.Text.StringBuilder.Append(System.Int64)
  ⟨0x53797374656d2e546578742e537472696e674275696c646572, 0x417070656e64, [0x53797374656d2e4f626a656374]⟩, -- System.Text.StringBuilder.Append(System.Object)
  ⟨0x53797374656d2e546578742e537472696e674275696c646572, 0x417070656e64, [0x53797374656d2e5342797465]⟩, -- System.Text.StringBuilder.Append(System.SByte)
  ⟨0x53797374656d2e546578742e537472696e674275696c646572, 0x417070656e64, [0x53797374656d2e53696e676c65]⟩, -- System.Text.StringBuilder.Append(System.Single)
  ⟨0x53797374656d2e546578742e537472696e674275696c646572, 0x417070656e64, [0x53797374656d2e537472696e67]⟩, -- System.Text.StringBuilder.Append(System.String)
  ⟨0x53797374656d2e546578742e537472696e674275696c646572, 0x417070656e64, [0x53797374656d2e537472696e67, 0x53797374656d2e496e743332, 0x53797374656d2e496e743332]⟩, -- System.Text.StringBuilder.Append(System.String,System.Int32,System.Int32)
  ⟨0x53797374656d2e546578742e537472696e674275696c646572, 0x417070656e64, [0x53797374656d2e55496e743136]⟩, -- System.Text.StringBuilder.Append(System.UInt16)
  ⟨0x53797374656d2e546578742e537472696e674275696c646572, 0x417070656e64, [0x53797374656d2e55496e743332]⟩, -- System.Text.StringBuilder.Append(System.UInt32)
  ⟨0x53797374656d2e546578742e537472696e674275696c646572, 0x417070656e64, [0x53797374656d2e55496e743634]⟩, -- System.Text.StringBuilder.Append(System.UInt64)
  ⟨0x53797374656d2e546578742e537472696e674275696c646572, 0x417070656e644c696e65, []⟩, -- System.Text.StringBuilder.AppendLine()
  ⟨0x53797374656d2e546578742e537472696e674275696c646572, 0x417070656e644c696e65, [0x53797374656d2e537472696e67]⟩, -- System.Text.StringBuilder.AppendLine(System.String)
  ⟨0x53797374656d2e546578742e537472696e674275696c646572, 0x436c656172, []⟩, -- System.Text.StringBuilder.Clear()
  ⟨0x53797374656d2e546578742e537472696e674275696c646572, 0x456e737572654361706163697479, [0x53797374656d2e496e743332]⟩, -- System.Text.StringBuilder.EnsureCapacity(System.Int32)
  ⟨0x53797374656d2e546578742e537472696e674275696c646572, 0x457175616c73, [0x53797374656d2e546578742e537472696e674275696c646572]⟩, -- System.Text.StringBuilder.Equals(System.Text.StringBuilder)
  ⟨0x53797374656d2e546578742e537472696e674275696c646572, 0x496e73657274, [0x53797374656d2e496e743332, 0x53797374656d2e426f6f6c65616e]⟩, -- System.Text.StringBuilder.Insert(System.Int32,System.Boolean)
  ⟨0x53797374656d2e546578742e537472696e674275696c646572, 0x496e73657274, [0x53797374656d2e496e743332, 0x53797374656d2e42797465]⟩, -- System.Text.StringBuilder.Insert(System.Int32,System.Byte)
  ⟨0x53797374656d2e546578742e537472696e674275696c646572, 0x496e73657274, [0x53797374656d2e496e743332, 0x53797374656d2e43686172]⟩, -- System.Text.StringBuilder.Insert(System.Int32,System.Char)
  ⟨0x53797374656d2e546578742e537472696e674275696c646572, 0x496e73657274, [0x53797374656d2e496e743332, 0x53797374656d2e436861725b5d]⟩, -- System.Text.StringBuilder.Insert(System.Int32,System.Char[])
  ⟨0x53797374656d2e546578742e537472696e674275696c646572, 0x496e73657274, [0x53797374656d2e496e743332, 0x53797374656d2e436861725b5d, 0x53797374656d2e496e743332, 0x53797374656d2e496e743332]⟩, -- System.Text.StringBuilder.Insert(System.Int32,System.Char[],System.Int32,System.Int32)
  ⟨0x53797374656d2e546578742e537472696e674275696c646572, 0x496e73657274, [0x53797374656d2e496e743332, 0x53797374656d2e446f75626c65]⟩, -- System.Text.StringBuilder.Insert(System.Int32,System.Double)
  ⟨0x53797374656d2e546578742e537472696e674275696c646572, 0x496e73657274, [0x53797374656d2e496e743332, 0x53797374656d2e496e743136]⟩, -- System.Text.StringBuilder.Insert(System.Int32,System.Int16)
  ⟨0x53797374656d2e546578742e537472696e674275696c646572, 0x496e73657274, [0x53797374656d2e496e743332, 0x53797374656d2e496e743332]⟩, -- System.Text.StringBuilder.Insert(System.Int32,System.Int32)
  ⟨0x53797374656d2e546578742e537472696e674275696c646572, 0x496e73657274, [0x53797374656d2e496e743332, 0x53797374656d2e496e743634]⟩, -- System.Text.StringBuilder.Insert(System.Int32,System.Int64)
  ⟨0x53797374656d2e546578742e537472696e674275696c646572, 0x496e73657274, [0x53797374656d2e496e743332, 0x53797374656d2e4f626a656374]⟩, -- System.Text.StringBuilder.Insert(System.Int32,System.Object)
  ⟨0x53797374656d2e546578742e537472696e674275696c646572, 0x496e73657274, [0x53797374656d2e496e743332, 0x53797374656d2e5342797465]⟩, -- System.Text.StringBuilder.Insert(System.Int32,System.SByte)
  ⟨0x53797374656d2e546578742e537472696e674275696c646572, 0x496e73657274, [0x53797374656d2e496e743332, 0x53797374656d2e53696e676c65]⟩, -- System.Text.StringBuilder.Insert(System.Int32,System.Single)
  ⟨0x53797374656d2e546578742e537472696e674275696c646572, 0x496e73657274, [0x53797374656d2e496e743332, 0x53797374656d2e537472696e67, 0x53797374656d2e496e743332]⟩, -- System.Text.StringBuilder.Insert(System.Int32,System.String,System.Int32)
  ⟨0x53797374656d2e546578742e537472696e674275696c646572, 0x496e73657274, [0x53797374656d2e496e743332, 0x53797374656d2e55496e743136]⟩, -- System.Text.StringBuilder.Insert(System.Int32,System.UInt16)
  ⟨0x53797374656d2e546578742e537472696e674275696c646572, 0x496e73657274, [0x53797374656d2e496e743332, 0x53797374656d2e55496e743332]⟩, -- System.Text.StringBuilder.Insert(System.Int32,System.UInt32)
  ⟨0x53797374656d2e546578742e537472696e674275696c646572, 0x496e73657274, [0x53797374656d2e496e743332, 0x53797374656d2e55496e743634]⟩, -- System.Text.StringBuilder.Insert(System.Int32,System.UInt64)
  ⟨0x53797374656d2e546578742e537472696e674275696c646572, 0x5265706c616365, [0x53797374656d2e43686172, 0x53797374656d2e43686172]⟩, -- System.Text.StringBuilder.Replace(System.Char,System.Char)
  ⟨0x53797374656d2e546578742e537472696e674275696c646572, 0x5265706c616365, [0x53797374656d2e43686172, 0x53797374656d2e43686172, 0x53797374656d2e496e743332, 0x53797374656d2e496e743332]⟩, -- System.Text.StringBuilder.Replace(System.Char,System.Char,System.Int32,System.Int32)
  ⟨0x53797374656d2e546578742e537472696e674275696c646572, 0x5265706c616365, [0x53797374656d2e537472696e67, 0x53797374656d2e537472696e67]⟩, -- System.Text.StringBuilder.Replace(System.String,System.String)
  ⟨0x53797374656d2e546578742e537472696e674275696c646572, 0x5265706c616365, [0x53797374656d2e537472696e67, 0x53797374656d2e537472696e67, 0x53797374656d2e496e743332, 0x53797374656d2e496e743332]⟩, -- System.Text.StringBuilder.Replace(System.String,System.String,System.Int32,System.Int32)
  ⟨0x53797374656d2e546578742e537472696e674275696c646572, 0x546f537472696e67, []⟩, -- System.Text.StringBuilder.ToString()
  ⟨0x53797374656d2e546578742e537472696e674275696c646572, 0x546f537472696e67, [0x53797374656d2e496e743332, 0x53797374656d2e496e743332]⟩, -- System.Text.StringBuilder.ToString(System.Int32,System.Int32)
  ⟨0x53797374656d2e546578742e537472696e674275696c646572, 0x6765745f4361706163697479, []⟩, -- System.Text.StringBuilder.get_Capacity()
  ⟨0x53797374656d2e546578742e537472696e674275696c646572, 0x6765745f4368617273, [0x53797374656d2e496e743332]⟩, -- System.Text.StringBuilder.get_Chars(System.Int32)
  ⟨0x53797374656d2e546578742e537472696e674275696c646572, 0x6765745f4c656e677468, []⟩, -- System.Text.StringBuilder.get_Length()
  ⟨0x53797374656d2e546578742e537472696e674275696c646572, 0x6765745f4d61784361706163697479, []⟩, -- System.Text.StringBuilder.get_MaxCapacity()
  ⟨0x53797374656d2e546578742e537472696e674275696c646572, 0x7365745f4361706163697479, [0x53797374656d2e496e743332]⟩, -- System.Text.StringBuilder.set_Capacity(System.Int32)
  ⟨0x53797374656d2e546578742e537472696e674275696c646572, 0x7365745f4368617273, [0x53797374656d2e496e743332, 0x53797374656d2e43686172]⟩, -- System.Text.StringBuilder.set_Chars(System.Int32,System.Char)
  ⟨0x53797374656d2e546578742e537472696e674275696c646572, 0x7365745f4c656e677468, [0x53797374656d2e496e743332]⟩, -- System.Text.StringBuilder.set_Length(System.Int32)
  ⟨0x53797374656d2e54696d655370616e, 0x416464, [0x53797374656d2e54696d655370616e]⟩, -- System.TimeSpan.Add(System.TimeSpan)
  ⟨0x53797374656d2e54696d655370616e, 0x436f6d70617265, [0x53797374656d2e54696d655370616e, 0x53797374656d2e54696d655370616e]⟩, -- System.TimeSpan.Compare(System.TimeSpan,System.TimeSpan)
  ⟨0x53797374656d2e54696d655370616e, 0x436f6d70617265546f, [0x53797374656d2e4f626a656374]⟩, -- System.TimeSpan.CompareTo(System.Object)
  ⟨0x53797374656d2e54696d655370616e, 0x436f6d70617265546f, [0x53797374656d2e54696d655370616e]⟩, -- System.TimeSpan.CompareTo(System.TimeSpan)
  ⟨0x53797374656d2e54696d655370616e, 0x446976696465, [0x53797374656d2e446f75626c65]⟩, -- System.TimeSpan.Divide(System.Double)
  ⟨0x53797374656d2e54696d655370616e, 0x446976696465, [0x53797374656d2e54696d655370616e]⟩, -- System.TimeSpan.Divide(System.TimeSpan)
  ⟨0x53797374656d2e54696d655370616e, 0x4475726174696f6e, []⟩, -- System.TimeSpan.Duration()
  ⟨0x53797374656d2e54696d655370616e, 0x457175616c73, [0x53797374656d2e4f626a656374]⟩, -- System.TimeSpan.Equals(System.Object)
  ⟨0x53797374656d2e54696d655370616e, 0x457175616c73, [0x53797374656d2e54696d655370616e]⟩, -- System.TimeSpan.Equals(System.TimeSpan)
  ⟨0x53797374656d2e54696d655370616e, 0x457175616c73, [0x53797374656d2e54696d655370616e, 0x53797374656d2e54696d655370616e]⟩, -- System.TimeSpan.Equals(System.TimeSpan,System.TimeSpan)
  ⟨0x53797374656d2e54696d655370616e, 0x46726f6d44617973, [0x53797374656d2e446f75626c65]⟩, -- System.TimeSpan.FromDays(System.Double)
  ⟨0x53797374656d2e54696d655370616e, 0x46726f6d486f757273, [0x53797374656d2e446f75626c65]⟩, -- System.TimeSpan.FromHours(System.Double)
  ⟨0x53797374656d2e54696d655370616e, 0x46726f6d4d696c6c697365636f6e6473, [0x53797374656d2e446f75626c65]⟩, -- System.TimeSpan.FromMilliseconds(System.Double)
  ⟨0x53797374656d2e54696d655370616e, 0x46726f6d4d696e75746573, [0x53797374656d2e446f75626c65]⟩, -- System.TimeSpan.FromMinutes(System.Double)
  ⟨0x53797374656d2e54696d655370616e, 0x46726f6d5365636f6e6473, [0x53797374656d2e446f75626c65]⟩, -- System.TimeSpan.FromSeconds(System.Double)
  ⟨0x53797374656d2e54696d655370616e, 0x46726f6d5469636b73, [0x53797374656d2e496e743634]⟩, -- System.TimeSpan.FromTicks(System.Int64)
  ⟨0x53797374656d2e54696d655370616e, 0x4d756c7469706c79, [0x53797374656d2e446f75626c65]⟩, -- System.TimeSpan.Multiply(System.Double)
  ⟨0x53797374656d2e54696d655370616e, 0x4e6567617465, []⟩, -- System.TimeSpan.Negate()
  ⟨0x53797374656d2e54696d655370616e, 0x5061727365, [0x53797374656d2e537472696e67]⟩, -- System.TimeSpan.Parse(System.String)
  ⟨0x53797374656d2e54696d655370616e, 0x5375627472616374, [0x53797374656d2e54696d655370616e]⟩, -- System.TimeSpan.Subtract(System.TimeSpan)
  ⟨0x53797374656d2e54696d655370616e, 0x546f537472696e67, []⟩, -- System.TimeSpan.ToString()
  ⟨0x53797374656d2e54696d655370616e, 0x5472795061727365, [0x53797374656d2e537472696e67, 0x53797374656d2e54696d655370616e]⟩, -- System.TimeSpan.TryParse(System.String,System.TimeSpan)
  ⟨0x53797374656d2e54696d655370616e, 0x6765745f44617973, []⟩, -- System.TimeSpan.get_Days()
  ⟨0x53797374656d2e54696d655370616e, 0x6765745f486f757273, []⟩, -- System.TimeSpan.get_Hours()
  ⟨0x53797374656d2e54696d655370616e, 0x6765745f4d696c6c697365636f6e6473, []⟩, -- System.TimeSpan.get_Milliseconds()
  ⟨0x53797374656d2e54696d655370616e, 0x6765745f4d696e75746573, []⟩, -- System.TimeSpan.get_Minutes()
  ⟨0x53797374656d2e54696d655370616e, 0x6765745f5365636f6e6473, []⟩, -- System.TimeSpan.get_Seconds()
  ⟨0x53797374656d2e54696d655370616e, 0x6765745f5469636b73, []⟩, -- System.TimeSpan.get_Ticks()
  ⟨0x53797374656d2e54696d655370616e, 0x6765745f546f74616c44617973, []⟩, -- System.TimeSpan.get_TotalDays()
  ⟨0x53797374656d2e54696d655370616e, 0x6765745f546f74616c486f757273, []⟩, -- System.TimeSpan.get_TotalHours()
  ⟨0x53797374656d2e54696d655370616e, 0x6765745f546f74616c4d696c6c697365636f6e6473, []⟩, -- System.TimeSpan.get_TotalMilliseconds()
  ⟨0x53797374656d2e54696d655370616e, 0x6765745f546f74616c4d696e75746573, []⟩, -- System.TimeSpan.get_TotalMinutes()
  ⟨0x53797374656d2e54696d655370616e, 0x6765745f546f74616c5365636f6e6473, []⟩, -- System.TimeSpan.get_TotalSeconds()
  ⟨0x53797374656d2e54696d655370616e, 0x6f705f4164646974696f6e, [0x53797374656d2e54696d655370616e, 0x53797374656d2e54696d655370616e]⟩, -- System.TimeSpan.op_Addition(System.TimeSpan,System.TimeSpan)
  ⟨0x53797374656d2e54696d655370616e, 0x6f705f4469766973696f6e, [0x53797374656d2e54696d655370616e, 0x53797374656d2e446f75626c65]⟩, -- System.TimeSpan.op_Division(System.TimeSpan,System.Double)
  ⟨0x53797374656d2e54696d655370616e, 0x6f705f4469766973696f6e, [0x53797374656d2e54696d655370616e, 0x53797374656d2e54696d655370616e]⟩, -- System.TimeSpan.op_Division(System.TimeSpan,System.TimeSpan)
  ⟨0x53797374656d2e54696d655370616e, 0x6f705f457175616c697479, [0x53797374656d2e54696d655370616e, 0x53797374656d2e54696d655370616e]⟩, -- System.TimeSpan.op_Equality(System.TimeSpan,System.TimeSpan)
  ⟨0x53797374656d2e54696d655370616e, 0x6f705f477265617465725468616e, [0x53797374656d2e54696d655370616e, 0x53797374656d2e54696d655370616e]⟩, -- System.TimeSpan.op_GreaterThan(System.TimeSpan,System.TimeSpan)
  ⟨0x53797374656d2e54696d655370616e, 0x6f705f477265617465725468616e4f72457175616c, [0x53797374656d2e54696d655370616e, 0x53797374656d2e54696d655370616e]⟩, -- System.TimeSpan.op_GreaterThanOrEqual(System.TimeSpan,System.TimeSpan)
  ⟨0x53797374656d2e54696d655370616e, 0x6f705f496e657175616c697479, [0x53797374656d2e54696d655370616e, 0x53797374656d2e54696d655370616e]⟩, -- System.TimeSpan.op_Inequality(System.TimeSpan,System.TimeSpan)
  ⟨0x53797374656d2e54696d655370616e, 0x6f705f4c6573735468616e, [0x53797374656d2e54696d655370616e, 0x53797374656d2e54696d655370616e]⟩, -- System.TimeSpan.op_LessThan(System.TimeSpan,System.TimeSpan)
  ⟨0x53797374656d2e54696d655370616e, 0x6f705f4c6573735468616e4f72457175616c, [0x53797374656d2e54696d655370616e, 0x53797374656d2e54696d655370616e]⟩, -- System.TimeSpan.op_LessThanOrEqual(System.TimeSpan,System.TimeSpan)
  ⟨0x53797374656d2e54696d655370616e, 0x6f705f4d756c7469706c79, [0x53797374656d2e446f75626c65, 0x53797374656d2e54696d655370616e]⟩, -- System.TimeSpan.op_Multiply(System.Double,System.TimeSpan)
  ⟨0x53797374656d2e54696d655370616e, 0x6f705f4d756c7469706c79, [0x53797374656d2e54696d655370616e, 0x53797374656d2e446f75626c65]⟩, -- System.TimeSpan.op_Multiply(System.TimeSpan,System.Double)
  ⟨0x53797374656d2e54696d655370616e, 0x6f705f5375627472616374696f6e, [0x53797374656d2e54696d655370616e, 0x53797374656d2e54696d655370616e]⟩, -- System.TimeSpan.op_Subtraction(System.TimeSpan,System.TimeSpan)
  ⟨0x53797374656d2e54696d655370616e, 0x6f705f556e6172794e65676174696f6e, [0x53797374656d2e54696d655370616e]⟩, -- System.TimeSpan.op_UnaryNegation(System.TimeSpan)
  ⟨0x53797374656d2e54696d655370616e, 0x6f705f556e617279506c7573, [0x53797374656d2e54696d655370616e]⟩, -- System.TimeSpan.op_UnaryPlus(System.TimeSpan)
  ⟨0x53797374656d2e55496e743136, 0x436f6d70617265546f, [0x53797374656d2e4f626a656374]⟩, -- System.UInt16.CompareTo(System.Object)
  ⟨0x53797374656d2e55496e743136, 0x436f6d70617265546f, [0x53797374656d2e55496e743136]⟩, -- System.UInt16.CompareTo(System.UInt16)
  ⟨0x53797374656d2e55496e743136, 0x457175616c73, [0x53797374656d2e4f626a656374]⟩, -- System.UInt16.Equals(System.Object)
  ⟨0x53797374656d2e55496e743136, 0x457175616c73, [0x53797374656d2e55496e743136]⟩, -- System.UInt16.Equals(System.UInt16)
  ⟨0x53797374656d2e55496e743136, 0x5061727365, [0x53797374656d2e537472696e67]⟩, -- System.UInt16.Parse(System.String)
  ⟨0x53797374656d2e55496e743136, 0x546f537472696e67, []⟩, -- System.UInt16.ToString()
  ⟨0x53797374656d2e55496e743136, 0x5472795061727365, [0x53797374656d2e537472696e67, 0x53797374656d2e55496e743136]⟩, -- System.UInt16.TryParse(System.String,System.UInt16)
  ⟨0x53797374656d2e55496e743332, 0x436f6d70617265546f, [0x53797374656d2e4f626a656374]⟩, -- System.UInt32.CompareTo(System.Object)
  ⟨0x53797374656d2e55496e743332, 0x436f6d70617265546f, [0x53797374656d2e55496e743332]⟩, -- System.UInt32.CompareTo(System.UInt32)
  ⟨0x53797374656d2e55496e743332, 0x457175616c73, [0x53797374656d2e4f626a656374]⟩, -- System.UInt32.Equals(System.Object)
  ⟨0x53797374656d2e55496e743332, 0x457175616c73, [0x53797374656d2e55496e743332]⟩, -- System.UInt32.Equals(System.UInt32)
  ⟨0x53797374656d2e55496e743332, 0x5061727365, [0x53797374656d2e537472696e67]⟩, -- System.UInt32.Parse(System.String)
  ⟨0x53797374656d2e55496e743332, 0x546f537472696e67, []⟩, -- System.UInt32.ToString()
  ⟨0x53797374656d2e55496e743332, 0x5472795061727365, [0x53797374656d2e537472696e67, 0x53797374656d2e55496e743332]⟩, -- System.UInt32.TryParse(System.String,System.UInt32)
  ⟨0x53797374656d2e55496e743634, 0x436f6d70617265546f, [0x53797374656d2e4f626a656374]⟩, -- System.UInt64.CompareTo(System.Object)
  ⟨0x53797374656d2e55496e743634, 0x436f6d70617265546f, [0x53797374656d2e55496e743634]⟩, -- System.UInt64.CompareTo(System.UInt64)
  ⟨0x53797374656d2e55496e743634, 0x457175616c73, [0x53797374656d2e4f626a656374]⟩, -- System.UInt64.Equals(System.Object)
  ⟨0x53797374656d2e55496e743634, 0x457175616c73, [0x53797374656d2e55496e743634]⟩, -- System.UInt64.Equals(System.UInt64)
  ⟨0x53797374656d2e55496e743634, 0x5061727365, [0x53797374656d2e537472696e67]⟩, -- System.UInt64.Parse(System.String)
  ⟨0x53797374656d2e55496e743634, 0x546f537472696e67, []⟩, -- System.UInt64.ToString()
  ⟨0x53797374656d2e55496e743634, 0x5472795061727365, [0x53797374656d2e537472696e67, 0x53797374656d2e55496e743634]⟩ -- System.UInt64.TryParse(System.String,System.UInt64)
]

end Verif.LibTable
