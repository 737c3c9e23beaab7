import Verif.TextModel
/-!
# The table of supported library types and methods (/repo/CppTranslator/ValidTypes.xml)

Generated: one entry per `<Valid>` row, in file order (lines 11-584). Each entry is the row read as a number in base 256
(its ASCII codes, first character most significant); the comment shows the text.
-/
namespace Verif.ValidTable

/-- The characters of a number in base 256, most significant first; `n` bounds their number. -/
def digits : Nat → Nat → WStr → WStr
  | 0, _, acc => acc
  | n + 1, k, acc => if k = 0 then acc else digits n (k / 256) (k % 256 :: acc)

/-- The text of an entry. -/
def text (k : Nat) : WStr := digits 200 k []

/-- The rows of /repo/CppTranslator/ValidTypes.xml, lines 11-584. -/
def codes : List Nat := [
  0x53797374656d2e4172726179, -- System.Array
  0x53797374656d2e41727261792e436c6561722853797374656d2e41727261792c53797374656d2e496e7433322c53797374656d2e496e74333229, -- System.Array.Clear(System.Array,System.Int32,System.Int32)
  0x53797374656d2e41727261792e436f6e73747261696e6564436f70792853797374656d2e41727261792c53797374656d2e496e7433322c53797374656d2e41727261792c53797374656d2e496e7433322c53797374656d2e496e74333229, -- System.Array.ConstrainedCopy(System.Array,System.Int32,System.Array,System.Int32,System.Int32)
  0x53797374656d2e41727261792e436f70792853797374656d2e41727261792c53797374656d2e41727261792c53797374656d2e496e74333229, -- System.Array.Copy(System.Array,System.Array,System.Int32)
  0x53797374656d2e41727261792e436f70792853797374656d2e41727261792c53797374656d2e496e7433322c53797374656d2e41727261792c53797374656d2e496e7433322c53797374656d2e496e74333229, -- System.Array.Copy(System.Array,System.Int32,System.Array,System.Int32,System.Int32)
  0x53797374656d2e41727261792e436f7079546f2853797374656d2e41727261792c53797374656d2e496e74333229, -- System.Array.CopyTo(System.Array,System.Int32)
  0x53797374656d2e41727261792e4765744c656e6774682853797374656d2e496e74333229, -- System.Array.GetLength(System.Int32)
  0x53797374656d2e41727261792e4765744c6f776572426f756e642853797374656d2e496e74333229, -- System.Array.GetLowerBound(System.Int32)
  0x53797374656d2e41727261792e4765745570706572426f756e642853797374656d2e496e74333229, -- System.Array.GetUpperBound(System.Int32)
  0x53797374656d2e41727261792e47657456616c75652853797374656d2e496e74333229, -- System.Array.GetValue(System.Int32)
  0x53797374656d2e41727261792e47657456616c75652853797374656d2e496e7433322c53797374656d2e496e74333229, -- System.Array.GetValue(System.Int32,System.Int32)
  0x53797374656d2e41727261792e47657456616c75652853797374656d2e496e7433322c53797374656d2e496e7433322c53797374656d2e496e74333229, -- System.Array.GetValue(System.Int32,System.Int32,System.Int32)
  0x53797374656d2e41727261792e47657456616c75652853797374656d2e496e7433325b5d29, -- System.Array.GetValue(System.Int32[])
  0x53797374656d2e41727261792e496e6465784f662853797374656d2e537472696e675b5d2c53797374656d2e537472696e6729, -- System.Array.IndexOf(System.String[],System.String)
  0x53797374656d2e41727261792e496e6465784f662853797374656d2e537472696e675b5d2c53797374656d2e537472696e672c53797374656d2e496e74333229, -- System.Array.IndexOf(System.String[],System.String,System.Int32)
  0x53797374656d2e41727261792e496e6465784f662853797374656d2e537472696e675b5d2c53797374656d2e537472696e672c53797374656d2e496e7433322c53797374656d2e496e74333229, -- System.Array.IndexOf(System.String[],System.String,System.Int32,System.Int32)
  0x53797374656d2e41727261792e53657456616c75652853797374656d2e4f626a6563742c53797374656d2e496e74333229, -- System.Array.SetValue(System.Object,System.Int32)
  0x53797374656d2e41727261792e53657456616c75652853797374656d2e4f626a6563742c53797374656d2e496e7433322c53797374656d2e496e74333229, -- System.Array.SetValue(System.Object,System.Int32,System.Int32)
  0x53797374656d2e41727261792e53657456616c75652853797374656d2e4f626a6563742c53797374656d2e496e7433322c53797374656d2e496e7433322c53797374656d2e496e74333229, -- System.Array.SetValue(System.Object,System.Int32,System.Int32,System.Int32)
  0x53797374656d2e41727261792e53657456616c75652853797374656d2e4f626a6563742c53797374656d2e496e7433325b5d29, -- System.Array.SetValue(System.Object,System.Int32[])
  0x53797374656d2e41727261792e6765745f4c656e6774682829, -- System.Array.get_Length()
  0x53797374656d2e41727261792e6765745f52616e6b2829, -- System.Array.get_Rank()
  0x53797374656d2e426974436f6e7665727465722e47657442797465732853797374656d2e426f6f6c65616e29, -- System.BitConverter.GetBytes(System.Boolean)
  0x53797374656d2e426974436f6e7665727465722e47657442797465732853797374656d2e4368617229, -- System.BitConverter.GetBytes(System.Char)
  0x53797374656d2e426974436f6e7665727465722e47657442797465732853797374656d2e446f75626c6529, -- System.BitConverter.GetBytes(System.Double)
  0x53797374656d2e426974436f6e7665727465722e47657442797465732853797374656d2e496e74313629, -- System.BitConverter.GetBytes(System.Int16)
  0x53797374656d2e426974436f6e7665727465722e47657442797465732853797374656d2e496e74333229, -- System.BitConverter.GetBytes(System.Int32)
  0x53797374656d2e426974436f6e7665727465722e47657442797465732853797374656d2e496e74363429, -- System.BitConverter.GetBytes(System.Int64)
  0x53797374656d2e426974436f6e7665727465722e47657442797465732853797374656d2e53696e676c6529, -- System.BitConverter.GetBytes(System.Single)
  0x53797374656d2e426974436f6e7665727465722e47657442797465732853797374656d2e55496e74313629, -- System.BitConverter.GetBytes(System.UInt16)
  0x53797374656d2e426974436f6e7665727465722e47657442797465732853797374656d2e55496e74333229, -- System.BitConverter.GetBytes(System.UInt32)
  0x53797374656d2e426974436f6e7665727465722e47657442797465732853797374656d2e55496e74363429, -- System.BitConverter.GetBytes(System.UInt64)
  0x53797374656d2e426974436f6e7665727465722e546f426f6f6c65616e2853797374656d2e427974655b5d2c53797374656d2e496e74333229, -- System.BitConverter.ToBoolean(System.Byte[],System.Int32)
  0x53797374656d2e426974436f6e7665727465722e546f436861722853797374656d2e427974655b5d2c53797374656d2e496e74333229, -- System.BitConverter.ToChar(System.Byte[],System.Int32)
  0x53797374656d2e426974436f6e7665727465722e546f446f75626c652853797374656d2e427974655b5d2c53797374656d2e496e74333229, -- System.BitConverter.ToDouble(System.Byte[],System.Int32)
  0x53797374656d2e426974436f6e7665727465722e546f496e7431362853797374656d2e427974655b5d2c53797374656d2e496e74333229, -- System.BitConverter.ToInt16(System.Byte[],System.Int32)
  0x53797374656d2e426974436f6e7665727465722e546f496e7433322853797374656d2e427974655b5d2c53797374656d2e496e74333229, -- System.BitConverter.ToInt32(System.Byte[],System.Int32)
  0x53797374656d2e426974436f6e7665727465722e546f496e7436342853797374656d2e427974655b5d2c53797374656d2e496e74333229, -- System.BitConverter.ToInt64(System.Byte[],System.Int32)
  0x53797374656d2e426974436f6e7665727465722e546f53696e676c652853797374656d2e427974655b5d2c53797374656d2e496e74333229, -- System.BitConverter.ToSingle(System.Byte[],System.Int32)
  0x53797374656d2e426974436f6e7665727465722e546f537472696e672853797374656d2e427974655b5d29, -- System.BitConverter.ToString(System.Byte[])
  0x53797374656d2e426974436f6e7665727465722e546f537472696e672853797374656d2e427974655b5d2c53797374656d2e496e74333229, -- System.BitConverter.ToString(System.Byte[],System.Int32)
  0x53797374656d2e426974436f6e7665727465722e546f537472696e672853797374656d2e427974655b5d2c53797374656d2e496e7433322c53797374656d2e496e74333229, -- System.BitConverter.ToString(System.Byte[],System.Int32,System.Int32)
  0x53797374656d2e426974436f6e7665727465722e546f55496e7431362853797374656d2e427974655b5d2c53797374656d2e496e74333229, -- System.BitConverter.ToUInt16(System.Byte[],System.Int32)
  0x53797374656d2e426974436f6e7665727465722e546f55496e7433322853797374656d2e427974655b5d2c53797374656d2e496e74333229, -- System.BitConverter.ToUInt32(System.Byte[],System.Int32)
  0x53797374656d2e426974436f6e7665727465722e546f55496e7436342853797374656d2e427974655b5d2c53797374656d2e496e74333229, -- System.BitConverter.ToUInt64(System.Byte[],System.Int32)
  0x53797374656d2e426f6f6c65616e, -- System.Boolean
  0x53797374656d2e426f6f6c65616e5b2c2c5d, -- System.Boolean[,,]
  0x53797374656d2e426f6f6c65616e5b2c5d, -- System.Boolean[,]
  0x53797374656d2e426f6f6c65616e5b5d, -- System.Boolean[]
  0x53797374656d2e426f6f6c65616e2e436f6d70617265546f2853797374656d2e426f6f6c65616e29, -- System.Boolean.CompareTo(System.Boolean)
  0x53797374656d2e426f6f6c65616e2e436f6d70617265546f2853797374656d2e4f626a65637429, -- System.Boolean.CompareTo(System.Object)
  0x53797374656d2e426f6f6c65616e2e457175616c732853797374656d2e426f6f6c65616e29, -- System.Boolean.Equals(System.Boolean)
  0x53797374656d2e426f6f6c65616e2e457175616c732853797374656d2e4f626a65637429, -- System.Boolean.Equals(System.Object)
  0x53797374656d2e426f6f6c65616e2e50617273652853797374656d2e537472696e6729, -- System.Boolean.Parse(System.String)
  0x53797374656d2e426f6f6c65616e2e546f537472696e672829, -- System.Boolean.ToString()
  0x53797374656d2e427566666572, -- System.Buffer
  0x53797374656d2e4275666665722e426c6f636b436f70792853797374656d2e41727261792c53797374656d2e496e7433322c53797374656d2e41727261792c53797374656d2e496e7433322c53797374656d2e496e74333229, -- System.Buffer.BlockCopy(System.Array,System.Int32,System.Array,System.Int32,System.Int32)
  0x53797374656d2e4275666665722e427974654c656e6774682853797374656d2e417272617929, -- System.Buffer.ByteLength(System.Array)
  0x53797374656d2e4275666665722e476574427974652853797374656d2e41727261792c53797374656d2e496e74333229, -- System.Buffer.GetByte(System.Array,System.Int32)
  0x53797374656d2e4275666665722e536574427974652853797374656d2e41727261792c53797374656d2e496e7433322c53797374656d2e4279746529, -- System.Buffer.SetByte(System.Array,System.Int32,System.Byte)
  0x53797374656d2e42797465, -- System.Byte
  0x53797374656d2e427974655b2c2c5d, -- System.Byte[,,]
  0x53797374656d2e427974655b2c5d, -- System.Byte[,]
  0x53797374656d2e427974655b5d, -- System.Byte[]
  0x53797374656d2e427974652e436f6d70617265546f2853797374656d2e4279746529, -- System.Byte.CompareTo(System.Byte)
  0x53797374656d2e427974652e436f6d70617265546f2853797374656d2e4f626a65637429, -- System.Byte.CompareTo(System.Object)
  0x53797374656d2e427974652e457175616c732853797374656d2e4279746529, -- System.Byte.Equals(System.Byte)
  0x53797374656d2e427974652e457175616c732853797374656d2e4f626a65637429, -- System.Byte.Equals(System.Object)
  0x53797374656d2e427974652e50617273652853797374656d2e537472696e6729, -- System.Byte.Parse(System.String)
  0x53797374656d2e427974652e546f537472696e672829, -- System.Byte.ToString()
  0x53797374656d2e427974652e54727950617273652853797374656d2e537472696e672c53797374656d2e4279746529, -- System.Byte.TryParse(System.String,System.Byte)
  0x53797374656d2e43686172, -- System.Char
  0x53797374656d2e436861725b2c2c5d, -- System.Char[,,]
  0x53797374656d2e436861725b2c5d, -- System.Char[,]
  0x53797374656d2e436861725b5d, -- System.Char[]
  0x53797374656d2e436861722e436f6d70617265546f2853797374656d2e4368617229, -- System.Char.CompareTo(System.Char)
  0x53797374656d2e436861722e436f6d70617265546f2853797374656d2e4f626a65637429, -- System.Char.CompareTo(System.Object)
  0x53797374656d2e436861722e457175616c732853797374656d2e4368617229, -- System.Char.Equals(System.Char)
  0x53797374656d2e436861722e457175616c732853797374656d2e4f626a65637429, -- System.Char.Equals(System.Object)
  0x53797374656d2e436861722e4765744e756d6572696356616c75652853797374656d2e4368617229, -- System.Char.GetNumericValue(System.Char)
  0x53797374656d2e436861722e4765744e756d6572696356616c75652853797374656d2e537472696e672c53797374656d2e496e74333229, -- System.Char.GetNumericValue(System.String,System.Int32)
  0x53797374656d2e436861722e4973436f6e74726f6c2853797374656d2e4368617229, -- System.Char.IsControl(System.Char)
  0x53797374656d2e436861722e4973436f6e74726f6c2853797374656d2e537472696e672c53797374656d2e496e74333229, -- System.Char.IsControl(System.String,System.Int32)
  0x53797374656d2e436861722e497344696769742853797374656d2e4368617229, -- System.Char.IsDigit(System.Char)
  0x53797374656d2e436861722e497344696769742853797374656d2e537472696e672c53797374656d2e496e74333229, -- System.Char.IsDigit(System.String,System.Int32)
  0x53797374656d2e436861722e49734c65747465722853797374656d2e4368617229, -- System.Char.IsLetter(System.Char)
  0x53797374656d2e436861722e49734c65747465722853797374656d2e537472696e672c53797374656d2e496e74333229, -- System.Char.IsLetter(System.String,System.Int32)
  0x53797374656d2e436861722e49734c65747465724f7244696769742853797374656d2e4368617229, -- System.Char.IsLetterOrDigit(System.Char)
  0x53797374656d2e436861722e49734c65747465724f7244696769742853797374656d2e537472696e672c53797374656d2e496e74333229, -- System.Char.IsLetterOrDigit(System.String,System.Int32)
  0x53797374656d2e436861722e49734c6f7765722853797374656d2e4368617229, -- System.Char.IsLower(System.Char)
  0x53797374656d2e436861722e49734c6f7765722853797374656d2e537472696e672c53797374656d2e496e74333229, -- System.Char.IsLower(System.String,System.Int32)
  0x53797374656d2e436861722e49734e756d6265722853797374656d2e4368617229, -- System.Char.IsNumber(System.Char)
  0x53797374656d2e436861722e49734e756d6265722853797374656d2e537472696e672c53797374656d2e496e74333229, -- System.Char.IsNumber(System.String,System.Int32)
  0x53797374656d2e436861722e497350756e6374756174696f6e2853797374656d2e4368617229, -- System.Char.IsPunctuation(System.Char)
  0x53797374656d2e436861722e497350756e6374756174696f6e2853797374656d2e537472696e672c53797374656d2e496e74333229, -- System.Char.IsPunctuation(System.String,System.Int32)
  0x53797374656d2e436861722e4973536570617261746f722853797374656d2e4368617229, -- System.Char.IsSeparator(System.Char)
  0x53797374656d2e436861722e4973536570617261746f722853797374656d2e537472696e672c53797374656d2e496e74333229, -- System.Char.IsSeparator(System.String,System.Int32)
  0x53797374656d2e436861722e497355707065722853797374656d2e4368617229, -- System.Char.IsUpper(System.Char)
  0x53797374656d2e436861722e497355707065722853797374656d2e537472696e672c53797374656d2e496e74333229, -- System.Char.IsUpper(System.String,System.Int32)
  0x53797374656d2e436861722e4973576869746553706163652853797374656d2e4368617229, -- System.Char.IsWhiteSpace(System.Char)
  0x53797374656d2e436861722e4973576869746553706163652853797374656d2e537472696e672c53797374656d2e496e74333229, -- System.Char.IsWhiteSpace(System.String,System.Int32)
  0x53797374656d2e436861722e50617273652853797374656d2e537472696e6729, -- System.Char.Parse(System.String)
  0x53797374656d2e436861722e546f4c6f7765722853797374656d2e4368617229, -- System.Char.ToLower(System.Char)
  0x53797374656d2e436861722e546f537472696e672829, -- System.Char.ToString()
  0x53797374656d2e436861722e546f537472696e672853797374656d2e4368617229, -- System.Char.ToString(System.Char)
  0x53797374656d2e436861722e546f55707065722853797374656d2e4368617229, -- System.Char.ToUpper(System.Char)
  0x53797374656d2e436861722e54727950617273652853797374656d2e537472696e672c53797374656d2e4368617229, -- System.Char.TryParse(System.String,System.Char)
  0x53797374656d2e43686172456e756d657261746f72, -- System.CharEnumerator
  0x53797374656d2e43686172456e756d657261746f722e2e63746f722853797374656d2e537472696e6729, -- System.CharEnumerator..ctor(System.String)
  0x53797374656d2e43686172456e756d657261746f722e4d6f76654e6578742829, -- System.CharEnumerator.MoveNext()
  0x53797374656d2e43686172456e756d657261746f722e52657365742829, -- System.CharEnumerator.Reset()
  0x53797374656d2e43686172456e756d657261746f722e6765745f43757272656e742829, -- System.CharEnumerator.get_Current()
  0x53797374656d2e4461746554696d65, -- System.DateTime
  0x53797374656d2e4461746554696d655b2c2c5d, -- System.DateTime[,,]
  0x53797374656d2e4461746554696d655b2c5d, -- System.DateTime[,]
  0x53797374656d2e4461746554696d655b5d, -- System.DateTime[]
  0x53797374656d2e4461746554696d652e4164642853797374656d2e54696d655370616e29, -- System.DateTime.Add(System.TimeSpan)
  0x53797374656d2e4461746554696d652e416464446179732853797374656d2e446f75626c6529, -- System.DateTime.AddDays(System.Double)
  0x53797374656d2e4461746554696d652e416464486f7572732853797374656d2e446f75626c6529, -- System.DateTime.AddHours(System.Double)
  0x53797374656d2e4461746554696d652e4164644d696c6c697365636f6e64732853797374656d2e446f75626c6529, -- System.DateTime.AddMilliseconds(System.Double)
  0x53797374656d2e4461746554696d652e4164644d696e757465732853797374656d2e446f75626c6529, -- System.DateTime.AddMinutes(System.Double)
  0x53797374656d2e4461746554696d652e4164644d6f6e7468732853797374656d2e496e74333229, -- System.DateTime.AddMonths(System.Int32)
  0x53797374656d2e4461746554696d652e4164645365636f6e64732853797374656d2e446f75626c6529, -- System.DateTime.AddSeconds(System.Double)
  0x53797374656d2e4461746554696d652e4164645469636b732853797374656d2e496e74363429, -- System.DateTime.AddTicks(System.Int64)
  0x53797374656d2e4461746554696d652e41646459656172732853797374656d2e496e74333229, -- System.DateTime.AddYears(System.Int32)
  0x53797374656d2e4461746554696d652e436f6d706172652853797374656d2e4461746554696d652c53797374656d2e4461746554696d6529, -- System.DateTime.Compare(System.DateTime,System.DateTime)
  0x53797374656d2e4461746554696d652e436f6d70617265546f2853797374656d2e4461746554696d6529, -- System.DateTime.CompareTo(System.DateTime)
  0x53797374656d2e4461746554696d652e436f6d70617265546f2853797374656d2e4f626a65637429, -- System.DateTime.CompareTo(System.Object)
  0x53797374656d2e4461746554696d652e44617973496e4d6f6e74682853797374656d2e496e7433322c53797374656d2e496e74333229, -- System.DateTime.DaysInMonth(System.Int32,System.Int32)
  0x53797374656d2e4461746554696d652e457175616c732853797374656d2e4461746554696d6529, -- System.DateTime.Equals(System.DateTime)
  0x53797374656d2e4461746554696d652e457175616c732853797374656d2e4461746554696d652c53797374656d2e4461746554696d6529, -- System.DateTime.Equals(System.DateTime,System.DateTime)
  0x53797374656d2e4461746554696d652e457175616c732853797374656d2e4f626a65637429, -- System.DateTime.Equals(System.Object)
  0x53797374656d2e4461746554696d652e49734461796c69676874536176696e6754696d652829, -- System.DateTime.IsDaylightSavingTime()
  0x53797374656d2e4461746554696d652e49734c656170596561722853797374656d2e496e74333229, -- System.DateTime.IsLeapYear(System.Int32)
  0x53797374656d2e4461746554696d652e53756274726163742853797374656d2e4461746554696d6529, -- System.DateTime.Subtract(System.DateTime)
  0x53797374656d2e4461746554696d652e53756274726163742853797374656d2e54696d655370616e29, -- System.DateTime.Subtract(System.TimeSpan)
  0x53797374656d2e4461746554696d652e546f4c6f63616c54696d652829, -- System.DateTime.ToLocalTime()
  0x53797374656d2e4461746554696d652e546f537472696e672829, -- System.DateTime.ToString()
  0x53797374656d2e4461746554696d652e546f556e6976657273616c54696d652829, -- System.DateTime.ToUniversalTime()
  0x53797374656d2e4461746554696d652e6765745f446174652829, -- System.DateTime.get_Date()
  0x53797374656d2e4461746554696d652e6765745f4461792829, -- System.DateTime.get_Day()
  0x53797374656d2e4461746554696d652e6765745f4461794f665765656b2829, -- System.DateTime.get_DayOfWeek()
  0x53797374656d2e4461746554696d652e6765745f4461794f66596561722829, -- System.DateTime.get_DayOfYear()
  0x53797374656d2e4461746554696d652e6765745f486f75722829, -- System.DateTime.get_Hour()
  0x53797374656d2e4461746554696d652e6765745f4d696c6c697365636f6e642829, -- System.DateTime.get_Millisecond()
  0x53797374656d2e4461746554696d652e6765745f4d696e7574652829, -- System.DateTime.get_Minute()
  0x53797374656d2e4461746554696d652e6765745f4d6f6e74682829, -- System.DateTime.get_Month()
  0x53797374656d2e4461746554696d652e6765745f4e6f772829, -- System.DateTime.get_Now()
  0x53797374656d2e4461746554696d652e6765745f5365636f6e642829, -- System.DateTime.get_Second()
  0x53797374656d2e4461746554696d652e6765745f5469636b732829, -- System.DateTime.get_Ticks()
  0x53797374656d2e4461746554696d652e6765745f54696d654f664461792829, -- System.DateTime.get_TimeOfDay()
  0x53797374656d2e4461746554696d652e6765745f546f6461792829, -- System.DateTime.get_Today()
  0x53797374656d2e4461746554696d652e6765745f5574634e6f772829, -- System.DateTime.get_UtcNow()
  0x53797374656d2e4461746554696d652e6765745f596561722829, -- System.DateTime.get_Year()
  0x53797374656d2e4461746554696d652e6f705f4164646974696f6e2853797374656d2e4461746554696d652c53797374656d2e54696d655370616e29, -- System.DateTime.op_Addition(System.DateTime,System.TimeSpan)
  0x53797374656d2e4461746554696d652e6f705f457175616c6974792853797374656d2e4461746554696d652c53797374656d2e4461746554696d6529, -- System.DateTime.op_Equality(System.DateTime,System.DateTime)
  0x53797374656d2e4461746554696d652e6f705f477265617465725468616e2853797374656d2e4461746554696d652c53797374656d2e4461746554696d6529, -- System.DateTime.op_GreaterThan(System.DateTime,System.DateTime)
  0x53797374656d2e4461746554696d652e6f705f477265617465725468616e4f72457175616c2853797374656d2e4461746554696d652c53797374656d2e4461746554696d6529, -- System.DateTime.op_GreaterThanOrEqual(System.DateTime,System.DateTime)
  0x53797374656d2e4461746554696d652e6f705f496e657175616c6974792853797374656d2e4461746554696d652c53797374656d2e4461746554696d6529, -- System.DateTime.op_Inequality(System.DateTime,System.DateTime)
  0x53797374656d2e4461746554696d652e6f705f4c6573735468616e2853797374656d2e4461746554696d652c53797374656d2e4461746554696d6529, -- System.DateTime.op_LessThan(System.DateTime,System.DateTime)
  0x53797374656d2e4461746554696d652e6f705f4c6573735468616e4f72457175616c2853797374656d2e4461746554696d652c53797374656d2e4461746554696d6529, -- System.DateTime.op_LessThanOrEqual(System.DateTime,System.DateTime)
  0x53797374656d2e4461746554696d652e6f705f5375627472616374696f6e2853797374656d2e4461746554696d652c53797374656d2e4461746554696d6529, -- System.DateTime.op_Subtraction(System.DateTime,System.DateTime)
  0x53797374656d2e4461746554696d652e6f705f5375627472616374696f6e2853797374656d2e4461746554696d652c53797374656d2e54696d655370616e29, -- System.DateTime.op_Subtraction(System.DateTime,System.TimeSpan)
  0x53797374656d2e446f75626c65, -- System.Double
  0x53797374656d2e446f75626c655b2c2c5d, -- System.Double[,,]
  0x53797374656d2e446f75626c655b2c5d, -- System.Double[,]
  0x53797374656d2e446f75626c655b5d, -- System.Double[]
  0x53797374656d2e446f75626c652e436f6d70617265546f2853797374656d2e446f75626c6529, -- System.Double.CompareTo(System.Double)
  0x53797374656d2e446f75626c652e436f6d70617265546f2853797374656d2e4f626a65637429, -- System.Double.CompareTo(System.Object)
  0x53797374656d2e446f75626c652e457175616c732853797374656d2e446f75626c6529, -- System.Double.Equals(System.Double)
  0x53797374656d2e446f75626c652e457175616c732853797374656d2e4f626a65637429, -- System.Double.Equals(System.Object)
  0x53797374656d2e446f75626c652e497346696e6974652853797374656d2e446f75626c6529, -- System.Double.IsFinite(System.Double)
  0x53797374656d2e446f75626c652e4973496e66696e6974792853797374656d2e446f75626c6529, -- System.Double.IsInfinity(System.Double)
  0x53797374656d2e446f75626c652e49734e614e2853797374656d2e446f75626c6529, -- System.Double.IsNaN(System.Double)
  0x53797374656d2e446f75626c652e49734e656761746976652853797374656d2e446f75626c6529, -- System.Double.IsNegative(System.Double)
  0x53797374656d2e446f75626c652e49734e65676174697665496e66696e6974792853797374656d2e446f75626c6529, -- System.Double.IsNegativeInfinity(System.Double)
  0x53797374656d2e446f75626c652e49734e6f726d616c2853797374656d2e446f75626c6529, -- System.Double.IsNormal(System.Double)
  0x53797374656d2e446f75626c652e4973506f736974697665496e66696e6974792853797374656d2e446f75626c6529, -- System.Double.IsPositiveInfinity(System.Double)
  0x53797374656d2e446f75626c652e49735375626e6f726d616c2853797374656d2e446f75626c6529, -- System.Double.IsSubnormal(System.Double)
  0x53797374656d2e446f75626c652e50617273652853797374656d2e537472696e6729, -- System.Double.Parse(System.String)
  0x53797374656d2e446f75626c652e546f537472696e672829, -- System.Double.ToString()
  0x53797374656d2e446f75626c652e54727950617273652853797374656d2e537472696e672c53797374656d2e446f75626c6529, -- System.Double.TryParse(System.String,System.Double)
  0x53797374656d2e496e743136, -- System.Int16
  0x53797374656d2e496e7431365b2c2c5d, -- System.Int16[,,]
  0x53797374656d2e496e7431365b2c5d, -- System.Int16[,]
  0x53797374656d2e496e7431365b5d, -- System.Int16[]
  0x53797374656d2e496e7431362e436f6d70617265546f2853797374656d2e496e74313629, -- System.Int16.CompareTo(System.Int16)
  0x53797374656d2e496e7431362e436f6d70617265546f2853797374656d2e4f626a65637429, -- System.Int16.CompareTo(System.Object)
  0x53797374656d2e496e7431362e457175616c732853797374656d2e496e74313629, -- System.Int16.Equals(System.Int16)
  0x53797374656d2e496e7431362e457175616c732853797374656d2e4f626a65637429, -- System.Int16.Equals(System.Object)
  0x53797374656d2e496e7431362e50617273652853797374656d2e537472696e6729, -- System.Int16.Parse(System.String)
  0x53797374656d2e496e7431362e546f537472696e672829, -- System.Int16.ToString()
  0x53797374656d2e496e7431362e54727950617273652853797374656d2e537472696e672c53797374656d2e496e74313629, -- System.Int16.TryParse(System.String,System.Int16)
  0x53797374656d2e496e743332, -- System.Int32
  0x53797374656d2e496e7433325b2c2c5d, -- System.Int32[,,]
  0x53797374656d2e496e7433325b2c5d, -- System.Int32[,]
  0x53797374656d2e496e7433325b5d, -- System.Int32[]
  0x53797374656d2e496e7433322e436f6d70617265546f2853797374656d2e496e74333229, -- System.Int32.CompareTo(System.Int32)
  0x53797374656d2e496e7433322e436f6d70617265546f2853797374656d2e4f626a65637429, -- System.Int32.CompareTo(System.Object)
  0x53797374656d2e496e7433322e457175616c732853797374656d2e496e74333229, -- System.Int32.Equals(System.Int32)
  0x53797374656d2e496e7433322e457175616c732853797374656d2e4f626a65637429, -- System.Int32.Equals(System.Object)
  0x53797374656d2e496e7433322e50617273652853797374656d2e537472696e6729, -- System.Int32.Parse(System.String)
  0x53797374656d2e496e7433322e546f537472696e672829, -- System.Int32.ToString()
  0x53797374656d2e496e7433322e54727950617273652853797374656d2e537472696e672c53797374656d2e496e74333229, -- System.Int32.TryParse(System.String,System.Int32)
  0x53797374656d2e496e743634, -- System.Int64
  0x53797374656d2e496e7436345b2c2c5d, -- System.Int64[,,]
  0x53797374656d2e496e7436345b2c5d, -- System.Int64[,]
  0x53797374656d2e496e7436345b5d, -- System.Int64[]
  0x53797374656d2e496e7436342e436f6d70617265546f2853797374656d2e496e74363429, -- System.Int64.CompareTo(System.Int64)
  0x53797374656d2e496e7436342e436f6d70617265546f2853797374656d2e4f626a65637429, -- System.Int64.CompareTo(System.Object)
  0x53797374656d2e496e7436342e457175616c732853797374656d2e496e74363429, -- System.Int64.Equals(System.Int64)
  0x53797374656d2e496e7436342e457175616c732853797374656d2e4f626a65637429, -- System.Int64.Equals(System.Object)
  0x53797374656d2e496e7436342e50617273652853797374656d2e537472696e6729, -- System.Int64.Parse(System.String)
  0x53797374656d2e496e7436342e546f537472696e672829, -- System.Int64.ToString()
  0x53797374656d2e496e7436342e54727950617273652853797374656d2e537472696e672c53797374656d2e496e74363429, -- System.Int64.TryParse(System.String,System.Int64)
  0x53797374656d2e4d617468, -- System.Math
  0x53797374656d2e4d6174682e4162732853797374656d2e446f75626c6529, -- System.Math.Abs(System.Double)
  0x53797374656d2e4d6174682e4162732853797374656d2e496e74313629, -- System.Math.Abs(System.Int16)
  0x53797374656d2e4d6174682e4162732853797374656d2e496e74333229, -- System.Math.Abs(System.Int32)
  0x53797374656d2e4d6174682e4162732853797374656d2e496e74363429, -- System.Math.Abs(System.Int64)
  0x53797374656d2e4d6174682e4162732853797374656d2e534279746529, -- System.Math.Abs(System.SByte)
  0x53797374656d2e4d6174682e4162732853797374656d2e53696e676c6529, -- System.Math.Abs(System.Single)
  0x53797374656d2e4d6174682e41636f732853797374656d2e446f75626c6529, -- System.Math.Acos(System.Double)
  0x53797374656d2e4d6174682e41636f73682853797374656d2e446f75626c6529, -- System.Math.Acosh(System.Double)
  0x53797374656d2e4d6174682e4173696e2853797374656d2e446f75626c6529, -- System.Math.Asin(System.Double)
  0x53797374656d2e4d6174682e4173696e682853797374656d2e446f75626c6529, -- System.Math.Asinh(System.Double)
  0x53797374656d2e4d6174682e4174616e2853797374656d2e446f75626c6529, -- System.Math.Atan(System.Double)
  0x53797374656d2e4d6174682e4174616e322853797374656d2e446f75626c652c53797374656d2e446f75626c6529, -- System.Math.Atan2(System.Double,System.Double)
  0x53797374656d2e4d6174682e4174616e682853797374656d2e446f75626c6529, -- System.Math.Atanh(System.Double)
  0x53797374656d2e4d6174682e4269674d756c2853797374656d2e496e7433322c53797374656d2e496e74333229, -- System.Math.BigMul(System.Int32,System.Int32)
  0x53797374656d2e4d6174682e42697444656372656d656e742853797374656d2e446f75626c6529, -- System.Math.BitDecrement(System.Double)
  0x53797374656d2e4d6174682e426974496e6372656d656e742853797374656d2e446f75626c6529, -- System.Math.BitIncrement(System.Double)
  0x53797374656d2e4d6174682e436272742853797374656d2e446f75626c6529, -- System.Math.Cbrt(System.Double)
  0x53797374656d2e4d6174682e4365696c696e672853797374656d2e446f75626c6529, -- System.Math.Ceiling(System.Double)
  0x53797374656d2e4d6174682e436c616d702853797374656d2e427974652c53797374656d2e427974652c53797374656d2e4279746529, -- System.Math.Clamp(System.Byte,System.Byte,System.Byte)
  0x53797374656d2e4d6174682e436c616d702853797374656d2e446f75626c652c53797374656d2e446f75626c652c53797374656d2e446f75626c6529, -- System.Math.Clamp(System.Double,System.Double,System.Double)
  0x53797374656d2e4d6174682e436c616d702853797374656d2e496e7431362c53797374656d2e496e7431362c53797374656d2e496e74313629, -- System.Math.Clamp(System.Int16,System.Int16,System.Int16)
  0x53797374656d2e4d6174682e436c616d702853797374656d2e496e7433322c53797374656d2e496e7433322c53797374656d2e496e74333229, -- System.Math.Clamp(System.Int32,System.Int32,System.Int32)
  0x53797374656d2e4d6174682e436c616d702853797374656d2e496e7436342c53797374656d2e496e7436342c53797374656d2e496e74363429, -- System.Math.Clamp(System.Int64,System.Int64,System.Int64)
  0x53797374656d2e4d6174682e436c616d702853797374656d2e53427974652c53797374656d2e53427974652c53797374656d2e534279746529, -- System.Math.Clamp(System.SByte,System.SByte,System.SByte)
  0x53797374656d2e4d6174682e436c616d702853797374656d2e55496e7431362c53797374656d2e55496e7431362c53797374656d2e55496e74313629, -- System.Math.Clamp(System.UInt16,System.UInt16,System.UInt16)
  0x53797374656d2e4d6174682e436c616d702853797374656d2e55496e7433322c53797374656d2e55496e7433322c53797374656d2e55496e74333229, -- System.Math.Clamp(System.UInt32,System.UInt32,System.UInt32)
  0x53797374656d2e4d6174682e436c616d702853797374656d2e55496e7436342c53797374656d2e55496e7436342c53797374656d2e55496e74363429, -- System.Math.Clamp(System.UInt64,System.UInt64,System.UInt64)
  0x53797374656d2e4d6174682e436f70795369676e2853797374656d2e446f75626c652c53797374656d2e446f75626c6529, -- System.Math.CopySign(System.Double,System.Double)
  0x53797374656d2e4d6174682e436f732853797374656d2e446f75626c6529, -- System.Math.Cos(System.Double)
  0x53797374656d2e4d6174682e436f73682853797374656d2e446f75626c6529, -- System.Math.Cosh(System.Double)
  0x53797374656d2e4d6174682e44697652656d2853797374656d2e496e7433322c53797374656d2e496e7433322c53797374656d2e496e74333229, -- System.Math.DivRem(System.Int32,System.Int32,System.Int32)
  0x53797374656d2e4d6174682e44697652656d2853797374656d2e496e7436342c53797374656d2e496e7436342c53797374656d2e496e74363429, -- System.Math.DivRem(System.Int64,System.Int64,System.Int64)
  0x53797374656d2e4d6174682e4578702853797374656d2e446f75626c6529, -- System.Math.Exp(System.Double)
  0x53797374656d2e4d6174682e466c6f6f722853797374656d2e446f75626c6529, -- System.Math.Floor(System.Double)
  0x53797374656d2e4d6174682e46757365644d756c7469706c794164642853797374656d2e446f75626c652c53797374656d2e446f75626c652c53797374656d2e446f75626c6529, -- System.Math.FusedMultiplyAdd(System.Double,System.Double,System.Double)
  0x53797374656d2e4d6174682e4945454552656d61696e6465722853797374656d2e446f75626c652c53797374656d2e446f75626c6529, -- System.Math.IEEERemainder(System.Double,System.Double)
  0x53797374656d2e4d6174682e494c6f67422853797374656d2e446f75626c6529, -- System.Math.ILogB(System.Double)
  0x53797374656d2e4d6174682e4c6f672853797374656d2e446f75626c6529, -- System.Math.Log(System.Double)
  0x53797374656d2e4d6174682e4c6f672853797374656d2e446f75626c652c53797374656d2e446f75626c6529, -- System.Math.Log(System.Double,System.Double)
  0x53797374656d2e4d6174682e4c6f67322853797374656d2e446f75626c6529, -- System.Math.Log2(System.Double)
  0x53797374656d2e4d6174682e4c6f6731302853797374656d2e446f75626c6529, -- System.Math.Log10(System.Double)
  0x53797374656d2e4d6174682e4d61782853797374656d2e427974652c53797374656d2e4279746529, -- System.Math.Max(System.Byte,System.Byte)
  0x53797374656d2e4d6174682e4d61782853797374656d2e446f75626c652c53797374656d2e446f75626c6529, -- System.Math.Max(System.Double,System.Double)
  0x53797374656d2e4d6174682e4d61782853797374656d2e496e7431362c53797374656d2e496e74313629, -- System.Math.Max(System.Int16,System.Int16)
  0x53797374656d2e4d6174682e4d61782853797374656d2e496e7433322c53797374656d2e496e74333229, -- System.Math.Max(System.Int32,System.Int32)
  0x53797374656d2e4d6174682e4d61782853797374656d2e496e7436342c53797374656d2e496e74363429, -- System.Math.Max(System.Int64,System.Int64)
  0x53797374656d2e4d6174682e4d61782853797374656d2e53427974652c53797374656d2e534279746529, -- System.Math.Max(System.SByte,System.SByte)
  0x53797374656d2e4d6174682e4d61782853797374656d2e53696e676c652c53797374656d2e53696e676c6529, -- System.Math.Max(System.Single,System.Single)
  0x53797374656d2e4d6174682e4d61782853797374656d2e55496e7431362c53797374656d2e55496e74313629, -- System.Math.Max(System.UInt16,System.UInt16)
  0x53797374656d2e4d6174682e4d61782853797374656d2e55496e7433322c53797374656d2e55496e74333229, -- System.Math.Max(System.UInt32,System.UInt32)
  0x53797374656d2e4d6174682e4d61782853797374656d2e55496e7436342c53797374656d2e55496e74363429, -- System.Math.Max(System.UInt64,System.UInt64)
  0x53797374656d2e4d6174682e4d61784d61676e69747564652853797374656d2e446f75626c652c53797374656d2e446f75626c6529, -- System.Math.MaxMagnitude(System.Double,System.Double)
  0x53797374656d2e4d6174682e4d696e2853797374656d2e427974652c53797374656d2e4279746529, -- System.Math.Min(System.Byte,System.Byte)
  0x53797374656d2e4d6174682e4d696e2853797374656d2e446f75626c652c53797374656d2e446f75626c6529, -- System.Math.Min(System.Double,System.Double)
  0x53797374656d2e4d6174682e4d696e2853797374656d2e496e7431362c53797374656d2e496e74313629, -- System.Math.Min(System.Int16,System.Int16)
  0x53797374656d2e4d6174682e4d696e2853797374656d2e496e7433322c53797374656d2e496e74333229, -- System.Math.Min(System.Int32,System.Int32)
  0x53797374656d2e4d6174682e4d696e2853797374656d2e496e7436342c53797374656d2e496e74363429, -- System.Math.Min(System.Int64,System.Int64)
  0x53797374656d2e4d6174682e4d696e2853797374656d2e53427974652c53797374656d2e534279746529, -- System.Math.Min(System.SByte,System.SByte)
  0x53797374656d2e4d6174682e4d696e2853797374656d2e53696e676c652c53797374656d2e53696e676c6529, -- System.Math.Min(System.Single,System.Single)
  0x53797374656d2e4d6174682e4d696e2853797374656d2e55496e7431362c53797374656d2e55496e74313629, -- System.Math.Min(System.UInt16,System.UInt16)
  0x53797374656d2e4d6174682e4d696e2853797374656d2e55496e7433322c53797374656d2e55496e74333229, -- System.Math.Min(System.UInt32,System.UInt32)
  0x53797374656d2e4d6174682e4d696e2853797374656d2e55496e7436342c53797374656d2e55496e74363429, -- System.Math.Min(System.UInt64,System.UInt64)
  0x53797374656d2e4d6174682e4d696e4d61676e69747564652853797374656d2e446f75626c652c53797374656d2e446f75626c6529, -- System.Math.MinMagnitude(System.Double,System.Double)
  0x53797374656d2e4d6174682e506f772853797374656d2e446f75626c652c53797374656d2e446f75626c6529, -- System.Math.Pow(System.Double,System.Double)
  0x53797374656d2e4d6174682e526f756e642853797374656d2e446f75626c6529, -- System.Math.Round(System.Double)
  0x53797374656d2e4d6174682e526f756e642853797374656d2e446f75626c652c53797374656d2e496e74333229, -- System.Math.Round(System.Double,System.Int32)
  0x53797374656d2e4d6174682e526f756e642853797374656d2e446f75626c652c53797374656d2e496e7433322c53797374656d2e4d6964706f696e74526f756e64696e6729, -- System.Math.Round(System.Double,System.Int32,System.MidpointRounding)
  0x53797374656d2e4d6174682e5363616c65422853797374656d2e446f75626c652c53797374656d2e496e74333229, -- System.Math.ScaleB(System.Double,System.Int32)
  0x53797374656d2e4d6174682e5369676e2853797374656d2e446f75626c6529, -- System.Math.Sign(System.Double)
  0x53797374656d2e4d6174682e5369676e2853797374656d2e496e74313629, -- System.Math.Sign(System.Int16)
  0x53797374656d2e4d6174682e5369676e2853797374656d2e496e74333229, -- System.Math.Sign(System.Int32)
  0x53797374656d2e4d6174682e5369676e2853797374656d2e496e74363429, -- System.Math.Sign(System.Int64)
  0x53797374656d2e4d6174682e5369676e2853797374656d2e534279746529, -- System.Math.Sign(System.SByte)
  0x53797374656d2e4d6174682e5369676e2853797374656d2e53696e676c6529, -- System.Math.Sign(System.Single)
  0x53797374656d2e4d6174682e53696e2853797374656d2e446f75626c6529, -- System.Math.Sin(System.Double)
  0x53797374656d2e4d6174682e53696e682853797374656d2e446f75626c6529, -- System.Math.Sinh(System.Double)
  0x53797374656d2e4d6174682e537172742853797374656d2e446f75626c6529, -- System.Math.Sqrt(System.Double)
  0x53797374656d2e4d6174682e54616e2853797374656d2e446f75626c6529, -- System.Math.Tan(System.Double)
  0x53797374656d2e4d6174682e54616e682853797374656d2e446f75626c6529, -- System.Math.Tanh(System.Double)
  0x53797374656d2e4d6174682e5472756e636174652853797374656d2e446f75626c6529, -- System.Math.Truncate(System.Double)
  0x53797374656d2e4f626a656374, -- System.Object
  0x53797374656d2e4f626a6563745b2c2c5d, -- System.Object[,,]
  0x53797374656d2e4f626a6563745b2c5d, -- System.Object[,]
  0x53797374656d2e4f626a6563745b5d, -- System.Object[]
  0x53797374656d2e4f626a6563742e2e63746f722829, -- System.Object..ctor()
  0x53797374656d2e4f626a6563742e457175616c732853797374656d2e4f626a65637429, -- System.Object.Equals(System.Object)
  0x53797374656d2e4f626a6563742e457175616c732853797374656d2e4f626a6563742c53797374656d2e4f626a65637429, -- System.Object.Equals(System.Object,System.Object)
  0x53797374656d2e4f626a6563742e546f537472696e672829, -- System.Object.ToString()
  0x53797374656d2e5342797465, -- System.SByte
  0x53797374656d2e53427974655b2c2c5d, -- System.SByte[,,]
  0x53797374656d2e53427974655b2c5d, -- System.SByte[,]
  0x53797374656d2e53427974655b5d, -- System.SByte[]
  0x53797374656d2e53427974652e436f6d70617265546f2853797374656d2e4f626a65637429, -- System.SByte.CompareTo(System.Object)
  0x53797374656d2e53427974652e436f6d70617265546f2853797374656d2e534279746529, -- System.SByte.CompareTo(System.SByte)
  0x53797374656d2e53427974652e457175616c732853797374656d2e4f626a65637429, -- System.SByte.Equals(System.Object)
  0x53797374656d2e53427974652e457175616c732853797374656d2e534279746529, -- System.SByte.Equals(System.SByte)
  0x53797374656d2e53427974652e50617273652853797374656d2e537472696e6729, -- System.SByte.Parse(System.String)
  0x53797374656d2e53427974652e546f537472696e672829, -- System.SByte.ToString()
  0x53797374656d2e53427974652e54727950617273652853797374656d2e537472696e672c53797374656d2e534279746529, -- System.SByte.TryParse(System.String,System.SByte)
  0x53797374656d2e53696e676c65, -- System.Single
  0x53797374656d2e53696e676c655b2c2c5d, -- System.Single[,,]
  0x53797374656d2e53696e676c655b2c5d, -- System.Single[,]
  0x53797374656d2e53696e676c655b5d, -- System.Single[]
  0x53797374656d2e53696e676c652e436f6d70617265546f2853797374656d2e4f626a65637429, -- System.Single.CompareTo(System.Object)
  0x53797374656d2e53696e676c652e436f6d70617265546f2853797374656d2e53696e676c6529, -- System.Single.CompareTo(System.Single)
  0x53797374656d2e53696e676c652e457175616c732853797374656d2e4f626a65637429, -- System.Single.Equals(System.Object)
  0x53797374656d2e53696e676c652e457175616c732853797374656d2e53696e676c6529, -- System.Single.Equals(System.Single)
  0x53797374656d2e53696e676c652e497346696e6974652853797374656d2e53696e676c6529, -- System.Single.IsFinite(System.Single)
  0x53797374656d2e53696e676c652e4973496e66696e6974792853797374656d2e53696e676c6529, -- System.Single.IsInfinity(System.Single)
  0x53797374656d2e53696e676c652e49734e614e2853797374656d2e53696e676c6529, -- System.Single.IsNaN(System.Single)
  0x53797374656d2e53696e676c652e49734e656761746976652853797374656d2e53696e676c6529, -- System.Single.IsNegative(System.Single)
  0x53797374656d2e53696e676c652e49734e65676174697665496e66696e6974792853797374656d2e53696e676c6529, -- System.Single.IsNegativeInfinity(System.Single)
  0x53797374656d2e53696e676c652e49734e6f726d616c2853797374656d2e53696e676c6529, -- System.Single.IsNormal(System.Single)
  0x53797374656d2e53696e676c652e4973506f736974697665496e66696e6974792853797374656d2e53696e676c6529, -- System.Single.IsPositiveInfinity(System.Single)
  0x53797374656d2e53696e676c652e49735375626e6f726d616c2853797374656d2e53696e676c6529, -- System.Single.IsSubnormal(System.Single)
  0x53797374656d2e53696e676c652e50617273652853797374656d2e537472696e6729, -- System.Single.Parse(System.String)
  0x53797374656d2e53696e676c652e546f537472696e672829, -- System.Single.ToString()
  0x53797374656d2e53696e676c652e54727950617273652853797374656d2e537472696e672c53797374656d2e53696e676c6529, -- System.Single.TryParse(System.String,System.Single)
  0x53797374656d2e537472696e67, -- System.String
  0x53797374656d2e537472696e675b2c2c5d, -- System.String[,,]
  0x53797374656d2e537472696e675b2c5d, -- System.String[,]
  0x53797374656d2e537472696e675b5d, -- System.String[]
  0x53797374656d2e537472696e672e436f6d706172652853797374656d2e537472696e672c53797374656d2e496e7433322c53797374656d2e537472696e672c53797374656d2e496e7433322c53797374656d2e496e74333229, -- System.String.Compare(System.String,System.Int32,System.String,System.Int32,System.Int32)
  0x53797374656d2e537472696e672e436f6d706172652853797374656d2e537472696e672c53797374656d2e496e7433322c53797374656d2e537472696e672c53797374656d2e496e7433322c53797374656d2e496e7433322c53797374656d2e426f6f6c65616e29, -- System.String.Compare(System.String,System.Int32,System.String,System.Int32,System.Int32,System.Boolean)
  0x53797374656d2e537472696e672e436f6d706172652853797374656d2e537472696e672c53797374656d2e537472696e6729, -- System.String.Compare(System.String,System.String)
  0x53797374656d2e537472696e672e436f6d706172652853797374656d2e537472696e672c53797374656d2e537472696e672c53797374656d2e426f6f6c65616e29, -- System.String.Compare(System.String,System.String,System.Boolean)
  0x53797374656d2e537472696e672e436f6d706172654f7264696e616c2853797374656d2e537472696e672c53797374656d2e496e7433322c53797374656d2e537472696e672c53797374656d2e496e7433322c53797374656d2e496e74333229, -- System.String.CompareOrdinal(System.String,System.Int32,System.String,System.Int32,System.Int32)
  0x53797374656d2e537472696e672e436f6d706172654f7264696e616c2853797374656d2e537472696e672c53797374656d2e537472696e6729, -- System.String.CompareOrdinal(System.String,System.String)
  0x53797374656d2e537472696e672e436f6d70617265546f2853797374656d2e4f626a65637429, -- System.String.CompareTo(System.Object)
  0x53797374656d2e537472696e672e436f6d70617265546f2853797374656d2e537472696e6729, -- System.String.CompareTo(System.String)
  0x53797374656d2e537472696e672e436f6e6361742853797374656d2e4f626a6563742c53797374656d2e4f626a65637429, -- System.String.Concat(System.Object,System.Object)
  0x53797374656d2e537472696e672e436f6e6361742853797374656d2e4f626a6563742c53797374656d2e4f626a6563742c53797374656d2e4f626a65637429, -- System.String.Concat(System.Object,System.Object,System.Object)
  0x53797374656d2e537472696e672e436f6e6361742853797374656d2e4f626a6563742c53797374656d2e4f626a6563742c53797374656d2e4f626a6563742c53797374656d2e4f626a65637429, -- System.String.Concat(System.Object,System.Object,System.Object,System.Object)
  0x53797374656d2e537472696e672e436f6e6361742853797374656d2e4f626a6563742c53797374656d2e4f626a6563742c53797374656d2e4f626a6563742c53797374656d2e4f626a6563742c53797374656d2e4f626a65637429, -- System.String.Concat(System.Object,System.Object,System.Object,System.Object,System.Object)
  0x53797374656d2e537472696e672e436f6e6361742853797374656d2e4f626a6563742c53797374656d2e4f626a6563742c53797374656d2e4f626a6563742c53797374656d2e4f626a6563742c53797374656d2e4f626a6563742c53797374656d2e4f626a65637429, -- System.String.Concat(System.Object,System.Object,System.Object,System.Object,System.Object,System.Object)
  0x53797374656d2e537472696e672e436f6e6361742853797374656d2e4f626a6563742c53797374656d2e4f626a6563742c53797374656d2e4f626a6563742c53797374656d2e4f626a6563742c53797374656d2e4f626a6563742c53797374656d2e4f626a6563742c53797374656d2e4f626a65637429, -- System.String.Concat(System.Object,System.Object,System.Object,System.Object,System.Object,System.Object,System.Object)
  0x53797374656d2e537472696e672e436f6e6361742853797374656d2e4f626a6563745b5d29, -- System.String.Concat(System.Object[])
  0x53797374656d2e537472696e672e436f6e6361742853797374656d2e537472696e672c53797374656d2e537472696e6729, -- System.String.Concat(System.String,System.String)
  0x53797374656d2e537472696e672e436f6e6361742853797374656d2e537472696e672c53797374656d2e537472696e672c53797374656d2e537472696e6729, -- System.String.Concat(System.String,System.String,System.String)
  0x53797374656d2e537472696e672e436f6e6361742853797374656d2e537472696e672c53797374656d2e537472696e672c53797374656d2e537472696e672c53797374656d2e537472696e6729, -- System.String.Concat(System.String,System.String,System.String,System.String)
  0x53797374656d2e537472696e672e436f6e6361742853797374656d2e537472696e672c53797374656d2e537472696e672c53797374656d2e537472696e672c53797374656d2e537472696e672c53797374656d2e537472696e6729, -- System.String.Concat(System.String,System.String,System.String,System.String,System.String)
  0x53797374656d2e537472696e672e436f6e6361742853797374656d2e537472696e672c53797374656d2e537472696e672c53797374656d2e537472696e672c53797374656d2e537472696e672c53797374656d2e537472696e672c53797374656d2e537472696e6729, -- System.String.Concat(System.String,System.String,System.String,System.String,System.String,System.String)
  0x53797374656d2e537472696e672e436f6e6361742853797374656d2e537472696e672c53797374656d2e537472696e672c53797374656d2e537472696e672c53797374656d2e537472696e672c53797374656d2e537472696e672c53797374656d2e537472696e672c53797374656d2e537472696e6729, -- System.String.Concat(System.String,System.String,System.String,System.String,System.String,System.String,System.String)
  0x53797374656d2e537472696e672e436f6e6361742853797374656d2e537472696e675b5d29, -- System.String.Concat(System.String[])
  0x53797374656d2e537472696e672e436f6e7461696e732853797374656d2e537472696e6729, -- System.String.Contains(System.String)
  0x53797374656d2e537472696e672e436f70792853797374656d2e537472696e6729, -- System.String.Copy(System.String)
  0x53797374656d2e537472696e672e436f7079546f2853797374656d2e496e7433322c53797374656d2e436861725b5d2c53797374656d2e496e7433322c53797374656d2e496e74333229, -- System.String.CopyTo(System.Int32,System.Char[],System.Int32,System.Int32)
  0x53797374656d2e537472696e672e456e6473576974682853797374656d2e4368617229, -- System.String.EndsWith(System.Char)
  0x53797374656d2e537472696e672e456e6473576974682853797374656d2e537472696e6729, -- System.String.EndsWith(System.String)
  0x53797374656d2e537472696e672e457175616c732853797374656d2e537472696e6729, -- System.String.Equals(System.String)
  0x53797374656d2e537472696e672e457175616c732853797374656d2e537472696e672c53797374656d2e537472696e6729, -- System.String.Equals(System.String,System.String)
  0x53797374656d2e537472696e672e476574456e756d657261746f722829, -- System.String.GetEnumerator()
  0x53797374656d2e537472696e672e496e6465784f662853797374656d2e4368617229, -- System.String.IndexOf(System.Char)
  0x53797374656d2e537472696e672e496e6465784f662853797374656d2e436861722c53797374656d2e496e74333229, -- System.String.IndexOf(System.Char,System.Int32)
  0x53797374656d2e537472696e672e496e6465784f662853797374656d2e436861722c53797374656d2e496e7433322c53797374656d2e496e74333229, -- System.String.IndexOf(System.Char,System.Int32,System.Int32)
  0x53797374656d2e537472696e672e496e6465784f662853797374656d2e537472696e6729, -- System.String.IndexOf(System.String)
  0x53797374656d2e537472696e672e496e6465784f662853797374656d2e537472696e672c53797374656d2e496e74333229, -- System.String.IndexOf(System.String,System.Int32)
  0x53797374656d2e537472696e672e496e6465784f662853797374656d2e537472696e672c53797374656d2e496e7433322c53797374656d2e496e74333229, -- System.String.IndexOf(System.String,System.Int32,System.Int32)
  0x53797374656d2e537472696e672e496e6465784f66416e792853797374656d2e436861725b5d29, -- System.String.IndexOfAny(System.Char[])
  0x53797374656d2e537472696e672e496e6465784f66416e792853797374656d2e436861725b5d2c53797374656d2e496e74333229, -- System.String.IndexOfAny(System.Char[],System.Int32)
  0x53797374656d2e537472696e672e496e6465784f66416e792853797374656d2e436861725b5d2c53797374656d2e496e7433322c53797374656d2e496e74333229, -- System.String.IndexOfAny(System.Char[],System.Int32,System.Int32)
  0x53797374656d2e537472696e672e496e736572742853797374656d2e496e7433322c53797374656d2e537472696e6729, -- System.String.Insert(System.Int32,System.String)
  0x53797374656d2e537472696e672e49734e756c6c4f72456d7074792853797374656d2e537472696e6729, -- System.String.IsNullOrEmpty(System.String)
  0x53797374656d2e537472696e672e49734e756c6c4f72576869746553706163652853797374656d2e537472696e6729, -- System.String.IsNullOrWhiteSpace(System.String)
  0x53797374656d2e537472696e672e4a6f696e2853797374656d2e436861722c53797374656d2e4f626a6563745b5d29, -- System.String.Join(System.Char,System.Object[])
  0x53797374656d2e537472696e672e4a6f696e2853797374656d2e436861722c53797374656d2e537472696e675b5d29, -- System.String.Join(System.Char,System.String[])
  0x53797374656d2e537472696e672e4a6f696e2853797374656d2e436861722c53797374656d2e537472696e675b5d2c53797374656d2e496e7433322c53797374656d2e496e74333229, -- System.String.Join(System.Char,System.String[],System.Int32,System.Int32)
  0x53797374656d2e537472696e672e4a6f696e2853797374656d2e537472696e672c53797374656d2e4f626a6563745b5d29, -- System.String.Join(System.String,System.Object[])
  0x53797374656d2e537472696e672e4a6f696e2853797374656d2e537472696e672c53797374656d2e537472696e675b5d29, -- System.String.Join(System.String,System.String[])
  0x53797374656d2e537472696e672e4a6f696e2853797374656d2e537472696e672c53797374656d2e537472696e675b5d2c53797374656d2e496e7433322c53797374656d2e496e74333229, -- System.String.Join(System.String,System.String[],System.Int32,System.Int32)
  0x53797374656d2e537472696e672e4c617374496e6465784f662853797374656d2e4368617229, -- System.String.LastIndexOf(System.Char)
  0x53797374656d2e537472696e672e4c617374496e6465784f662853797374656d2e436861722c53797374656d2e496e74333229, -- System.String.LastIndexOf(System.Char,System.Int32)
  0x53797374656d2e537472696e672e4c617374496e6465784f662853797374656d2e436861722c53797374656d2e496e7433322c53797374656d2e496e74333229, -- System.String.LastIndexOf(System.Char,System.Int32,System.Int32)
  0x53797374656d2e537472696e672e4c617374496e6465784f662853797374656d2e537472696e6729, -- System.String.LastIndexOf(System.String)
  0x53797374656d2e537472696e672e4c617374496e6465784f662853797374656d2e537472696e672c53797374656d2e496e74333229, -- System.String.LastIndexOf(System.String,System.Int32)
  0x53797374656d2e537472696e672e4c617374496e6465784f662853797374656d2e537472696e672c53797374656d2e496e7433322c53797374656d2e496e74333229, -- System.String.LastIndexOf(System.String,System.Int32,System.Int32)
  0x53797374656d2e537472696e672e4c617374496e6465784f66416e792853797374656d2e436861725b5d29, -- System.String.LastIndexOfAny(System.Char[])
  0x53797374656d2e537472696e672e4c617374496e6465784f66416e792853797374656d2e436861725b5d2c53797374656d2e496e74333229, -- System.String.LastIndexOfAny(System.Char[],System.Int32)
  0x53797374656d2e537472696e672e4c617374496e6465784f66416e792853797374656d2e436861725b5d2c53797374656d2e496e7433322c53797374656d2e496e74333229, -- System.String.LastIndexOfAny(System.Char[],System.Int32,System.Int32)
  0x53797374656d2e537472696e672e5061644c6566742853797374656d2e496e74333229, -- System.String.PadLeft(System.Int32)
  0x53797374656d2e537472696e672e5061644c6566742853797374656d2e496e7433322c53797374656d2e4368617229, -- System.String.PadLeft(System.Int32,System.Char)
  0x53797374656d2e537472696e672e50616452696768742853797374656d2e496e74333229, -- System.String.PadRight(System.Int32)
  0x53797374656d2e537472696e672e50616452696768742853797374656d2e496e7433322c53797374656d2e4368617229, -- System.String.PadRight(System.Int32,System.Char)
  0x53797374656d2e537472696e672e52656d6f76652853797374656d2e496e74333229, -- System.String.Remove(System.Int32)
  0x53797374656d2e537472696e672e52656d6f76652853797374656d2e496e7433322c53797374656d2e496e74333229, -- System.String.Remove(System.Int32,System.Int32)
  0x53797374656d2e537472696e672e5265706c6163652853797374656d2e436861722c53797374656d2e4368617229, -- System.String.Replace(System.Char,System.Char)
  0x53797374656d2e537472696e672e5265706c6163652853797374656d2e537472696e672c53797374656d2e537472696e6729, -- System.String.Replace(System.String,System.String)
  0x53797374656d2e537472696e672e537461727473576974682853797374656d2e537472696e6729, -- System.String.StartsWith(System.String)
  0x53797374656d2e537472696e672e537562737472696e672853797374656d2e496e74333229, -- System.String.Substring(System.Int32)
  0x53797374656d2e537472696e672e537562737472696e672853797374656d2e496e7433322c53797374656d2e496e74333229, -- System.String.Substring(System.Int32,System.Int32)
  0x53797374656d2e537472696e672e546f4368617241727261792829, -- System.String.ToCharArray()
  0x53797374656d2e537472696e672e546f4368617241727261792853797374656d2e496e7433322c53797374656d2e496e74333229, -- System.String.ToCharArray(System.Int32,System.Int32)
  0x53797374656d2e537472696e672e546f4c6f7765722829, -- System.String.ToLower()
  0x53797374656d2e537472696e672e546f4c6f776572496e76617269616e742829, -- System.String.ToLowerInvariant()
  0x53797374656d2e537472696e672e546f537472696e672829, -- System.String.ToString()
  0x53797374656d2e537472696e672e546f55707065722829, -- System.String.ToUpper()
  0x53797374656d2e537472696e672e546f5570706572496e76617269616e742829, -- System.String.ToUpperInvariant()
  0x53797374656d2e537472696e672e5472696d2829, -- System.String.Trim()
  0x53797374656d2e537472696e672e5472696d2853797374656d2e436861725b5d29, -- System.String.Trim(System.Char[])
  0x53797374656d2e537472696e672e5472696d456e642853797374656d2e436861725b5d29, -- System.String.TrimEnd(System.Char[])
  0x53797374656d2e537472696e672e5472696d53746172742853797374656d2e436861725b5d29, -- System.String.TrimStart(System.Char[])
  0x53797374656d2e537472696e672e6765745f43686172732853797374656d2e496e74333229, -- System.String.get_Chars(System.Int32)
  0x53797374656d2e537472696e672e6765745f4c656e6774682829, -- System.String.get_Length()
  0x53797374656d2e537472696e672e6f705f457175616c6974792853797374656d2e537472696e672c53797374656d2e537472696e6729, -- System.String.op_Equality(System.String,System.String)
  0x53797374656d2e537472696e672e6f705f496d706c696369742853797374656d2e537472696e6729, -- System.String.op_Implicit(System.String)
  0x53797374656d2e537472696e672e6f705f496e657175616c6974792853797374656d2e537472696e672c53797374656d2e537472696e6729, -- System.String.op_Inequality(System.String,System.String)
  0x53797374656d2e546578742e537472696e674275696c646572, -- System.Text.StringBuilder
  0x53797374656d2e546578742e537472696e674275696c6465722e417070656e642853797374656d2e426f6f6c65616e29, -- System.Text.StringBuilder.Append(System.Boolean)
  0x53797374656d2e546578742e537472696e674275696c6465722e417070656e642853797374656d2e4279746529, -- System.Text.StringBuilder.Append(System.Byte)
  0x53797374656d2e546578742e537472696e674275696c6465722e417070656e642853797374656d2e4368617229, -- System.Text.StringBuilder.Append(System.Char)
  0x53797374656d2e546578742e537472696e674275696c6465722e417070656e642853797374656d2e436861722c53797374656d2e496e74333229, -- System.Text.StringBuilder.Append(System.Char,System.Int32)
  0x53797374656d2e546578742e537472696e674275696c6465722e417070656e642853797374656d2e436861725b5d29, -- System.Text.StringBuilder.Append(System.Char[])
  0x53797374656d2e546578742e537472696e674275696c6465722e417070656e642853797374656d2e436861725b5d2c53797374656d2e496e7433322c53797374656d2e496e74333229, -- System.Text.StringBuilder.Append(System.Char[],System.Int32,System.Int32)
  0x53797374656d2e546578742e537472696e674275696c6465722e417070656e642853797374656d2e446f75626c6529, -- System.Text.StringBuilder.Append(System.Double)
  0x53797374656d2e546578742e537472696e674275696c6465722e417070656e642853797374656d2e496e74313629, -- System.Text.StringBuilder.Append(System.Int16)
  0x53797374656d2e546578742e537472696e674275696c6465722e417070656e642853797374656d2e496e74333229, -- System.Text.StringBuilder.Append(System.Int32)
  0x53797374656d2e546578742e537472696e674275696c6465722e417070656e642853797374656d2e496e74363429, -- System.Text.StringBuilder.Append(System.Int64)
  0x53797374656d2e546578742e537472696e674275696c6465722e417070656e642853797374656d2e4f626a65637429, -- System.Text.StringBuilder.Append(System.Object)
  0x53797374656d2e546578742e537472696e674275696c6465722e417070656e642853797374656d2e534279746529, -- System.Text.StringBuilder.Append(System.SByte)
  0x53797374656d2e546578742e537472696e674275696c6465722e417070656e642853797374656d2e53696e676c6529, -- System.Text.StringBuilder.Append(System.Single)
  0x53797374656d2e546578742e537472696e674275696c6465722e417070656e642853797374656d2e537472696e6729, -- System.Text.StringBuilder.Append(System.String)
  0x53797374656d2e546578742e537472696e674275696c6465722e417070656e642853797374656d2e537472696e672c53797374656d2e496e7433322c53797374656d2e496e74333229, -- System.Text.StringBuilder.Append(System.String,System.Int32,System.Int32)
  0x53797374656d2e546578742e537472696e674275696c6465722e417070656e642853797374656d2e55496e74313629, -- System.Text.StringBuilder.Append(System.UInt16)
  0x53797374656d2e546578742e537472696e674275696c6465722e417070656e642853797374656d2e55496e74333229, -- System.Text.StringBuilder.Append(System.UInt32)
  0x53797374656d2e546578742e537472696e674275696c6465722e417070656e642853797374656d2e55496e74363429, -- System.Text.StringBuilder.Append(System.UInt64)
  0x53797374656d2e546578742e537472696e674275696c6465722e417070656e644c696e652829, -- System.Text.StringBuilder.AppendLine()
  0x53797374656d2e546578742e537472696e674275696c6465722e417070656e644c696e652853797374656d2e537472696e6729, -- System.Text.StringBuilder.AppendLine(System.String)
  0x53797374656d2e546578742e537472696e674275696c6465722e436c6561722829, -- System.Text.StringBuilder.Clear()
  0x53797374656d2e546578742e537472696e674275696c6465722e456e7375726543617061636974792853797374656d2e496e74333229, -- System.Text.StringBuilder.EnsureCapacity(System.Int32)
  0x53797374656d2e546578742e537472696e674275696c6465722e457175616c732853797374656d2e546578742e537472696e674275696c64657229, -- System.Text.StringBuilder.Equals(System.Text.StringBuilder)
  0x53797374656d2e546578742e537472696e674275696c6465722e496e736572742853797374656d2e496e7433322c53797374656d2e426f6f6c65616e29, -- System.Text.StringBuilder.Insert(System.Int32,System.Boolean)
  0x53797374656d2e546578742e537472696e674275696c6465722e496e736572742853797374656d2e496e7433322c53797374656d2e4279746529, -- System.Text.StringBuilder.Insert(System.Int32,System.Byte)
  0x53797374656d2e546578742e537472696e674275696c6465722e496e736572742853797374656d2e496e7433322c53797374656d2e4368617229, -- System.Text.StringBuilder.Insert(System.Int32,System.Char)
  0x53797374656d2e546578742e537472696e674275696c6465722e496e736572742853797374656d2e496e7433322c53797374656d2e436861725b5d29, -- System.Text.StringBuilder.Insert(System.Int32,System.Char[])
  0x53797374656d2e546578742e537472696e674275696c6465722e496e736572742853797374656d2e496e7433322c53797374656d2e436861725b5d2c53797374656d2e496e7433322c53797374656d2e496e74333229, -- System.Text.StringBuilder.Insert(System.Int32,System.Char[],System.Int32,System.Int32)
  0x53797374656d2e546578742e537472696e674275696c6465722e496e736572742853797374656d2e496e7433322c53797374656d2e446f75626c6529, -- System.Text.StringBuilder.Insert(System.Int32,System.Double)
  0x53797374656d2e546578742e537472696e674275696c6465722e496e736572742853797374656d2e496e7433322c53797374656d2e496e74313629, -- System.Text.StringBuilder.Insert(System.Int32,System.Int16)
  0x53797374656d2e546578742e537472696e674275696c6465722e496e736572742853797374656d2e496e7433322c53797374656d2e496e74333229, -- System.Text.StringBuilder.Insert(System.Int32,System.Int32)
  0x53797374656d2e546578742e537472696e674275696c6465722e496e736572742853797374656d2e496e7433322c53797374656d2e496e74363429, -- System.Text.StringBuilder.Insert(System.Int32,System.Int64)
  0x53797374656d2e546578742e537472696e674275696c6465722e496e736572742853797374656d2e496e7433322c53797374656d2e4f626a65637429, -- System.Text.StringBuilder.Insert(System.Int32,System.Object)
  0x53797374656d2e546578742e537472696e674275696c6465722e496e736572742853797374656d2e496e7433322c53797374656d2e534279746529, -- System.Text.StringBuilder.Insert(System.Int32,System.SByte)
  0x53797374656d2e546578742e537472696e674275696c6465722e496e736572742853797374656d2e496e7433322c53797374656d2e53696e676c6529, -- System.Text.StringBuilder.Insert(System.Int32,System.Single)
  0x53797374656d2e546578742e537472696e674275696c6465722e496e736572742853797374656d2e496e7433322c53797374656d2e537472696e672c53797374656d2e496e74333229, -- System.Text.StringBuilder.Insert(System.Int32,System.String,System.Int32)
  0x53797374656d2e546578742e537472696e674275696c6465722e496e736572742853797374656d2e496e7433322c53797374656d2e55496e74313629, -- System.Text.StringBuilder.Insert(System.Int32,System.UInt16)
  0x53797374656d2e546578742e537472696e674275696c6465722e496e736572742853797374656d2e496e7433322c53797374656d2e55496e74333229, -- System.Text.StringBuilder.Insert(System.Int32,System.UInt32)
  0x53797374656d2e546578742e537472696e674275696c6465722e496e736572742853797374656d2e496e7433322c53797374656d2e55496e74363429, -- System.Text.StringBuilder.Insert(System.Int32,System.UInt64)
  0x53797374656d2e546578742e537472696e674275696c6465722e5265706c6163652853797374656d2e436861722c53797374656d2e4368617229, -- System.Text.StringBuilder.Replace(System.Char,System.Char)
  0x53797374656d2e546578742e537472696e674275696c6465722e5265706c6163652853797374656d2e436861722c53797374656d2e436861722c53797374656d2e496e7433322c53797374656d2e496e74333229, -- System.Text.StringBuilder.Replace(System.Char,System.Char,System.Int32,System.Int32)
  0x53797374656d2e546578742e537472696e674275696c6465722e5265706c6163652853797374656d2e537472696e672c53797374656d2e537472696e6729, -- System.Text.StringBuilder.Replace(System.String,System.String)
  0x53797374656d2e546578742e537472696e674275696c6465722e5265706c6163652853797374656d2e537472696e672c53797374656d2e537472696e672c53797374656d2e496e7433322c53797374656d2e496e74333229, -- System.Text.StringBuilder.Replace(System.String,System.String,System.Int32,System.Int32)
  0x53797374656d2e546578742e537472696e674275696c6465722e546f537472696e672829, -- System.Text.StringBuilder.ToString()
  0x53797374656d2e546578742e537472696e674275696c6465722e546f537472696e672853797374656d2e496e7433322c53797374656d2e496e74333229, -- System.Text.StringBuilder.ToString(System.Int32,System.Int32)
  0x53797374656d2e546578742e537472696e674275696c6465722e6765745f43617061636974792829, -- System.Text.StringBuilder.get_Capacity()
  0x53797374656d2e546578742e537472696e674275696c6465722e6765745f43686172732853797374656d2e496e74333229, -- System.Text.StringBuilder.get_Chars(System.Int32)
  0x53797374656d2e546578742e537472696e674275696c6465722e6765745f4c656e6774682829, -- System.Text.StringBuilder.get_Length()
  0x53797374656d2e546578742e537472696e674275696c6465722e6765745f4d617843617061636974792829, -- System.Text.StringBuilder.get_MaxCapacity()
  0x53797374656d2e546578742e537472696e674275696c6465722e7365745f43617061636974792853797374656d2e496e74333229, -- System.Text.StringBuilder.set_Capacity(System.Int32)
  0x53797374656d2e546578742e537472696e674275696c6465722e7365745f43686172732853797374656d2e496e7433322c53797374656d2e4368617229, -- System.Text.StringBuilder.set_Chars(System.Int32,System.Char)
  0x53797374656d2e546578742e537472696e674275696c6465722e7365745f4c656e6774682853797374656d2e496e74333229, -- System.Text.StringBuilder.set_Length(System.Int32)
  0x53797374656d2e54696d655370616e, -- System.TimeSpan
  0x53797374656d2e54696d655370616e5b2c2c5d, -- System.TimeSpan[,,]
  0x53797374656d2e54696d655370616e5b2c5d, -- System.TimeSpan[,]
  0x53797374656d2e54696d655370616e5b5d, -- System.TimeSpan[]
  0x53797374656d2e54696d655370616e2e4164642853797374656d2e54696d655370616e29, -- System.TimeSpan.Add(System.TimeSpan)
  0x53797374656d2e54696d655370616e2e436f6d706172652853797374656d2e54696d655370616e2c53797374656d2e54696d655370616e29, -- System.TimeSpan.Compare(System.TimeSpan,System.TimeSpan)
  0x53797374656d2e54696d655370616e2e436f6d70617265546f2853797374656d2e4f626a65637429, -- System.TimeSpan.CompareTo(System.Object)
  0x53797374656d2e54696d655370616e2e436f6d70617265546f2853797374656d2e54696d655370616e29, -- System.TimeSpan.CompareTo(System.TimeSpan)
  0x53797374656d2e54696d655370616e2e4469766964652853797374656d2e446f75626c6529, -- System.TimeSpan.Divide(System.Double)
  0x53797374656d2e54696d655370616e2e4469766964652853797374656d2e54696d655370616e29, -- System.TimeSpan.Divide(System.TimeSpan)
  0x53797374656d2e54696d655370616e2e4475726174696f6e2829, -- System.TimeSpan.Duration()
  0x53797374656d2e54696d655370616e2e457175616c732853797374656d2e4f626a65637429, -- System.TimeSpan.Equals(System.Object)
  0x53797374656d2e54696d655370616e2e457175616c732853797374656d2e54696d655370616e29, -- System.TimeSpan.Equals(System.TimeSpan)
  0x53797374656d2e54696d655370616e2e457175616c732853797374656d2e54696d655370616e2c53797374656d2e54696d655370616e29, -- System.TimeSpan.Equals(System.TimeSpan,System.TimeSpan)
  0x53797374656d2e54696d655370616e2e46726f6d446179732853797374656d2e446f75626c6529, -- System.TimeSpan.FromDays(System.Double)
  0x53797374656d2e54696d655370616e2e46726f6d486f7572732853797374656d2e446f75626c6529, -- System.TimeSpan.FromHours(System.Double)
  0x53797374656d2e54696d655370616e2e46726f6d4d696c6c697365636f6e64732853797374656d2e446f75626c6529, -- System.TimeSpan.FromMilliseconds(System.Double)
  0x53797374656d2e54696d655370616e2e46726f6d4d696e757465732853797374656d2e446f75626c6529, -- System.TimeSpan.FromMinutes(System.Double)
  0x53797374656d2e54696d655370616e2e46726f6d5365636f6e64732853797374656d2e446f75626c6529, -- System.TimeSpan.FromSeconds(System.Double)
  0x53797374656d2e54696d655370616e2e46726f6d5469636b732853797374656d2e496e74363429, -- System.TimeSpan.FromTicks(System.Int64)
  0x53797374656d2e54696d655370616e2e4d756c7469706c792853797374656d2e446f75626c6529, -- System.TimeSpan.Multiply(System.Double)
  0x53797374656d2e54696d655370616e2e4e65676174652829, -- System.TimeSpan.Negate()
  0x53797374656d2e54696d655370616e2e50617273652853797374656d2e537472696e6729, -- System.TimeSpan.Parse(System.String)
  0x53797374656d2e54696d655370616e2e53756274726163742853797374656d2e54696d655370616e29, -- System.TimeSpan.Subtract(System.TimeSpan)
  0x53797374656d2e54696d655370616e2e546f537472696e672829, -- System.TimeSpan.ToString()
  0x53797374656d2e54696d655370616e2e54727950617273652853797374656d2e537472696e672c53797374656d2e54696d655370616e29, -- System.TimeSpan.TryParse(System.String,System.TimeSpan)
  0x53797374656d2e54696d655370616e2e6765745f446179732829, -- System.TimeSpan.get_Days()
  0x53797374656d2e54696d655370616e2e6765745f486f7572732829, -- System.TimeSpan.get_Hours()
  0x53797374656d2e54696d655370616e2e6765745f4d696c6c697365636f6e64732829, -- System.TimeSpan.get_Milliseconds()
  0x53797374656d2e54696d655370616e2e6765745f4d696e757465732829, -- System.TimeSpan.get_Minutes()
  0x53797374656d2e54696d655370616e2e6765745f5365636f6e64732829, -- System.TimeSpan.get_Seconds()
  0x53797374656d2e54696d655370616e2e6765745f5469636b732829, -- System.TimeSpan.get_Ticks()
  0x53797374656d2e54696d655370616e2e6765745f546f74616c446179732829, -- System.TimeSpan.get_TotalDays()
  0x53797374656d2e54696d655370616e2e6765745f546f74616c486f7572732829, -- System.TimeSpan.get_TotalHours()
  0x53797374656d2e54696d655370616e2e6765745f546f74616c4d696c6c697365636f6e64732829, -- System.TimeSpan.get_TotalMilliseconds()
  0x53797374656d2e54696d655370616e2e6765745f546f74616c4d696e757465732829, -- System.TimeSpan.get_TotalMinutes()
  0x53797374656d2e54696d655370616e2e6765745f546f74616c5365636f6e64732829, -- System.TimeSpan.get_TotalSeconds()
  0x53797374656d2e54696d655370616e2e6f705f4164646974696f6e2853797374656d2e54696d655370616e2c53797374656d2e54696d655370616e29, -- System.TimeSpan.op_Addition(System.TimeSpan,System.TimeSpan)
  0x53797374656d2e54696d655370616e2e6f705f4469766973696f6e2853797374656d2e54696d655370616e2c53797374656d2e446f75626c6529, -- System.TimeSpan.op_Division(System.TimeSpan,System.Double)
  0x53797374656d2e54696d655370616e2e6f705f4469766973696f6e2853797374656d2e54696d655370616e2c53797374656d2e54696d655370616e29, -- System.TimeSpan.op_Division(System.TimeSpan,System.TimeSpan)
  0x53797374656d2e54696d655370616e2e6f705f457175616c6974792853797374656d2e54696d655370616e2c53797374656d2e54696d655370616e29, -- System.TimeSpan.op_Equality(System.TimeSpan,System.TimeSpan)
  0x53797374656d2e54696d655370616e2e6f705f477265617465725468616e2853797374656d2e54696d655370616e2c53797374656d2e54696d655370616e29, -- System.TimeSpan.op_GreaterThan(System.TimeSpan,System.TimeSpan)
  0x53797374656d2e54696d655370616e2e6f705f477265617465725468616e4f72457175616c2853797374656d2e54696d655370616e2c53797374656d2e54696d655370616e29, -- System.TimeSpan.op_GreaterThanOrEqual(System.TimeSpan,System.TimeSpan)
  0x53797374656d2e54696d655370616e2e6f705f496e657175616c6974792853797374656d2e54696d655370616e2c53797374656d2e54696d655370616e29, -- System.TimeSpan.op_Inequality(System.TimeSpan,System.TimeSpan)
  0x53797374656d2e54696d655370616e2e6f705f4c6573735468616e2853797374656d2e54696d655370616e2c53797374656d2e54696d655370616e29, -- System.TimeSpan.op_LessThan(System.TimeSpan,System.TimeSpan)
  0x53797374656d2e54696d655370616e2e6f705f4c6573735468616e4f72457175616c2853797374656d2e54696d655370616e2c53797374656d2e54696d655370616e29, -- System.TimeSpan.op_LessThanOrEqual(System.TimeSpan,System.TimeSpan)
  0x53797374656d2e54696d655370616e2e6f705f4d756c7469706c792853797374656d2e446f75626c652c53797374656d2e54696d655370616e29, -- System.TimeSpan.op_Multiply(System.Double,System.TimeSpan)
  0x53797374656d2e54696d655370616e2e6f705f4d756c7469706c792853797374656d2e54696d655370616e2c53797374656d2e446f75626c6529, -- System.TimeSpan.op_Multiply(System.TimeSpan,System.Double)
  0x53797374656d2e54696d655370616e2e6f705f5375627472616374696f6e2853797374656d2e54696d655370616e2c53797374656d2e54696d655370616e29, -- System.TimeSpan.op_Subtraction(System.TimeSpan,System.TimeSpan)
  0x53797374656d2e54696d655370616e2e6f705f556e6172794e65676174696f6e2853797374656d2e54696d655370616e29, -- System.TimeSpan.op_UnaryNegation(System.TimeSpan)
  0x53797374656d2e54696d655370616e2e6f705f556e617279506c75732853797374656d2e54696d655370616e29, -- System.TimeSpan.op_UnaryPlus(System.TimeSpan)
  0x53797374656d2e55496e743136, -- System.UInt16
  0x53797374656d2e55496e7431365b2c2c5d, -- System.UInt16[,,]
  0x53797374656d2e55496e7431365b2c5d, -- System.UInt16[,]
  0x53797374656d2e55496e7431365b5d, -- System.UInt16[]
  0x53797374656d2e55496e7431362e436f6d70617265546f2853797374656d2e4f626a65637429, -- System.UInt16.CompareTo(System.Object)
  0x53797374656d2e55496e7431362e436f6d70617265546f2853797374656d2e55496e74313629, -- System.UInt16.CompareTo(System.UInt16)
  0x53797374656d2e55496e7431362e457175616c732853797374656d2e4f626a65637429, -- System.UInt16.Equals(System.Object)
  0x53797374656d2e55496e7431362e457175616c732853797374656d2e55496e74313629, -- System.UInt16.Equals(System.UInt16)
  0x53797374656d2e55496e7431362e50617273652853797374656d2e537472696e6729, -- System.UInt16.Parse(System.String)
  0x53797374656d2e55496e7431362e546f537472696e672829, -- System.UInt16.ToString()
  0x53797374656d2e55496e7431362e54727950617273652853797374656d2e537472696e672c53797374656d2e55496e74313629, -- System.UInt16.TryParse(System.String,System.UInt16)
  0x53797374656d2e55496e743332, -- System.UInt32
  0x53797374656d2e55496e7433325b2c2c5d, -- System.UInt32[,,]
  0x53797374656d2e55496e7433325b2c5d, -- System.UInt32[,]
  0x53797374656d2e55496e7433325b5d, -- System.UInt32[]
  0x53797374656d2e55496e7433322e436f6d70617265546f2853797374656d2e4f626a65637429, -- System.UInt32.CompareTo(System.Object)
  0x53797374656d2e55496e7433322e436f6d70617265546f2853797374656d2e55496e74333229, -- System.UInt32.CompareTo(System.UInt32)
  0x53797374656d2e55496e7433322e457175616c732853797374656d2e4f626a65637429, -- System.UInt32.Equals(System.Object)
  0x53797374656d2e55496e7433322e457175616c732853797374656d2e55496e74333229, -- System.UInt32.Equals(System.UInt32)
  0x53797374656d2e55496e7433322e50617273652853797374656d2e537472696e6729, -- System.UInt32.Parse(System.String)
  0x53797374656d2e55496e7433322e546f537472696e672829, -- System.UInt32.ToString()
  0x53797374656d2e55496e7433322e54727950617273652853797374656d2e537472696e672c53797374656d2e55496e74333229, -- System.UInt32.TryParse(System.String,System.UInt32)
  0x53797374656d2e55496e743634, -- System.UInt64
  0x53797374656d2e55496e7436345b2c2c5d, -- System.UInt64[,,]
  0x53797374656d2e55496e7436345b2c5d, -- System.UInt64[,]
  0x53797374656d2e55496e7436345b5d, -- System.UInt64[]
  0x53797374656d2e55496e7436342e436f6d70617265546f2853797374656d2e4f626a65637429, -- System.UInt64.CompareTo(System.Object)
  0x53797374656d2e55496e7436342e436f6d70617265546f2853797374656d2e55496e74363429, -- System.UInt64.CompareTo(System.UInt64)
  0x53797374656d2e55496e7436342e457175616c732853797374656d2e4f626a65637429, -- System.UInt64.Equals(System.Object)
  0x53797374656d2e55496e7436342e457175616c732853797374656d2e55496e74363429, -- System.UInt64.Equals(System.UInt64)
  0x53797374656d2e55496e7436342e50617273652853797374656d2e537472696e6729, -- System.UInt64.Parse(System.String)
  0x53797374656d2e55496e7436342e546f537472696e672829, -- System.UInt64.ToString()
  0x53797374656d2e55496e7436342e54727950617273652853797374656d2e537472696e672c53797374656d2e55496e74363429, -- System.UInt64.TryParse(System.String,System.UInt64)
  0x53797374656d2e417267756d656e74457863657074696f6e, -- System.ArgumentException
  0x53797374656d2e417267756d656e744e756c6c457863657074696f6e, -- System.ArgumentNullException
  0x53797374656d2e417267756d656e744f75744f6652616e6765457863657074696f6e, -- System.ArgumentOutOfRangeException
  0x53797374656d2e41726974686d65746963457863657074696f6e, -- System.ArithmeticException
  0x53797374656d2e44697669646542795a65726f457863657074696f6e, -- System.DivideByZeroException
  0x53797374656d2e457863657074696f6e, -- System.Exception
  0x53797374656d2e466f726d6174457863657074696f6e, -- System.FormatException
  0x53797374656d2e496e6465784f75744f6652616e6765457863657074696f6e, -- System.IndexOutOfRangeException
  0x53797374656d2e496e76616c696443617374457863657074696f6e, -- System.InvalidCastException
  0x53797374656d2e496e76616c69644f7065726174696f6e457863657074696f6e, -- System.InvalidOperationException
  0x53797374656d2e4d6964706f696e74526f756e64696e67, -- System.MidpointRounding
  0x53797374656d2e4f766572666c6f77457863657074696f6e, -- System.OverflowException
  0x53797374656d2e52616e6b457863657074696f6e, -- System.RankException
  0x53797374656d2e5468726f774d696e4d6178457863657074696f6e, -- System.ThrowMinMaxException
  0x53797374656d2e566f6964] -- System.Void

/-- The rows as texts. -/
def rows : List WStr := codes.map text

end Verif.ValidTable
