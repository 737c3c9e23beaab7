{"id": "C01", "title": "DateTime constructor accepts exactly the Gregorian dates", "statement": "DateTime(year,month,day) succeeds exactly when (year,month,day) is a valid proleptic Gregorian date with 1<=year<=9999 and otherwise throws ArgumentOutOfRangeException; on success Ticks is 864000000000 times the number of whole days that precede the date, counted year by year and month by month from 0001-01-01.", "quantifier": "all Int32 triples (year, month, day)", "why_tests_cant": "2^96 argument triples; a unit test samples a handful of dates", "anchors": ["DotNetLibrary/src/DateTimeValue.cpp::DateToTicks", "DotNetLibrary/src/DateTimeValue.cpp::DateTime::DateTime", "DotNetLibrary/src/DateTimeValue.cpp::IsLeapYear", "DotNetLibrary/src/DateTimeValue.cpp::GetDaysArray"]}
{"id": "C02", "title": "DateTime components return what was constructed", "statement": "For every valid date and every hour 0..23, minute 0..59, second 0..59 and millisecond 0..999, the DateTime built from them reports exactly those values through Year, Month, Day, Hour, Minute, Second and Millisecond.", "quantifier": "all valid calendar date/time component tuples", "why_tests_cant": "about 3.1e14 tuples", "anchors": ["DotNetLibrary/src/DateTimeValue.cpp::DateTimeValue::GetDatePart", "DotNetLibrary/src/DateTimeValue.cpp::get_Hour", "DotNetLibrary/src/DateTimeValue.cpp::get_Minute", "DotNetLibrary/src/DateTimeValue.cpp::get_Second", "DotNetLibrary/src/DateTimeValue.cpp::get_Millisecond"]}
{"id": "C03", "title": "Every DateTime decomposes into a valid date and recomposes", "statement": "For every Ticks value in [0, MaxTicks], Year/Month/Day form a valid date, no table is read out of bounds, and rebuilding from the components plus the sub-millisecond remainder gives the same Ticks. So distinct instants (at ms resolution) have distinct components.", "quantifier": "all ticks 0..3155378975999999999", "why_tests_cant": "3.2e18 values", "anchors": ["DotNetLibrary/src/DateTimeValue.cpp::DateTimeValue::GetDatePart", "DotNetLibrary/src/DateTimeValue.cpp::get_Date", "DotNetLibrary/src/DateTimeValue.cpp::get_TimeOfDay"]}
{"id": "C04", "title": "DayOfWeek and DayOfYear follow the calendar", "statement": "0001-01-01 is a Monday, DayOfWeek advances by one (mod 7) on each following day, DayOfYear is the 1-based index of the date in its year (1 on Jan 1, 365/366 on Dec 31), and Date/TimeOfDay split the value into a midnight and a non-negative offset below one day.", "quantifier": "all ticks in range", "why_tests_cant": "one value per day for 9999 years and all offsets inside the day", "anchors": ["DotNetLibrary/src/DateTimeValue.cpp::get_DayOfWeek", "DotNetLibrary/src/DateTimeValue.cpp::get_DayOfYear", "DotNetLibrary/src/DateTimeValue.cpp::get_Date", "DotNetLibrary/src/DateTimeValue.cpp::get_TimeOfDay"]}
{"id": "C05", "title": "IsLeapYear and DaysInMonth implement the Gregorian rule", "statement": "DateTimeValue::IsLeapYear(y) throws ArgumentOutOfRangeException exactly for y outside 1..9999 and otherwise is the divisible-by-4-not-100-unless-400 rule (and agrees with the internal helper); DaysInMonth(y,m) returns the Gregorian length of the month and throws exactly when y or m is out of range.", "quantifier": "all Int32 years and months", "why_tests_cant": "2^64 pairs", "anchors": ["DotNetLibrary/src/DateTimeValue.cpp::DateTimeValue::IsLeapYear", "DotNetLibrary/src/DateTimeValue.cpp::DaysInMonth", "DotNetLibrary/src/DateTimeValue.cpp::IsLeapYear"]}
{"id": "C06", "title": "DateTime tick arithmetic is exact and range checked", "statement": "AddTicks(d), Add(ts) and Subtract(ts) return the exact sum/difference when it lies in [MinValue, MaxValue], throw ArgumentOutOfRangeException exactly when it does not, and never overflow; Subtract(Add(t,d),d)=t; Subtract(DateTime) is the exact signed difference and Add(b, Subtract(a,b)) = a.", "quantifier": "all in-range DateTime values and all Int64 deltas", "why_tests_cant": "2^61*2^64 pairs, overflow corners", "anchors": ["DotNetLibrary/src/DateTimeValue.cpp::AddTicks", "DotNetLibrary/src/DateTimeValue.cpp::Subtract", "DotNetLibrary/src/DateTimeValue.cpp::Add"]}
{"id": "C07", "title": "AddMonths/AddYears follow the calendar", "statement": "AddMonths(n) moves the month index year*12+month-1 by exactly n (floor arithmetic, also for negative n), clamps the day to the length of the target month, keeps the time of day, and throws ArgumentOutOfRangeException exactly when |n|>120000 or the target year leaves 1..9999; AddYears(n)=AddMonths(12n) with |n|<=10000.", "quantifier": "all DateTime values and all Int32 month counts", "why_tests_cant": "3.2e18 x 2^32 combinations; negative month division is the classic bug", "anchors": ["DotNetLibrary/src/DateTimeValue.cpp::AddMonths", "DotNetLibrary/src/DateTimeValue.cpp::AddYears"]}
{"id": "C08", "title": "Every DateTime obtainable from a constructor is within MinValue..MaxValue", "statement": "Any DateTime a constructor returns has 0<=Ticks<=MaxTicks and any rejected argument throws ArgumentOutOfRangeException.", "quantifier": "all constructor arguments", "why_tests_cant": "seven Int32 arguments", "anchors": ["DotNetLibrary/src/DateTimeValue.cpp::DateTime::DateTime", "DotNetLibrary/src/DateTimeValue.cpp::TimePartsToTicks", "DotNetLibrary/src/DateTimeValue.cpp::TimeToTicks"]}
{"id": "C09", "title": "DateTime comparison is the tick order", "statement": "Compare/CompareTo/Equals and the operators ==,!=,<,<=,>,>= agree with the numeric order of Ticks and hence form one consistent total order; CompareTo(null)=1 and CompareTo of another boxed type throws ArgumentException.", "quantifier": "all pairs of DateTime values/boxed objects", "why_tests_cant": "pairs of 64-bit values", "anchors": ["DotNetLibrary/src/DateTimeValue.cpp::Compare", "DotNetLibrary/src/DateTimeValue.cpp::CompareTo", "DotNetLibrary/src/DateTimeValue.cpp::Equals", "DotNetLibrary/src/DateTimeValue.cpp::op_Addition", "DotNetLibrary/src/DateTimeValue.cpp::op_Equality", "DotNetLibrary/src/DateTimeValue.cpp::op_LessThan", "DotNetLibrary/src/DateTimeValue.cpp::op_Subtraction"]}
{"id": "C10", "title": "DateTime.ToString identifies the instant to the second", "statement": "ToString prints M/D/YYYY h:mm:ss AM|PM with the 12-hour clock (hour 1..12, PM exactly from noon on), so two DateTimes print alike exactly when they agree to the second.", "quantifier": "all in-range ticks", "why_tests_cant": "needs every second of 9999 years", "anchors": ["DotNetLibrary/src/DateTimeValue.cpp::FormatString"]}
{"id": "C11", "title": "ToLocalTime and ToUniversalTime are inverse", "statement": "For a fixed zone offset, t.ToLocalTime().ToUniversalTime()=t whenever no range exception is thrown, and the offset used is the true UTC offset of the zone.", "quantifier": "all DateTime values, all zones and clock readings", "why_tests_cant": "depends on wall clock and zone", "anchors": ["DotNetLibrary/src/DateTimeValue.cpp::ToLocalTime", "DotNetLibrary/src/DateTimeValue.cpp::ToUniversalTime", "DotNetLibrary/src/DateTimeValue.cpp::GetTimeZone"]}
{"id": "C12", "title": "TimeSpan components recompose the value", "statement": "For every Int64 tick count, Days*TicksPerDay+Hours*TicksPerHour+Minutes*TicksPerMinute+Seconds*TicksPerSecond+Milliseconds*TicksPerMillisecond+remainder = Ticks, where all components share the sign of Ticks (or are 0), |Hours|<24, |Minutes|<60, |Seconds|<60, |Milliseconds|<1000, |remainder|<10000, and Days fits Int32.", "quantifier": "all Int64 tick counts", "why_tests_cant": "2^64 values including negatives", "anchors": ["DotNetLibrary/src/TimeSpanValue.cpp::get_Days", "DotNetLibrary/src/TimeSpanValue.cpp::get_Hours", "DotNetLibrary/src/TimeSpanValue.cpp::get_Minutes", "DotNetLibrary/src/TimeSpanValue.cpp::get_Seconds", "DotNetLibrary/src/TimeSpanValue.cpp::get_Milliseconds"]}
{"id": "C13", "title": "TimeSpan constructors are exact or throw", "statement": "TimeSpan(h,m,s) and TimeSpan(d,h,m,s,ms) hold exactly the arithmetic total in ticks when it is representable, otherwise throw ArgumentOutOfRangeException; no intermediate overflow.", "quantifier": "all Int32 arguments", "why_tests_cant": "2^160 tuples", "anchors": ["DotNetLibrary/src/TimeSpanValue.cpp::TimeToTicks", "DotNetLibrary/src/TimeSpanValue.cpp::TimeSpan::TimeSpan"]}
{"id": "C14", "title": "TimeSpan.Add is exact or reports overflow", "statement": "Add/op_Addition returns the exact sum when it fits in Int64 and throws OverflowException exactly otherwise (on two's complement hardware; ISO C++ makes the overflowing sum itself undefined).", "quantifier": "all pairs of Int64 ticks", "why_tests_cant": "2^128 pairs", "anchors": ["DotNetLibrary/src/TimeSpanValue.cpp::Add", "DotNetLibrary/src/TimeSpanValue.cpp::op_Addition"]}
{"id": "C15", "title": "TimeSpan.Subtract is exact or reports overflow", "statement": "Subtract/op_Subtraction returns the exact difference when it fits in Int64 and throws OverflowException exactly otherwise.", "quantifier": "all pairs of Int64 ticks", "why_tests_cant": "2^128 pairs", "anchors": ["DotNetLibrary/src/TimeSpanValue.cpp::Subtract", "DotNetLibrary/src/TimeSpanValue.cpp::op_Subtraction"]}
{"id": "C16", "title": "TimeSpan.Negate and Duration", "statement": "Negate returns the exact negation and Duration the absolute value of every TimeSpan except the most negative one, which throws OverflowException; Negate is an involution.", "quantifier": "all Int64 ticks", "why_tests_cant": "2^64 values, boundary at MinValue", "anchors": ["DotNetLibrary/src/TimeSpanValue.cpp::Negate", "DotNetLibrary/src/TimeSpanValue.cpp::Duration", "DotNetLibrary/src/TimeSpanValue.cpp::op_UnaryNegation", "DotNetLibrary/src/TimeSpanValue.cpp::MinValue"]}
{"id": "C17", "title": "TimeSpan comparison is the tick order", "statement": "Compare, CompareTo, Equals and the six comparison operators agree with the signed order of Ticks.", "quantifier": "all pairs of Int64 ticks", "why_tests_cant": "pairs of 64-bit values", "anchors": ["DotNetLibrary/src/TimeSpanValue.cpp::Compare", "DotNetLibrary/src/TimeSpanValue.cpp::CompareTo", "DotNetLibrary/src/TimeSpanValue.cpp::Equals", "DotNetLibrary/src/TimeSpanValue.cpp::op_Addition", "DotNetLibrary/src/TimeSpanValue.cpp::op_Equality", "DotNetLibrary/src/TimeSpanValue.cpp::op_LessThan", "DotNetLibrary/src/TimeSpanValue.cpp::op_Subtraction"]}
{"id": "C18", "title": "TimeSpan text round-trips", "statement": "Parse(ToString(t)) = t, and distinct TimeSpans have distinct text.", "quantifier": "all TimeSpan values", "why_tests_cant": "2^64 values; fraction padding and day width are corner cases", "anchors": ["DotNetLibrary/src/TimeSpanValue.cpp::FormatString", "DotNetLibrary/src/TimeSpanValue.cpp::TryParse"]}
{"id": "C19", "title": "TimeSpan.Parse rejects malformed text and is memory safe", "statement": "Parse throws FormatException for text that is not a time span and never touches memory outside its locals.", "quantifier": "all strings", "why_tests_cant": "unbounded inputs", "anchors": ["DotNetLibrary/src/TimeSpanValue.cpp::TryParse", "DotNetLibrary/src/TimeSpanValue.cpp::Parse"]}
{"id": "C20", "title": "Integer text round-trips", "statement": "For every integral type T and every value v of T, T.Parse(v.ToString()) = v and TryParse returns true with v.", "quantifier": "all values of SByte, Byte, Int16, UInt16, Int32, UInt32, Int64, UInt64", "why_tests_cant": "2^64 values; boundaries are special", "anchors": ["DotNetLibrary/src/UInt64Value.cpp::TryParseInternal", "DotNetLibrary/src/Int32Value.cpp::Parse", "DotNetLibrary/src/Int64Value.cpp::Parse", "DotNetLibrary/src/ByteValue.cpp::Parse", "DotNetLibrary/src/SByteValue.cpp::Parse"]}
{"id": "C21", "title": "Integer Parse denotes the numeral or reports overflow", "statement": "Parse of [ws][sign]digits[ws] returns the denoted integer when it is in the range of the type and throws OverflowException otherwise; anything else throws FormatException.", "quantifier": "all strings and all integral types", "why_tests_cant": "unbounded inputs; overflow detection", "anchors": ["DotNetLibrary/src/UInt64Value.cpp::TryParseInternal", "DotNetLibrary/src/Int32Value.cpp::Parse", "DotNetLibrary/src/UInt32Value.cpp::Parse"]}
{"id": "C22", "title": "TryParse and Parse agree", "statement": "TryParse returns true exactly when Parse returns normally, with the same value, and never throws for non-null input; null input makes Parse throw ArgumentNullException.", "quantifier": "all strings (and null) and integral types", "why_tests_cant": "unbounded inputs", "anchors": ["DotNetLibrary/src/ByteValue.cpp::TryParse", "DotNetLibrary/src/SByteValue.cpp::TryParse", "DotNetLibrary/src/Int16Value.cpp::TryParse", "DotNetLibrary/src/UInt16Value.cpp::TryParse", "DotNetLibrary/src/Int32Value.cpp::TryParse", "DotNetLibrary/src/UInt32Value.cpp::TryParse", "DotNetLibrary/src/Int64Value.cpp::TryParse", "DotNetLibrary/src/UInt64Value.cpp::TryParse", "DotNetLibrary/src/ByteValue.cpp::Parse", "DotNetLibrary/src/SByteValue.cpp::Parse", "DotNetLibrary/src/Int16Value.cpp::Parse", "DotNetLibrary/src/UInt16Value.cpp::Parse", "DotNetLibrary/src/Int32Value.cpp::Parse", "DotNetLibrary/src/UInt32Value.cpp::Parse", "DotNetLibrary/src/Int64Value.cpp::Parse", "DotNetLibrary/src/UInt64Value.cpp::Parse"]}
{"id": "C23", "title": "Integer CompareTo is a total order", "statement": "CompareTo is negative/zero/positive exactly as the receiver is less/equal/greater, for every integral type.", "quantifier": "all pairs of values of each integral type", "why_tests_cant": "subtraction-based comparison fails only on far-apart pairs", "anchors": ["DotNetLibrary/src/ByteValue.cpp::CompareTo", "DotNetLibrary/src/SByteValue.cpp::CompareTo", "DotNetLibrary/src/Int16Value.cpp::CompareTo", "DotNetLibrary/src/UInt16Value.cpp::CompareTo", "DotNetLibrary/src/Int32Value.cpp::CompareTo", "DotNetLibrary/src/UInt32Value.cpp::CompareTo", "DotNetLibrary/src/Int64Value.cpp::CompareTo", "DotNetLibrary/src/UInt64Value.cpp::CompareTo"]}
{"id": "C24", "title": "Boolean text round-trips and rejects other words", "statement": "Boolean.Parse(b.ToString())=b; Parse accepts exactly true/false (case-insensitive) and throws FormatException otherwise.", "quantifier": "all strings", "why_tests_cant": "unbounded inputs", "anchors": ["DotNetLibrary/src/BooleanValue.cpp::Parse", "DotNetLibrary/src/BooleanValue.cpp::FormatString"]}
{"id": "C25", "title": "StringBuilder never writes outside its buffer", "statement": "For every sequence of StringBuilder operations the content plus its terminating NUL stays inside the allocated buffer: no operation reads or writes out of bounds.", "quantifier": "all operation histories with all arguments", "why_tests_cant": "unbounded histories; overflow only at exact capacity boundaries", "anchors": ["DotNetLibrary/src/StringBuilder.cpp::Append", "DotNetLibrary/src/StringBuilder.cpp::EnsureCapacity", "DotNetLibrary/src/StringBuilder.cpp::set_Capacity", "DotNetLibrary/src/StringBuilder.cpp::set_Length"]}
{"id": "C26", "title": "StringBuilder behaves as an editable character sequence", "statement": "Every Append/Insert/Remove/Replace/Clear/set_Chars changes ToString() exactly as the corresponding list operation and throws (leaving content unchanged) exactly for out-of-range indices.", "quantifier": "all histories of operations", "why_tests_cant": "unbounded histories across buffer growth from the inline to the heap buffer", "anchors": ["DotNetLibrary/src/StringBuilder.cpp::Append", "DotNetLibrary/src/StringBuilder.cpp::Insert", "DotNetLibrary/src/StringBuilder.cpp::Remove", "DotNetLibrary/src/StringBuilder.cpp::Replace", "DotNetLibrary/src/StringBuilder.cpp::get_Chars", "DotNetLibrary/src/StringBuilder.cpp::set_Chars", "DotNetLibrary/src/StringBuilder.cpp::ToString"]}
{"id": "C27", "title": "StringBuilder capacity discipline", "statement": "Length<=Capacity always, growing keeps the content, EnsureCapacity(n) yields Capacity>=n, and Capacity is never above MaxCapacity.", "quantifier": "all histories", "why_tests_cant": "boundary rounding to multiples of 128", "anchors": ["DotNetLibrary/src/StringBuilder.cpp::set_Capacity", "DotNetLibrary/src/StringBuilder.cpp::EnsureCapacity", "DotNetLibrary/src/StringBuilder.cpp::get_Capacity"]}
{"id": "C28", "title": "Replace substitutes every leftmost non-overlapping occurrence", "statement": "StringBuilder.Replace(old,new) / String.Replace(old,new) yields the text where each leftmost non-overlapping occurrence of old is replaced by new and the rest is untouched.", "quantifier": "all texts, patterns and replacements", "why_tests_cant": "overlap patterns, growth and shrink in place", "anchors": ["DotNetLibrary/src/StringBuilder.cpp::Replace", "DotNetLibrary/src/StringBuilder.cpp::ReplaceSubString", "DotNetLibrary/src/StringBuilder.cpp::CountSubStrings", "DotNetLibrary/src/StringDotNet.cpp::Replace"]}
{"id": "C29", "title": "Substring/ToCharArray/CopyTo/indexer extract exact ranges", "statement": "Substring(start,len), ToCharArray(start,len), CopyTo and get_Chars return exactly the requested characters and throw exactly for ranges not inside the string.", "quantifier": "all strings and Int32 indices", "why_tests_cant": "index arithmetic including overflow of start+len", "anchors": ["DotNetLibrary/src/StringDotNet.cpp::Substring", "DotNetLibrary/src/StringDotNet.cpp::ToCharArray", "DotNetLibrary/src/StringDotNet.cpp::CopyTo", "DotNetLibrary/src/StringDotNet.cpp::get_Chars"]}
{"id": "C30", "title": "IndexOf/LastIndexOf/IndexOfAny return the first/last match in range", "statement": "The result is the least (greatest) index in the searched range whose character matches, or -1 when none does; bad ranges throw.", "quantifier": "all strings, characters and ranges", "why_tests_cant": "unbounded inputs", "anchors": ["DotNetLibrary/src/StringDotNet.cpp::IndexOf", "DotNetLibrary/src/StringDotNet.cpp::IndexOfAny", "DotNetLibrary/src/StringDotNet.cpp::LastIndexOf", "DotNetLibrary/src/StringDotNet.cpp::LastIndexOfAny"]}
{"id": "C31", "title": "IndexOf(String) finds the first occurrence inside the range", "statement": "IndexOf(value,start,count) is the least i>=start with value occurring at i and ending at or before start+count, else -1.", "quantifier": "all strings, patterns and ranges", "why_tests_cant": "matches straddling the end of range", "anchors": ["DotNetLibrary/src/StringDotNet.cpp::IndexOf"]}
{"id": "C32", "title": "String.Compare is a total order consistent with equality", "statement": "Compare(a,b)=0 exactly when a and b have the same characters (ordinal), Compare(a,b) and Compare(b,a) have opposite signs, and CompareTo agrees with Compare.", "quantifier": "all pairs/triples of strings", "why_tests_cant": "prefix pairs", "anchors": ["DotNetLibrary/src/StringDotNet.cpp::Compare", "DotNetLibrary/src/StringDotNet.cpp::CompareTo", "DotNetLibrary/src/StringDotNet.cpp::Equals"]}
{"id": "C33", "title": "String equality is character equality", "statement": "Equals, op_Equality and op_Inequality decide exactly whether two strings have the same length and the same characters, handling null.", "quantifier": "all pairs of strings", "why_tests_cant": "unbounded inputs; embedded NUL", "anchors": ["DotNetLibrary/src/StringDotNet.cpp::Equals", "DotNetLibrary/src/StringDotNet.cpp::op_Inequality"]}
{"id": "C34", "title": "Trim removes exactly leading/trailing trim characters", "statement": "Trim/TrimStart/TrimEnd return the longest inner segment that does not begin/end with a trim character; idempotent; the interior is untouched.", "quantifier": "all strings and trim sets", "why_tests_cant": "unbounded inputs", "anchors": ["DotNetLibrary/src/StringDotNet.cpp::Trim", "DotNetLibrary/src/StringDotNet.cpp::TrimStart", "DotNetLibrary/src/StringDotNet.cpp::TrimEnd"]}
{"id": "C35", "title": "PadLeft/PadRight reach exactly the requested width", "statement": "The result is the string preceded/followed by exactly max(0,width-length) padding characters.", "quantifier": "all strings and widths", "why_tests_cant": "widths across buffer boundaries", "anchors": ["DotNetLibrary/src/StringDotNet.cpp::PadLeft", "DotNetLibrary/src/StringDotNet.cpp::PadRight"]}
{"id": "C36", "title": "Concat and Join concatenate in order", "statement": "Concat(parts) is the concatenation of the parts, Join(sep,parts) interleaves the separator between consecutive parts.", "quantifier": "all lists of strings", "why_tests_cant": "unbounded lists, buffer growth", "anchors": ["DotNetLibrary/src/StringDotNet.cpp::Concat", "DotNetLibrary/src/StringDotNet.cpp::Join"]}
{"id": "C37", "title": "StartsWith/EndsWith/Contains decide affix/infix", "statement": "Each returns true exactly when its argument is a prefix/suffix/infix of the string, for every pair, without out-of-bounds reads and with termination.", "quantifier": "all pairs of strings", "why_tests_cant": "argument longer than the text, empty argument", "anchors": ["DotNetLibrary/src/StringDotNet.cpp::StartsWith", "DotNetLibrary/src/StringDotNet.cpp::EndsWith", "DotNetLibrary/src/StringDotNet.cpp::Contains"]}
{"id": "C38", "title": "ToUpper/ToLower are pointwise and idempotent", "statement": "Length is preserved, each character is mapped independently, applying twice equals applying once.", "quantifier": "all strings", "why_tests_cant": "unbounded inputs", "anchors": ["DotNetLibrary/src/StringDotNet.cpp::ToUpper", "DotNetLibrary/src/StringDotNet.cpp::ToLower", "DotNetLibrary/src/CharValue.cpp::IsDigit"]}
{"id": "C39", "title": "CharEnumerator visits each character exactly once in order", "statement": "Repeated MoveNext/Current yields exactly the characters of the string in order then false for ever; Current throws InvalidOperationException before the first and after the last; Reset restarts.", "quantifier": "all strings and call histories", "why_tests_cant": "unbounded histories", "anchors": ["DotNetLibrary/src/CharEnumerator.cpp::MoveNext"]}
{"id": "C40", "title": "Array element addressing is a bijection", "statement": "For 1-, 2- and 3-dimensional arrays, in-range index tuples map one-to-one onto the flat cells 0..Length-1 (row-major) and every out-of-range tuple throws IndexOutOfRangeException; so a Set to one tuple never changes another.", "quantifier": "all dimensions and index tuples", "why_tests_cant": "unbounded sizes", "anchors": ["DotNetLibrary/src/Array.cpp::ComputeIndex", "DotNetLibrary/src/Array.cpp::Address"]}
{"id": "C41", "title": "Array SetValue/GetValue round-trips", "statement": "GetValue(i) after SetValue(v,i) returns v converted to the element type, and every other element is unchanged.", "quantifier": "all element types, values and indices", "why_tests_cant": "all histories of writes", "anchors": ["DotNetLibrary/src/Array.cpp::GetValue", "DotNetLibrary/src/Array.cpp::SetValue"]}
{"id": "C42", "title": "Array.Copy/CopyTo/Clear touch exactly the requested range", "statement": "Copy(src,si,dst,di,n) makes dst[di..di+n) equal to the old src[si..si+n) and leaves the rest; bad ranges throw and change nothing; overlapping copies within one array behave as if via a temporary; Clear zeroes exactly the range.", "quantifier": "all arrays, indices and lengths incl. overlap", "why_tests_cant": "overlap and boundary arithmetic", "anchors": ["DotNetLibrary/src/Array.cpp::Copy", "DotNetLibrary/src/Array.cpp::CopyTo", "DotNetLibrary/src/Array.cpp::Clear", "DotNetLibrary/src/Array.cpp::VerifyIndexWithinRangeOfArray"]}
{"id": "C43", "title": "Array.GetLength/Rank report the declared shape", "statement": "GetLength(d) is the size of dimension d for 0<=d<Rank and throws IndexOutOfRangeException otherwise; Length is the product of the dimensions.", "quantifier": "all shapes and dimension numbers", "why_tests_cant": "off-by-one at Rank", "anchors": ["DotNetLibrary/src/Array.cpp::GetLength", "DotNetLibrary/src/Array.cpp::get_Length"]}
{"id": "C44", "title": "Buffer.BlockCopy is memmove on bytes", "statement": "BlockCopy copies exactly count bytes as if via a temporary (overlap allowed), leaves others unchanged, throws for ranges outside either array; SetByte/GetByte address exactly the given byte and ByteLength is Length*element size.", "quantifier": "all primitive arrays, offsets and counts", "why_tests_cant": "overlap and offset overflow", "anchors": ["DotNetLibrary/src/Buffer.cpp::BlockCopy"]}
{"id": "C45", "title": "BitConverter round-trips", "statement": "ToX(GetBytes(x),0)=x for every x of every supported type, GetBytes has exactly sizeof(X) bytes in little-endian order, and out-of-range start indices throw.", "quantifier": "all values of all types, all buffers and offsets", "why_tests_cant": "2^64 values per type", "anchors": ["DotNetLibrary/src/BitConverter.cpp::GetBytes"]}
{"id": "C46", "title": "BitConverter.ToString is a faithful hex dump", "statement": "ToString(bytes) is the upper-case two-digit hex of each byte joined by '-', of length 3n-1, and decoding it returns the bytes.", "quantifier": "all byte arrays and ranges", "why_tests_cant": "unbounded arrays", "anchors": ["DotNetLibrary/src/BitConverter.cpp::ToString"]}
{"id": "C47", "title": "Math.Clamp/Min/Max/Sign on integers", "statement": "Clamp(v,lo,hi) is the nearest value of [lo,hi] to v and throws exactly when lo>hi; Min/Max are lattice operations; Sign is -1/0/1 for every integer.", "quantifier": "all integer values", "why_tests_cant": "2^192 triples", "anchors": ["DotNetLibrary/src/DotNetMath.cpp::Clamp", "DotNetLibrary/src/DotNetMath.cpp::Sign", "DotNetLibrary/include/DotNetMath.h::Max"]}
{"id": "C48", "title": "Math.DivRem and integer division", "statement": "DivRem(a,b) returns q and r with a=q*b+r, |r|<|b|, r having the sign of a; b=0 raises DivideByZeroException rather than undefined behaviour.", "quantifier": "all integer pairs", "why_tests_cant": "2^128 pairs; MIN/-1 and quotients above 2^31", "anchors": ["DotNetLibrary/src/DotNetMath.cpp::DivRem", "DotNetLibrary/src/DotNetMath.cpp::Divide"]}
{"id": "C49", "title": "BitIncrement/BitDecrement step to the adjacent double", "statement": "BitIncrement(x) is the least double greater than x and BitDecrement the greatest less than x, NaN and the outer infinity fixed; they are mutually inverse on finite values.", "quantifier": "all 2^64 double bit patterns", "why_tests_cant": "2^64 patterns", "anchors": ["DotNetLibrary/src/DotNetMath.cpp::BitIncrement", "DotNetLibrary/src/DotNetMath.cpp::BitDecrement"]}
{"id": "C50", "title": "Floating-point classification partitions the doubles", "statement": "Every Double/Single bit pattern is exactly one of NaN, infinite, zero, subnormal, normal as reported by IsNaN/IsInfinity/IsSubnormal/IsNormal/IsFinite, and IsNegative is the sign bit.", "quantifier": "all 2^64 / 2^32 bit patterns", "why_tests_cant": "2^64 patterns", "anchors": ["DotNetLibrary/src/DoubleValue.cpp::IsNaN", "DotNetLibrary/src/SingleValue.cpp::IsNaN"]}
{"id": "C51", "title": "Floating-point CompareTo/Equals are consistent", "statement": "Double/Single CompareTo is a total preorder with NaN least and equal to itself, Equals agrees with CompareTo=0 and is an equivalence.", "quantifier": "all triples of doubles", "why_tests_cant": "2^192 triples", "anchors": ["DotNetLibrary/src/DoubleValue.cpp::CompareTo", "DotNetLibrary/src/DoubleValue.cpp::Equals"]}
{"id": "C52", "title": "Platform allocator returns disjoint aligned zeroed blocks", "statement": "Every block returned since the last PlatformSetup is 8-byte aligned, inside the arena, zeroed, disjoint from all other live blocks; when the arena is exhausted nullptr is returned and nothing is written.", "quantifier": "all allocation histories and sizes", "why_tests_cant": "unbounded histories, 32-bit size arithmetic", "anchors": ["PlatformSupport/PlatformSupport.cpp::my_operator_new_replacement", "PlatformSupport/PlatformSupport.cpp::PlatformMemorySetup"]}
{"id": "C53", "title": "Generated identifiers are collision-free and not keywords", "statement": "The translator maps distinct C# identifiers to distinct C++ identifiers and never emits a C++ keyword as a user identifier.", "quantifier": "all identifiers", "why_tests_cant": "unbounded inputs", "anchors": ["CppTranslator/Formatter.cs::AppendName", "CppTranslator/Formatter.cs::PrefixName"]}
{"id": "C54", "title": "String literals survive translation", "statement": "The C++ literal emitted for a C# string denotes the same sequence of UTF-16 code units.", "quantifier": "all strings", "why_tests_cant": "65536^n strings", "anchors": ["CppTranslator/Formatter.cs::AppendStringsWithControl", "CppTranslator/CppVisitorBase.cs::VisitPrimitiveExpression"]}
{"id": "C55", "title": "Char literals survive translation", "statement": "The C++ character literal emitted for a C# char denotes the same code unit.", "quantifier": "all 65536 chars", "why_tests_cant": "usually only a few printable chars are tested", "anchors": ["CppTranslator/Formatter.cs::AppendCharWithControls"]}
{"id": "C56", "title": "Emitted code has balanced braces and correct indentation", "statement": "For every sequence of brace/namespace operations issued by the visitors the emitted text has balanced braces, is indented by the current nesting depth, and closes the namespace exactly once per opening.", "quantifier": "all operation sequences", "why_tests_cant": "unbounded nesting, indentation buffer limit", "anchors": ["CppTranslator/Formatter.cs::AddOpenBrace", "CppTranslator/Formatter.cs::AddCloseBrace", "CppTranslator/Formatter.cs::AppendIndented", "CppTranslator/Formatter.cs::CloseNamespace"]}
{"id": "C57", "title": "Each unsupported library type is reported exactly once", "statement": "After any sequence of type references, the error list contains each referenced System.* type that is not in the table exactly once, and no supported or user type.", "quantifier": "all reference sequences", "why_tests_cant": "unbounded sequences", "anchors": ["CppTranslator/CppTypeVisitor.cs::ValidateType", "CppTranslator/CppTypeVisitor.cs::IllegalType", "CppTranslator/CppTypeVisitor.cs::ValidateCall"]}
{"id": "C58", "title": "Header declares base classes before derived classes", "statement": "In the generated header every class appears after its base class whenever both are declared in the module.", "quantifier": "all arrival orders of acyclic class hierarchies", "why_tests_cant": "n! orders", "anchors": ["CppTranslator/HeaderTypeVisitor.cs::VisitTypeDeclaration"]}
{"id": "C59", "title": "Constants keep their value", "statement": "The C++ text emitted for an integer constant denotes the same value.", "quantifier": "all Int32/Int64 constants", "why_tests_cant": "2^64 values, MinValue spellings", "anchors": ["CppTranslator/MyIlInstructionVisitor.cs::VisitLdcI4", "CppTranslator/MyIlInstructionVisitor.cs::VisitLdcI8", "CppTranslator/CppVisitorBase.cs::VisitPrimitiveExpression"]}
{"id": "C60", "title": "Expression translation preserves structure", "statement": "The C++ text emitted for a tree of binary, comparison, conversion and negation instructions parses back (under C++ precedence) to the same tree.", "quantifier": "all expression trees", "why_tests_cant": "unbounded depth", "anchors": ["CppTranslator/MyIlInstructionVisitor.cs::VisitBinaryNumericInstruction", "CppTranslator/MyIlInstructionVisitor.cs::VisitComp", "CppTranslator/MyIlInstructionVisitor.cs::VisitConv"]}
{"id": "C61", "title": "Translated switch reaches the right section", "statement": "For every switch value the emitted C++ switch runs the section whose C# label set contains it, else default.", "quantifier": "all switch instructions and values", "why_tests_cant": "multi-label sections", "anchors": ["CppTranslator/MyIlInstructionVisitor.cs::VisitSwitchInstruction", "CppTranslator/MyIlInstructionVisitor.cs::FormatSwitchCases"]}
{"id": "C62", "title": "Leave jumps to its own block end", "statement": "Every leave in the IL becomes a goto to the end label of the container it targets; labels are unique in a method.", "quantifier": "all nestings of block containers", "why_tests_cant": "unbounded nesting", "anchors": ["CppTranslator/MyIlInstructionVisitor.cs::VisitLeave", "CppTranslator/MyIlInstructionVisitor.cs::VisitBlockContainer"]}
{"id": "C63", "title": "StringBuilder.Equals compares text and capacities", "statement": "a.Equals(b) is true exactly when b is not null and both have the same Capacity, MaxCapacity and ToString().", "quantifier": "all pairs of builders after any histories", "why_tests_cant": "Two arbitrary histories; leftover buffer contents and embedded NULs depend on the history.", "anchors": ["DotNetLibrary/src/StringBuilder.cpp::Equals"]}
{"id": "C64", "title": "StringBuilder indexer and ToString(start,length) read exact ranges", "statement": "get_Chars(i) is the i-th character of ToString() and throws IndexOutOfRangeException exactly for i outside the text; ToString(start,length) is the requested slice and throws exactly for ranges not inside the text.", "quantifier": "all histories, all Int32 indices and lengths", "why_tests_cant": "Every buffer content left by any history and every index.", "anchors": ["DotNetLibrary/src/StringBuilder.cpp::get_Chars", "DotNetLibrary/src/StringBuilder.cpp::ToString"]}
{"id": "C65", "title": "String.LastIndexOf(String) finds the last occurrence", "statement": "s.LastIndexOf(value, start, count) returns the greatest position in the backward range at which value stands in s, or -1; with default arguments the last occurrence in the whole string; ranges outside the string throw.", "quantifier": "all strings, patterns, starts and counts", "why_tests_cant": "Every text/pattern overlap and every backward window.", "anchors": ["DotNetLibrary/src/StringDotNet.cpp::LastIndexOf"]}
{"id": "C66", "title": "String.Insert, Remove and Replace are the list edits", "statement": "Insert(i,p) puts p in front of position i, Remove(i,n) takes out exactly that range (negative count: to the end), Replace replaces every leftmost non-overlapping occurrence; out-of-range arguments throw; the receiver is unchanged.", "quantifier": "all strings, indices, counts and replacement texts", "why_tests_cant": "Every string and position; failures sit at empty strings and overlapping copies.", "anchors": ["DotNetLibrary/src/StringDotNet.cpp::Insert", "DotNetLibrary/src/StringDotNet.cpp::Remove", "DotNetLibrary/src/StringDotNet.cpp::Replace"]}
{"id": "C67", "title": "Formatting into a caller's buffer stays inside it", "statement": "FormatString(where, size) writes the characters and a terminator inside the given buffer, leaves the cells behind untouched and reports the length, or throws when they do not fit; CopyChars truncates instead of overrunning.", "quantifier": "all strings, buffers and sizes", "why_tests_cant": "Every size relation; the overrun happens at exact fit only.", "anchors": ["DotNetLibrary/src/StringDotNet.cpp::FormatString", "DotNetLibrary/src/StringDotNet.cpp::CopyChars"]}
{"id": "C68", "title": "String constructors hold exactly the requested characters", "statement": "String(chars) holds the characters before the first NUL, String(c,n) n copies of c, String(array,start,length) the requested array slice; invalid arguments throw.", "quantifier": "all character sequences, counts and array ranges", "why_tests_cant": "Every array range including the default-length combinations.", "anchors": ["DotNetLibrary/src/StringDotNet.cpp::String"]}
{"id": "C69", "title": "IsNullOrEmpty and IsNullOrWhiteSpace", "statement": "IsNullOrEmpty is true exactly for null and the empty string; IsNullOrWhiteSpace exactly for null and strings made only of white space.", "quantifier": "null and all strings, all locales", "why_tests_cant": "Every string of any length.", "anchors": ["DotNetLibrary/src/StringDotNet.cpp::IsNullOrEmpty", "DotNetLibrary/src/StringDotNet.cpp::IsNullOrWhiteSpace"]}
{"id": "C70", "title": "Char classification overloads on (string, index) agree with the one-character ones", "statement": "Is*(s,i) and GetNumericValue(s,i) equal the one-Char function on the i-th character; indices outside the string throw ArgumentOutOfRangeException, null throws ArgumentNullException; GetNumericValue is 0..9 on digits and -1 elsewhere.", "quantifier": "all strings, all Int32 indices, all characters", "why_tests_cant": "Every string and index.", "anchors": ["DotNetLibrary/src/CharValue.cpp::IsWhiteSpace"]}
{"id": "C71", "title": "Char.Parse/TryParse/ToString", "statement": "Char.Parse returns the only character of a one-character string, throws FormatException for other strings and ArgumentNullException for null; TryParse succeeds exactly when Parse does; ToString round-trips for every code unit.", "quantifier": "all strings and code units", "why_tests_cant": "All code units including NUL and every indeterminate stack buffer content.", "anchors": ["DotNetLibrary/src/CharValue.cpp::Parse", "DotNetLibrary/src/CharValue.cpp::TryParse", "DotNetLibrary/src/Object.cpp::ToString"]}
{"id": "C72", "title": "Boolean and Char comparison is a total order consistent with Equals", "statement": "CompareTo is a total order (false<true; by code unit), every value is greater than null, other classes throw ArgumentException; Equals is true exactly for a boxed value of the same class and value and never fails.", "quantifier": "all values and all object arguments including null", "why_tests_cant": "All pairs and all argument classes.", "anchors": ["DotNetLibrary/src/BooleanValue.cpp::CompareTo", "DotNetLibrary/src/CharValue.cpp::CompareTo", "DotNetLibrary/src/CharValue.cpp::Equals"]}
{"id": "C73", "title": "Array.IndexOf finds the first match", "statement": "Array.IndexOf(array, value[, start[, count]]) over a one-dimensional array of references returns the least position in the searched range whose element is null (when searching null) or equal to the value according to its Equals, and -1 when there is none; out-of-range ranges throw and element types it does not support are refused.", "quantifier": "every array of references, searched value, start and count, and every behaviour of Equals", "why_tests_cant": "first-match is a statement about all positions of an array of any length and every Equals implementation", "anchors": ["DotNetLibrary/src/Array.cpp::IndexOf"]}
{"id": "C74", "title": "Math.Round is round-half-to-even", "statement": "For every finite Double, Math.Round returns the nearest integer as a finite Double, the even one of two equally near, keeping the sign bit; NaNs and infinities are returned unchanged; rounding twice is rounding once.", "quantifier": "all 2^64 bit patterns", "why_tests_cant": "2^64 patterns; ties and binade carries", "anchors": ["DotNetLibrary/src/DotNetMath.cpp::Round", "DotNetLibrary/src/DotNetMath.cpp::ExtractExponentFromBits"]}
{"id": "C75", "title": "Math.Divide of Doubles by zero", "statement": "Divide(x, 0) is NaN exactly when x is zero (or NaN is propagated) and otherwise an infinity with the sign of the IEEE quotient; it never raises.", "quantifier": "all Double pairs with a zero divisor", "why_tests_cant": "2^64 dividends times two zeros", "anchors": ["DotNetLibrary/src/DotNetMath.cpp::Divide"]}
{"id": "C76", "title": "Math.Min/Max/Clamp/Sign on floating-point values", "statement": "Max/Min return the larger/smaller argument, order -0 before +0 and propagate NaN; MaxMagnitude/MinMagnitude compare absolute values; Clamp throws exactly when min>max; Sign is -1/0/1 and throws ArithmeticException exactly on NaN.", "quantifier": "all pairs and triples of Double and Single bit patterns", "why_tests_cant": "2^128 pairs, NaN and signed zeros", "anchors": ["DotNetLibrary/src/DotNetMath.cpp::Max", "DotNetLibrary/src/DotNetMath.cpp::Min", "DotNetLibrary/src/DotNetMath.cpp::MaxMagnitude", "DotNetLibrary/src/DotNetMath.cpp::Clamp", "DotNetLibrary/src/DotNetMath.cpp::Sign"]}
{"id": "C77", "title": "Math.CopySign", "statement": "CopySign(x, y) has the magnitude bits of x and the sign bit of y, for every pair of bit patterns including NaNs.", "quantifier": "all pairs of Double bit patterns", "why_tests_cant": "2^128 pairs", "anchors": ["DotNetLibrary/src/DotNetMath.cpp::CopySign"]}
{"id": "C78", "title": "Math.BigMul is exact", "statement": "BigMul(a, b) is the mathematical product of any two Int32 values.", "quantifier": "all pairs of Int32", "why_tests_cant": "2^64 pairs", "anchors": ["DotNetLibrary/src/DotNetMath.cpp::BigMul"]}
{"id": "C79", "title": "Math.Abs on integers", "statement": "Abs(v) is the absolute value for every integer whose absolute value is representable, and does not silently misbehave at MinValue.", "quantifier": "all integers of the signed types", "why_tests_cant": "whole value ranges", "anchors": ["DotNetLibrary/src/DotNetMath.cpp::Abs"]}
{"id": "C80", "title": "Generated file is its headers followed by its types in closed namespace blocks", "statement": "For every sequence of types written to an output file, the file consists of the header lines followed by the types, each inside a block for its own namespace; every opened namespace block is closed exactly once, distinct namespaces give distinct block names, and every block name is a legal C++ identifier.", "quantifier": "all sequences of (namespace, type body) within the supported nesting depth", "why_tests_cant": "unbounded sequences of types and namespace changes", "anchors": ["CppTranslator/Formatter.cs::SetNamespace", "CppTranslator/Formatter.cs::CloseNamespace", "CppTranslator/Formatter.cs::Close", "CppTranslator/Program.cs::ProcessModules"]}
{"id": "C81", "title": "No output file is created or changed before it is complete", "statement": "Until a translation closes its output, no file on disk has been created or altered, so a failure while generating leaves no truncated file.", "quantifier": "all sequences of formatter operations and every point at which generation may fail", "why_tests_cant": "every prefix of every history is a crash point", "anchors": ["CppTranslator/Formatter.cs::Flush", "CppTranslator/Formatter.cs::Close", "CppTranslator/Formatter.cs::OutputName"]}
{"id": "C82", "title": "The supported-type table is loaded completely and every row is effective", "statement": "Loading the supported-type table stores every row, reports no failure, and each row can actually be matched by a type reference.", "quantifier": "all tables; the shipped table", "why_tests_cant": "a table with hundreds of rows is only ever sampled; one bad row silently drops all later rows", "anchors": ["CppTranslator/CppTypeVisitor.cs::LoadValidationData", "CppTranslator/ValidTypes.cs::ValidDataTable"]}
{"id": "C83", "title": "A type used by value is defined before its user", "statement": "In the generated header, every translated type that another translated type holds by value (a struct-typed field, or a base class) is defined before the type that holds it, so the header compiles for every order in which the decompiler presents the types.", "quantifier": "all lists of translated classes and structs, in every order, with every field and base relation among them", "why_tests_cant": "the number of type orders and dependency graphs is unbounded; a test fixes one source file and one order", "anchors": ["CppTranslator/HeaderTypeVisitor.cs::CreateHeaders"]}
{"id": "C84", "title": "The header defines each translated type exactly once", "statement": "The generated header defines every translated class and struct exactly once and nothing else, and opens every namespace that occurs in the module with a using line.", "quantifier": "all modules: every list of types and namespaces", "why_tests_cant": "must hold for every module, not for the sample ones", "anchors": ["CppTranslator/HeaderTypeVisitor.cs::CreateHeaders", "CppTranslator/HeaderTypeVisitor.cs::WriteUsingNamespaces", "CppTranslator/Program.cs::ProcessModules"]}
{"id": "C85", "title": "The base clause names every base, publicly", "statement": "The base clause of a generated class names the base class and every interface of the C# class, each inherited publicly, so that a derived object converts to each of its bases as in C#.", "quantifier": "all base lists of all lengths", "why_tests_cant": "base lists are unbounded; a one-base test passes while the second base is wrong", "anchors": ["CppTranslator/HeaderTypeVisitor.cs::OutputParentage", "CppTranslator/HeaderTypeVisitor.cs::WriteBaseClasses"]}
{"id": "C86", "title": "Floating constants keep value and type", "statement": "Every float and double constant of the program is emitted as a C++ expression of the same type that denotes exactly the same value.", "quantifier": "all finite and special binary32 and binary64 constants", "why_tests_cant": "2^64 bit patterns; printing and rereading loses precision only for particular values", "anchors": ["CppTranslator/MyIlInstructionVisitor.cs::VisitLdcF4", "CppTranslator/MyIlInstructionVisitor.cs::VisitLdcF8", "CppTranslator/MyIlInstructionVisitor.cs::ConvertConstants"]}
{"id": "C87", "title": "A name is used in the spelling it is declared with", "statement": "A method, class, field or property accessor is referred to in the generated function bodies by the same identifier under which the generated header declares it.", "quantifier": "all C# identifiers, including those starting with lower-case letters and compiler-generated ones", "why_tests_cant": "identifiers are unbounded; the two sides are written by different visitors", "anchors": ["CppTranslator/CppTypeVisitor.cs::FormatMethodAccessType", "CppTranslator/MyIlInstructionVisitor.cs::VisitNewObj", "CppTranslator/MyIlInstructionVisitor.cs::VisitLdFlda", "CppTranslator/HeaderTypeVisitor.cs::WriteMethodHeader", "CppTranslator/HeaderTypeVisitor.cs::VisitPropertyDeclaration"]}
{"id": "C88", "title": "Enumerator names are distinct", "statement": "Two different enumerators of the translated program are emitted under different C++ identifiers, so no unscoped enumerator collides with another.", "quantifier": "all pairs of enum and member names", "why_tests_cant": "identifier pairs are unbounded", "anchors": ["CppTranslator/ProtoTypeVisitor.cs::VisitEnumMemberDeclaration"]}
{"id": "C89", "title": "Outputs go beside the input and do not overwrite each other", "statement": "The generated files are written in the directory `generated` of the input file's directory, for every spelling of the input path, and the outputs of one run are distinct files.", "quantifier": "all input paths, with either separator", "why_tests_cant": "paths are unbounded; a test uses the separator of the machine it runs on", "anchors": ["CppTranslator/Program.cs::GetPathToAssembly"]}
{"id": "C90", "title": "A returned value is converted to the enclosing member's type", "statement": "The conversion inserted in a return statement is to the return type of the member whose body contains the statement, for every sequence of methods and properties visited before it.", "quantifier": "all histories of visited members and bodies", "why_tests_cant": "the type is kept in mutable visitor state, so the result depends on the whole visiting history", "anchors": ["CppTranslator/CppVisitorBase.cs::VisitMethodDeclaration", "CppTranslator/CppVisitorBase.cs::VisitPropertyDeclaration", "CppTranslator/MyIlInstructionVisitor.cs::VisitLeave"]}
{"id": "C91", "title": "Every statement is translated exactly once, in order", "statement": "The statements of a method body appear in the generated C++ body exactly once each and in the order they have in the source, whatever control structure contains them.", "quantifier": "all method bodies, with any nesting of blocks, loops, conditionals and try regions", "why_tests_cant": "bodies nest without bound", "anchors": ["CppTranslator/MyIlInstructionVisitor.cs::WriteBlock", "CppTranslator/MyIlInstructionVisitor.cs::VisitTryCatch", "CppTranslator/MyIlInstructionVisitor.cs::VisitTryFinally"]}
{"id": "C92", "title": "A static constructor's generated function returns on every path", "statement": "The bool function generated from a static constructor ends with exactly one injected `return (true);`, reached on every path through the body, and keeps the early returns of the source.", "quantifier": "all static constructor bodies", "why_tests_cant": "bodies nest without bound and the injected return depends on visitor state", "anchors": ["CppTranslator/MyIlInstructionVisitor.cs::VisitBlockContainer", "CppTranslator/MyIlInstructionVisitor.cs::WriteBlock", "CppTranslator/CppVisitorBase.cs::WriteMethodBody"]}
{"id": "C93", "title": "Every goto has its label", "statement": "Each `goto` emitted in a method names a label that is defined in the same method.", "quantifier": "all method bodies", "why_tests_cant": "the set of branches and blocks is unbounded; the C++ compiler only sees the programs it is given", "anchors": ["CppTranslator/MyIlInstructionVisitor.cs::AddLabelIfNeeded", "CppTranslator/MyIlInstructionVisitor.cs::VisitBranch"]}
{"id": "C94", "title": "A translated integer expression has the source's value", "statement": "Evaluating the C++ expression generated for an integer expression of the source and storing it in a variable gives the value, or raises the exception, that the source expression gives, for every operator, operand type, signedness flag and overflow-checking flag.", "quantifier": "all integer expression trees and all contents of the variables", "why_tests_cant": "expression trees and operand values are unbounded; differences show only at sign, width and overflow boundaries", "anchors": ["CppTranslator/MyIlInstructionVisitor.cs::VisitBinaryNumericInstruction", "CppTranslator/MyIlInstructionVisitor.cs::HandleDivideByZero", "CppTranslator/MyIlInstructionVisitor.cs::VisitComp", "CppTranslator/MyIlInstructionVisitor.cs::CastToPrimativeType", "CppTranslator/MyIlInstructionVisitor.cs::VisitIfInstruction"]}
{"id": "C95", "title": "The labels of a translated method are distinct", "statement": "No two blocks of one translated method define the same `IL_xxxx` label (C++ rejects a function that defines a label twice).", "quantifier": "all method bodies", "why_tests_cant": "block structures and nesting are unbounded, and the rule that leaves a label out depends on the first instruction of each block", "anchors": ["CppTranslator/MyIlInstructionVisitor.cs::AddLabelIfNeeded", "CppTranslator/MyIlInstructionVisitor.cs::VisitBlockContainer", "CppTranslator/MyIlInstructionVisitor.cs::HandleTryBlock"]}
{"id": "C96", "title": "Every label is followed by a statement", "statement": "In a translated method no label is followed directly by a closing brace (which C++ before C++23 rejects).", "quantifier": "all method bodies", "why_tests_cant": "it depends on what the last statement of every block is, for unbounded nesting", "anchors": ["CppTranslator/MyIlInstructionVisitor.cs::VisitBlockContainer", "CppTranslator/MyIlInstructionVisitor.cs::WriteBlockWithBraces", "CppTranslator/MyIlInstructionVisitor.cs::AddLabelIfNeeded"]}
{"id": "C97", "title": "Null and unsuitable arguments are rejected, never dereferenced", "statement": "A library method that needs an object and gets null throws ArgumentNullException (or, where .NET accepts null, treats it as empty), and an array of the wrong rank or element type is rejected with an exception, whatever the receiver and the other arguments are.", "quantifier": "all receivers, all values of the remaining arguments, of the String, StringBuilder, Array, Buffer, BitConverter and parsing methods", "why_tests_cant": "the remaining arguments and receivers are unbounded, and an invalid dereference may go unnoticed in a test", "anchors": ["DotNetLibrary/src/StringDotNet.cpp::String", "DotNetLibrary/src/StringBuilder.cpp::StringBuilder", "DotNetLibrary/src/Array.cpp::Array", "DotNetLibrary/src/Buffer.cpp::Buffer", "DotNetLibrary/src/BitConverter.cpp::BitConverter", "DotNetLibrary/src/Int32Value.cpp::Equals"]}
{"id": "C98", "title": "Boxed integers compare, equal and convert like the numbers", "statement": "For a boxed integer, CompareTo(Object) puts null first, rejects other types and orders like the numbers; Equals(Object) holds exactly for a box of the same type with the same number; reading it as another integer type gives the congruent value of that type.", "quantifier": "all integer types, all values, all boxed arguments", "why_tests_cant": "2^64 values for each pair of types", "anchors": ["DotNetLibrary/src/Int32Value.cpp::CompareTo", "DotNetLibrary/src/Int64Value.cpp::CompareTo", "DotNetLibrary/src/UInt64Value.cpp::Equals", "DotNetLibrary/src/ByteValue.cpp::Equals"]}
{"id": "C99", "title": "An initialised array has the elements of its initialiser", "statement": "After Initialize from a C++ array of the element type, each element of the Array, of any rank and size, is the initialiser's element at the row-major position of its index.", "quantifier": "all shapes, all element lists, all indices", "why_tests_cant": "sizes, ranks and contents are unbounded", "anchors": ["DotNetLibrary/src/Array.cpp::Initialize", "DotNetLibrary/src/Array.cpp::ComputeIndex"]}
{"id": "C100", "title": "Reference types are pointers and members are reached accordingly", "statement": "In the generated code a variable is declared as a pointer exactly when its .NET type is a reference type, and its members are reached with `->` exactly when it is declared as a pointer.", "quantifier": "all types", "why_tests_cant": "the set of types is unbounded; a wrong operator shows only when the generated code is compiled", "anchors": ["CppTranslator/CppTypeVisitor.cs::IsPointerType", "CppTranslator/CppTypeVisitor.cs::FormatTypeAccess", "CppTranslator/CppTypeVisitor.cs::FormatTypeDelaration"]}
{"id": "C101", "title": "A translated method body does what the method does", "statement": "Running the C++ statements written for a method performs the same simple statements and condition tests, on the same states and in the same order, jumps as often, and returns or lets an exception out in the same way as running the method's instruction tree: loops, breaks, gotos, if/else, switch and try/catch included.", "quantifier": "all method bodies, all machine states, runs of any length", "why_tests_cant": "method bodies are arbitrary trees and runs are unbounded; a wrong label or brace changes behaviour only for some nesting of containers", "anchors": ["CppTranslator/MyIlInstructionVisitor.cs::VisitBlockContainer", "CppTranslator/MyIlInstructionVisitor.cs::VisitLeave", "CppTranslator/MyIlInstructionVisitor.cs::VisitBranch", "CppTranslator/MyIlInstructionVisitor.cs::VisitIfInstruction", "CppTranslator/MyIlInstructionVisitor.cs::VisitSwitchInstruction", "CppTranslator/MyIlInstructionVisitor.cs::VisitTryCatch"]}
{"id": "C102", "title": "A translated method is one function body", "statement": "The text written after the header of a method, constructor, accessor or operator has matching braces and is one compound statement, so that it is the body of that function.", "quantifier": "all method bodies, with and without injected statement", "why_tests_cant": "bodies are arbitrary trees; only some control flow keeps more than one block at the top", "anchors": ["CppTranslator/MyIlInstructionVisitor.cs::StartMainBlock", "CppTranslator/MyIlInstructionVisitor.cs::VisitBlockContainer", "CppTranslator/CppVisitorBase.cs::WriteMethodBody"]}
{"id": "C103", "title": "Local variables are declared where they are used", "statement": "Every local variable of a method is declared exactly once in the C++, under a name that is not a parameter, before and in a scope enclosing every place that mentions it.", "quantifier": "all method bodies and all placements of stores, uses and handlers", "why_tests_cant": "scoping depends on where in an arbitrary tree the first store happens", "anchors": ["CppTranslator/MyIlInstructionVisitor.cs::DeclareLocalVariables", "CppTranslator/MyIlInstructionVisitor.cs::CheckVariableAddition", "CppTranslator/MyIlInstructionVisitor.cs::DeclareVariableIfNeeded", "CppTranslator/MyIlInstructionVisitor.cs::WriteBlock"]}
{"id": "C104", "title": "An if statement tests the source's condition", "statement": "The C++ if statement written for a conditional statement takes the same branch as the source, whatever the condition: comparisons, arithmetic, and combinations with && and ||.", "quantifier": "all condition expressions and all contents of the variables", "why_tests_cant": "conditions nest to any depth and depend on run-time values; a dropped operand shows only for particular values", "anchors": ["CppTranslator/MyIlInstructionVisitor.cs::VisitIfInstruction", "CppTranslator/MyIlInstructionVisitor.cs::BuildCondition"]}
{"id": "C105", "title": "Compound assignments and increments change the variable as the source does", "statement": "The C++ statement generated for `x op= v`, `x++`, `++x`, `x--` or `--x` leaves in the variable the value the source statement leaves and has, as an expression, the value the source expression has; increments are written only for the constant 1, and translation of every such statement succeeds.", "quantifier": "all operators, operand types, flags, integer value expressions, floating constants and contents of the variables", "why_tests_cant": "values, types and constants are unbounded; the shortcut for the constant 1 can go wrong on any constant or use of the result", "anchors": ["CppTranslator/MyIlInstructionVisitor.cs::VisitNumericCompoundAssign", "CppTranslator/MyIlInstructionVisitor.cs::GetAsIntConstant", "CppTranslator/MyIlInstructionVisitor.cs::HandleIncrementAndDecrement", "CppTranslator/MyIlInstructionVisitor.cs::VisitStLoc"]}
{"id": "C106", "title": "Every declared member has its definition", "statement": "For every translated class or struct, the definitions in the generated source file are, in order, exactly those of the functions and static fields its declaration in the header announces (abstract methods excepted), each as a member of that class with the same return or field type, name and parameter list, so the generated program links.", "quantifier": "all classes and all lists of members (constructors, static constructors, methods, fields, properties, operators), all types, names and parameter modifiers", "why_tests_cant": "header and source are written by two different visitors; that they agree must hold for every combination of member kind, type and spelling", "anchors": ["CppTranslator/HeaderTypeVisitor.cs::VisitMethodDeclaration", "CppTranslator/HeaderTypeVisitor.cs::VisitPropertyDeclaration", "CppTranslator/HeaderTypeVisitor.cs::VisitFieldDeclaration", "CppTranslator/CppVisitorBase.cs::VisitOperatorDeclaration", "CppTranslator/CppVisitorBase.cs::FormatStaticFieldDeclaration", "CppTranslator/CppVisitorBase.cs::WriteStaticConstructor"]}
{"id": "C107", "title": "Members keep their static, virtual and abstract nature", "statement": "A member is declared static in C++ exactly when it is static in C#, virtual exactly when it is abstract or virtual there, pure exactly when it is abstract; no declaration combines specifiers C++ does not allow together.", "quantifier": "all member kinds and all combinations of modifiers", "why_tests_cant": "every combination of member kind and modifiers must be covered, and legality is judged by a C++ compiler on each output", "anchors": ["CppTranslator/CppVisitorBase.cs::WriteModifiers", "CppTranslator/HeaderTypeVisitor.cs::VisitMethodDeclaration", "CppTranslator/HeaderTypeVisitor.cs::VisitPropertyDeclaration", "CppTranslator/HeaderTypeVisitor.cs::VisitFieldDeclaration"]}
{"id": "C108", "title": "Base constructors receive their arguments", "statement": "A translated constructor that calls a base or sibling constructor calls it in C++ too, with one argument for each C# argument, in order, each denoting the C# argument; an initialiser that cannot be translated stops the translation.", "quantifier": "all constructor initialisers and all argument expressions", "why_tests_cant": "a dropped argument still compiles when the base class has a constructor with fewer parameters, so only a statement over all argument expressions shows it", "anchors": ["CppTranslator/CppVisitorBase.cs::VisitConstructorInitializer", "CppTranslator/CppVisitorBase.cs::VisitPrimitiveExpression", "CppTranslator/CppVisitorBase.cs::VisitBinaryOperatorExpression", "CppTranslator/CppVisitorBase.cs::WriteCommaSeparatedListInParenthesis"]}
{"id": "C109", "title": "By-reference parameters refer to the caller's variable", "statement": "A variable can be passed for every parameter of its type; a ref or out parameter is another name for the caller's variable, a value parameter is a copy.", "quantifier": "all types, parameter modifiers and names", "why_tests_cant": "the declared text is judged by a C++ compiler for each type and modifier combination", "anchors": ["CppTranslator/CppVisitorBase.cs::AddParameterModifiers", "CppTranslator/CppVisitorBase.cs::VisitParameterDeclaration", "CppTranslator/MyIlInstructionVisitor.cs::VisitLdLoca"]}
{"id": "C110", "title": "Every translated struct can be default-constructed", "statement": "As in C#, every translated struct has a default constructor in C++ (so that fields, locals and array elements of the type can be declared), and none is declared twice.", "quantifier": "all structs and all lists of their constructors, static ones included", "why_tests_cant": "depends on every combination and order of constructors", "anchors": ["CppTranslator/HeaderTypeVisitor.cs::HeaderTypeDeclaration", "CppTranslator/HeaderTypeVisitor.cs::CreateDefaultConstructor", "CppTranslator/HeaderTypeVisitor.cs::VisitConstructorDeclaration"]}
{"id": "C111", "title": "A translated string concatenation has the source's value", "statement": "Translating nested calls of String.Concat (the C# operator + on strings), with operands as arguments or in an array, emits a C++ expression that compiles and evaluates to the concatenation of the operands' texts in order, null operands counting as the empty string.", "quantifier": "every nesting of concatenations, every number of operands and every run-time value of the operands, null included", "why_tests_cant": "The feature test concatenates four non-null strings; the operand count selects an overload at C++ compile time and null is a run-time value, so no finite set of programs shows it.", "anchors": ["CppTranslator/MyIlInstructionVisitor.cs::HandleStringConcat", "CppTranslator/MyIlInstructionVisitor.cs::HandleConcatBlock", "DotNetLibrary/include/StringDotNet.h::Concat", "DotNetLibrary/src/StringDotNet.cpp::Concat"]}
{"id": "C112", "title": "Operands with side effects are evaluated in the source's order", "statement": "Whatever evaluation order a conforming C++11 compiler chooses for a translated expression, the expression is defined and has the value and side effects that C#'s left-to-right evaluation gives.", "quantifier": "every expression built from constants, variables, array elements, assignments, compound assignments, operators, conditionals and calls, every initial storage, every method behaviour and every order of evaluation", "why_tests_cant": "A test observes the order one compiler version happened to choose; the C++ standard leaves the order open and makes some programs undefined.", "anchors": ["CppTranslator/MyIlInstructionVisitor.cs::VisitBinaryNumericInstruction", "CppTranslator/MyIlInstructionVisitor.cs::AddCallParameters", "CppTranslator/MyIlInstructionVisitor.cs::VisitStLoc", "CppTranslator/MyIlInstructionVisitor.cs::VisitStObj", "CppTranslator/MyIlInstructionVisitor.cs::VisitNumericCompoundAssign", "CMakeLists.txt::CMAKE_CXX_STANDARD"]}
{"id": "C113", "title": "Every accepted library call is declared by the library", "statement": "If the translator accepts a library method without a report, the C++ call it emits resolves, by C++ member lookup and overload resolution, to exactly one public method that the library headers declare with matching parameters.", "quantifier": "every method row of the shipped table of supported methods and every public method of the headers of DotNetLibrary", "why_tests_cant": "No test compiles a call of each of the 490 accepted methods; the table and the headers are edited independently.", "anchors": ["CppTranslator/ValidTypes.xml::Valid", "CppTranslator/MyIlInstructionVisitor.cs::FormatCall", "CppTranslator/MyIlInstructionVisitor.cs::HandleStringImplicit", "CppTranslator/CppTypeVisitor.cs::ValidateCall", "DotNetLibrary/include/DotnetTypes.h::DataType"]}
{"id": "C114", "title": "Every use of an unsupported library type or member is reported", "statement": "Translating an instruction reports exactly the unsupported library types and members that the emitted C++ refers to, each once.", "quantifier": "every instruction tree and every table of supported names", "why_tests_cant": "The tests translate programs that use supported members only; a missed check shows up only as a C++ compile error in someone else's program.", "anchors": ["CppTranslator/CppTypeVisitor.cs::ValidateCall", "CppTranslator/CppTypeVisitor.cs::FormatTypeDelaration", "CppTranslator/CppTypeVisitor.cs::FormatType", "CppTranslator/MyIlInstructionVisitor.cs::VisitNewObj", "CppTranslator/MyIlInstructionVisitor.cs::VisitLdsFlda"]}
{"id": "C115", "title": "An exception reaches the handler the source says", "statement": "A translated program with throw, rethrow and nested try/catch performs the same actions in the same order as the source and ends the same way: each thrown exception is handled by the first handler (innermost try first, then in order) whose type is the class of the exception object or a base class of it and whose filter holds, and an exception no handler accepts leaves the statement unchanged.", "quantifier": "Every statement built from actions, throws of objects of any static and dynamic class, rethrow, sequence and nested try/catch with any handlers and filters.", "why_tests_cant": "The number of nestings, class hierarchies and orders of handlers is unbounded; a test covers one shape.", "anchors": ["CppTranslator/MyIlInstructionVisitor.cs::VisitTryCatch", "CppTranslator/MyIlInstructionVisitor.cs::VisitThrow", "CppTranslator/MyIlInstructionVisitor.cs::VisitRethrow", "DotNetLibrary/include/Exception.h::ArgumentNullException"]}
{"id": "C116", "title": "Unboxing gives back what was boxed", "statement": "Boxing a value and casting the object back to the value's type yields the same value; casting it to any other type raises InvalidCastException, and casting a null reference raises NullReferenceException.", "quantifier": "Every boxable library type, every value of it, every target type, and null.", "why_tests_cant": "All pairs of types and all values, including not-a-number patterns and extreme integers, must be covered.", "anchors": ["CppTranslator/MyIlInstructionVisitor.cs::VisitBox", "CppTranslator/MyIlInstructionVisitor.cs::VisitUnboxAny", "DotNetLibrary/src/Object.cpp::get_AsInt32", "DotNetLibrary/src/DoubleValue.cpp::get_AsInt32"]}
{"id": "C117", "title": "The default value of a struct has every field zero", "statement": "`default(S)` and `new S()` of a translated struct yield a value all of whose fields, at every depth of nested structs, are zero, false or null.", "quantifier": "Every C# struct: any members and constructors, any nesting of struct fields.", "why_tests_cant": "Uninitialised memory often happens to be zero in a test run, and nesting is unbounded.", "anchors": ["CppTranslator/MyIlInstructionVisitor.cs::VisitDefaultValue", "CppTranslator/HeaderTypeVisitor.cs::CreateDefaultConstructor"]}
{"id": "C118", "title": "Compound assignment with an overloaded operator", "statement": "A translated `target op= value` whose operator is a user-defined method or string concatenation evaluates the target once, calls the method once with the old value and the right operand, stores the result in that target, and has that result as its value, whatever order of evaluation the C++ compiler chooses.", "quantifier": "Every target (variable, field or array element with any index expression), every right operand with any side effects, every method, every evaluation order C++ allows.", "why_tests_cant": "The order of evaluation is the compiler's choice, and double evaluation only shows for targets with side effects.", "anchors": ["CppTranslator/MyIlInstructionVisitor.cs::VisitUserDefinedCompoundAssign"]}
{"id": "C119", "title": "Members are reached with the operator the operand's C++ type needs", "statement": "In the translated text every field access and instance call uses `->` when the C++ type of the operand is a pointer and `.` when it is an object or a reference to one, and a value of a primitive type is wrapped in its library class before a method is called on it.", "quantifier": "Every operand that correct IL allows: locals, parameters with any modifier, this, fields, static fields, array elements, dereferenced references, call results, new objects, of class, struct, array or interface type.", "why_tests_cant": "The combinations of operand, modifier and type kind are not enumerated by the project's tests, and each only shows when the output is compiled.", "anchors": ["CppTranslator/MyIlInstructionVisitor.cs::HandleFieldAccess", "CppTranslator/MyIlInstructionVisitor.cs::FormatCallInstance", "CppTranslator/CppTypeVisitor.cs::GetTypeForInstruction", "CppTranslator/CppTypeVisitor.cs::FormatTypeAccess"]}
{"id": "C120", "title": "A call reaches the method the source says", "statement": "A translated method call executes the same method as the source's: the most derived override for a virtual call, the named class's own method for base.Method() and for non-virtual methods, whatever classes hide or overload it.", "quantifier": "Every class hierarchy of any depth, every method, every static type of the operand and every class of the object.", "why_tests_cant": "Class hierarchies are unbounded; dispatch depends on classes that may be written later.", "anchors": ["CppTranslator/MyIlInstructionVisitor.cs::FormatCall", "CppTranslator/MyIlInstructionVisitor.cs::VisitCall", "CppTranslator/CppVisitorBase.cs::WriteModifiers"]}
{"id": "C121", "title": "Fields start with the values of their initialisers", "statement": "A new object of a translated class, and the static fields of a translated class, have the values the source's field initialisers and constructor give them.", "quantifier": "every class: every list of initialisers, every set of constructors, every constructor called", "why_tests_cant": "classes, initialisers and constructors combine without bound; a test sees only the fields and constructors it uses", "anchors": ["CppTranslator/HeaderTypeVisitor.cs::VisitFieldDeclaration", "CppTranslator/CppVisitorBase.cs::VisitVariableInitializer", "CppTranslator/CppVisitorBase.cs::VisitConstructorDeclaration"]}
{"id": "C122", "title": "Static fields are initialised before they are used", "statement": "When the translated program's main begins, every class's static fields have the values which the source's execution of static constructors at the first access gives them.", "quantifier": "every program: every list of classes and static constructors, every use of one class's fields by another's constructor", "why_tests_cant": "depends on the order of all classes of the program and on which uses which; tests fix one order", "anchors": ["CppTranslator/CppVisitorBase.cs::WriteStaticConstructor", "CppTranslator/Program.cs::ProcessModules"]}
{"id": "C123", "title": "An if is written as a statement where it is one and as an expression where its value is used", "statement": "In a translated block an if instruction in statement position becomes an if statement with braces, one whose value is used becomes a ?: expression, and every other instruction with text ends with exactly one semicolon.", "quantifier": "every tree of instructions, of any size and nesting, and every state of the formatter", "why_tests_cant": "the choice is made from the formatter's state, i.e. from everything printed before; tests print few combinations", "anchors": ["CppTranslator/MyIlInstructionVisitor.cs::VisitIfInstruction", "CppTranslator/MyIlInstructionVisitor.cs::WriteBlock", "CppTranslator/Formatter.cs::CharactersAddedToLine"]}
{"id": "C124", "title": "Adding a Double of days, hours, minutes, seconds or milliseconds to a DateTime", "statement": "DateTime.AddDays, AddHours, AddMinutes, AddSeconds and AddMilliseconds add the amount rounded to the nearest millisecond: every whole amount a Double can hold is added exactly, the result is exactly that many milliseconds away or ArgumentOutOfRangeException when it would leave the calendar, infinities and NaN throw, and no call has undefined behaviour.", "quantifier": "every DateTime, every Double bit pattern and each of the five methods", "why_tests_cant": "The result depends on two floating-point roundings whose error depends on the magnitude; only an argument over all 2^64 patterns and all dates covers the boundaries, and undefined conversions do not show in tests on one compiler.", "anchors": ["DotNetLibrary/src/DateTimeValue.cpp::Add", "DotNetLibrary/src/DateTimeValue.cpp::AddDays", "DotNetLibrary/src/DateTimeValue.cpp::AddSeconds"]}
{"id": "C125", "title": "TimeSpan.FromDays, FromHours, FromMinutes, FromSeconds, FromMilliseconds", "statement": "TimeSpan.FromX of a Double is the TimeSpan of that many units: the product as the nearest Double, its fraction dropped; whole days and hours whose ticks fit are exact; too long an interval is an OverflowException, NaN an ArgumentException; no call has undefined behaviour.", "quantifier": "every Double bit pattern and each of the five functions", "why_tests_cant": "The limit tests convert Int64.MaxValue to a Double, so the behaviour at the edge depends on rounding; all 2^64 patterns have to be considered.", "anchors": ["DotNetLibrary/src/TimeSpanValue.cpp::Interval", "DotNetLibrary/src/TimeSpanValue.cpp::FromDays"]}
{"id": "C126", "title": "TimeSpan.Multiply and Divide", "statement": "Multiply and Divide by a Double give the product or quotient rounded to the nearest tick (ties to even): exact when the numbers are whole and have at most 53 significant bits; overflow, division by zero and NaN throw; no call has undefined behaviour. Divide by a TimeSpan is the nearest Double to the ratio.", "quantifier": "every TimeSpan and every Double bit pattern", "why_tests_cant": "Three roundings in a row and limits at 2^63 that are not themselves representable: no finite set of cases settles it.", "anchors": ["DotNetLibrary/src/TimeSpanValue.cpp::Multiply", "DotNetLibrary/src/TimeSpanValue.cpp::Divide"]}
{"id": "C127", "title": "TimeSpan.TotalDays, TotalHours, TotalMinutes, TotalSeconds, TotalMilliseconds", "statement": "The Total properties are the Double nearest to the exact ratio of the tick count to the unit (for tick counts up to 2^53; beyond, of the tick count as the nearest Double); whole units of at most 53 significant bits of ticks come back exactly; whole days survive FromDays(TotalDays); TotalMilliseconds is limited to the longest whole number of milliseconds.", "quantifier": "every TimeSpan and each of the five properties", "why_tests_cant": "Correct rounding is a statement about every other Double for each of 2^64 tick counts.", "anchors": ["DotNetLibrary/src/TimeSpanValue.cpp::get_TotalDays", "DotNetLibrary/src/TimeSpanValue.cpp::get_TotalMilliseconds"]}
{"id": "C128", "title": "The text of a Double or Single is its nearest six-digit decimal", "statement": "ToString of every finite Double or Single returns a decimal numeral with the value's sign and at most six significant digits, such that no decimal number of at most six digits (with any exponent) is nearer to the value; it never writes outside its 128-character buffer.", "quantifier": "every finite bit pattern of both formats (2^64 and 2^32 patterns), including zeros and subnormals", "why_tests_cant": "2^64 values; the rounding carries (999999.5), binade boundaries and subnormals cannot be enumerated by tests", "anchors": ["DotNetLibrary/src/DoubleValue.cpp::FormatString", "DotNetLibrary/src/SingleValue.cpp::FormatString", "DotNetLibrary/src/Object.cpp::ToString"]}
{"id": "C129", "title": "Floating-point text round-trips", "statement": "For every finite Double or Single v, Parse(v.ToString()) is v.", "quantifier": "every finite bit pattern of both formats", "why_tests_cant": "2^64 values; which values survive depends on all digits of the binary-to-decimal conversion", "anchors": ["DotNetLibrary/src/DoubleValue.cpp::FormatString", "DotNetLibrary/src/DoubleValue.cpp::Parse", "DotNetLibrary/src/SingleValue.cpp::FormatString", "DotNetLibrary/src/SingleValue.cpp::Parse"]}
{"id": "C130", "title": "Double.Parse and Single.Parse read decimal numerals and reject everything else", "statement": "Parse of a decimal numeral (optional white space, sign, digits with optional point, optional exponent) returns the number rounded to nearest, ties to even; a null string throws ArgumentNullException and any other text throws FormatException.", "quantifier": "every string of any length", "why_tests_cant": "unbounded texts: all digit strings and exponents, and everything that is not a numeral", "anchors": ["DotNetLibrary/src/DoubleValue.cpp::Parse", "DotNetLibrary/src/SingleValue.cpp::Parse"]}
{"id": "C131", "title": "Double.TryParse and Single.TryParse agree with Parse and report failure", "statement": "TryParse returns true with the value Parse returns whenever Parse returns one, and otherwise returns false with result 0 without any other effect.", "quantifier": "every string of any length, and null", "why_tests_cant": "unbounded texts; the failing case reads an uninitialised variable, which a test may or may not notice", "anchors": ["DotNetLibrary/src/DoubleValue.cpp::TryParse", "DotNetLibrary/src/DoubleValue.cpp::TryParseInternal", "DotNetLibrary/src/SingleValue.cpp::TryParse", "DotNetLibrary/src/SingleValue.cpp::TryParseInternal"]}
{"id": "C132", "title": "The floating-point remainder is exact", "statement": "Double.Modulus and Single.Modulus (the translation of a % b) return the exact truncated remainder with the sign of the dividend, a NaN for NaN operands, infinite dividends and zero divisors, and the dividend for infinite divisors.", "quantifier": "all pairs of bit patterns of a format", "why_tests_cant": "2^128 pairs; exactness must hold when the operands' exponents differ by up to two thousand", "anchors": ["DotNetLibrary/src/DoubleValue.cpp::Modulus", "DotNetLibrary/src/SingleValue.cpp::Modulus"]}
{"id": "C133", "title": "A translated floating-point expression has the source's value", "statement": "When the translator emits C++ for a floating-point expression (+, -, *, /, %, conversions between float, double and integers, constants, variables), the value assigned, the outcome of a comparison and the number obtained by converting to long are the ones the C# expression has, for every contents of the variables including NaN, infinities, signed zeros and subnormal numbers.", "quantifier": "every floating-point expression tree over float and double, every bit pattern in the variables, every comparison operator", "why_tests_cant": "Divisions and remainders of floats are emitted as calls on doubles; whether computing in double and rounding afterwards changes a result depends on single bit patterns among 2^64 operand pairs per operation, and on where in an expression the result is used.", "anchors": ["CppTranslator/MyIlInstructionVisitor.cs::VisitBinaryNumericInstruction", "CppTranslator/MyIlInstructionVisitor.cs::HandleDivideByZero", "CppTranslator/MyIlInstructionVisitor.cs::HandleSpecialModulusWithFLoatingNumbers", "CppTranslator/MyIlInstructionVisitor.cs::VisitConv", "DotNetLibrary/src/DotNetMath.cpp::Math::Divide", "DotNetLibrary/src/DoubleValue.cpp::DoubleValue::Modulus"]}
{"id": "C134", "title": "A boxed number read as another numeric type is converted like C# does", "statement": "Reading a boxed truth value, character, integer, Single or Double as any of the numeric types gives the value C#'s unchecked conversion of the number gives: integers reduced modulo the size of the type, reals without their fraction, integers and reals rounded once to the real type.", "quantifier": "every boxed type, every target type, every value or bit pattern", "why_tests_cant": "13 x 13 pairs of types with up to 2^64 values each; the wrong ones are single values at type bounds or rounding boundaries", "anchors": ["DotNetLibrary/src/Int32Value.cpp::get_AsByte", "DotNetLibrary/src/Int64Value.cpp::get_AsInt32", "DotNetLibrary/src/DoubleValue.cpp::get_AsInt64", "DotNetLibrary/src/SingleValue.cpp::get_AsDouble", "DotNetLibrary/src/BooleanValue.cpp::get_AsInt32", "DotNetLibrary/src/CharValue.cpp::get_AsInt32", "DotNetLibrary/src/Object.cpp::get_AsInt32"]}
{"id": "C135", "title": "Math.Truncate, Floor and Ceiling are exact", "statement": "For every double Math.Truncate is the number without its fraction, Math.Floor the greatest integer not above it and Math.Ceiling the least not below it, exactly, keeping the sign of zero results; NaN and infinities are returned unchanged.", "quantifier": "every 64-bit pattern", "why_tests_cant": "2^64 arguments; errors occur at sign of zero, numbers below 1 and beyond 2^52", "anchors": ["DotNetLibrary/src/DotNetMath.cpp::Math::Truncate", "DotNetLibrary/src/DotNetMath.cpp::Math::Floor", "DotNetLibrary/src/DotNetMath.cpp::Math::Ceiling"]}
{"id": "C136", "title": "Math.Round with digits rounds as the mode asks", "statement": "Math.Round(value, digits, mode) gives the decimal with that many digits the mode asks for (nearest with ties to even or away from zero, towards zero, down, up), as the nearest double; values of size 10^16 and more are returned unchanged; digits outside 0..15 and unknown modes raise their exceptions.", "quantifier": "every double, every digits argument, every mode", "why_tests_cant": "whether the product with the power of ten falls on a tie depends on individual bit patterns", "anchors": ["DotNetLibrary/src/DotNetMath.cpp::Math::Round"]}
{"id": "C137", "title": "Math.FusedMultiplyAdd rounds once", "statement": "Math.FusedMultiplyAdd(x, y, z) is x * y + z computed exactly and rounded once.", "quantifier": "every triple of finite doubles", "why_tests_cant": "2^192 triples; the difference shows only where the rounded product loses the bits that the addition uncovers", "anchors": ["DotNetLibrary/src/DotNetMath.cpp::Math::FusedMultiplyAdd"]}
{"id": "C138", "title": "Math.IEEERemainder is exact", "statement": "Math.IEEERemainder(x, y) is x - n*y where n is the integer nearest to x / y (ties to even), computed exactly, with the sign of x for a zero result; NaN, infinities and zero divisors follow IEEE 754.", "quantifier": "every pair of doubles", "why_tests_cant": "2^128 pairs with quotients up to 2^2100", "anchors": ["DotNetLibrary/src/DotNetMath.cpp::Math::IEEERemainder"]}
{"id": "C139", "title": "Math.ILogB gives the binary exponent", "statement": "Math.ILogB(x) is the exponent e with 2^e <= |x| < 2^(e+1) for every finite number other than zero; Int32.MinValue for zero, Int32.MaxValue for infinities and NaN.", "quantifier": "every double", "why_tests_cant": "2^64 arguments, subnormal numbers included", "anchors": ["DotNetLibrary/src/DotNetMath.cpp::Math::ILogB"]}
{"id": "C140", "title": "Math.ScaleB multiplies by a power of two with one rounding", "statement": "Math.ScaleB(x, n) is x * 2^n rounded once for every finite x and every n; infinities and NaN are kept.", "quantifier": "every double and every Int32 exponent", "why_tests_cant": "double rounding shows only for particular results in the subnormal range", "anchors": ["DotNetLibrary/src/DotNetMath.cpp::Math::ScaleB"]}
{"id": "C141", "title": "Exception objects answer for what they were made of", "statement": "Message and InnerException of an exception object are what was given to its constructor, however many exceptions are made later; following inner exceptions from any exception ends, at exactly one innermost exception; GetBaseException returns that one (the exception itself when it has no inner exception), and Message is never null.", "quantifier": "every sequence of constructor calls in which an inner exception exists before the outer one; every object of it", "why_tests_cant": "chains of inner exceptions have any length; tests use one level", "anchors": ["DotNetLibrary/include/Exception.h::get_Message", "DotNetLibrary/include/Exception.h::get_InnerException", "DotNetLibrary/include/Exception.h::GetBaseException"]}
{"id": "C142", "title": "Running a translated module reports everything it says", "statement": "Run prints every message the module sends, each on a line of its own and in order, and when an exception gets out of the module, its message as the last line; then Run returns.", "quantifier": "every sequence of messages and every way the module can end, in every locale", "why_tests_cant": "messages are arbitrary strings and exceptions can get out at any point", "anchors": ["DotNetLibrarySupport/DotNetLibrarySupport.cpp::TranslatorSupport::Send", "DotNetLibrarySupport/DotNetLibrarySupport.cpp::TranslatorSupport::Run", "DotNetLibrary/include/Exception.h::Exception"]}
{"id": "C143", "title": "The platform's array is shared memory", "statement": "A translated program that reads and writes the platform's array through its property, any number of times, sees plain memory: a read gives the last value written to the index or the initial one, an index outside the array throws IndexOutOfRangeException, and the property is always the same array.", "quantifier": "every sequence of reads and writes", "why_tests_cant": "the number of accesses is unbounded, and each takes memory", "anchors": ["DotNetLibrarySupport/DotNetLibrarySupport.cpp::DataAccess::get_ArrayData", "PlatformSupport/PlatformSupport.cpp::my_operator_new_replacement"]}
{"id": "C144", "title": "The translator's log gets every event of a run", "statement": "Every event traced while the translator's log is open is appended to that log as one line with its time, severity and message, and to no other file; at most one log is open at a time; the events of a run, and the exception that ends it, are in the log beside the output.", "quantifier": "every history of opening, closing and tracing; every run", "why_tests_cant": "the events are those of arbitrary assemblies and runs follow each other in one process", "anchors": ["CppTranslator/CppTraceListener.cs::AddListener", "CppTranslator/CppTraceListener.cs::RemoveListener", "CppTranslator/CppTraceListener.cs::WriteTrace", "CppTranslator/Program.cs::Main"]}
{"id": "C145", "title": "The clock", "statement": "DateTime.UtcNow is the instant of the system clock in UTC, DateTime.Now the same instant in the local zone (UtcNow plus the zone's offset), and DateTime.Today the local midnight before Now; they never throw.", "quantifier": "Every reading of the system clock, every zone offset.", "why_tests_cant": "A test runs at one instant in one zone; leap seconds, date changes and sub-millisecond parts have to hold for every instant.", "anchors": ["DotNetLibrary/src/DateTimeValue.cpp::get_UtcNow", "DotNetLibrary/src/DateTimeValue.cpp::get_Now", "DotNetLibrary/src/DateTimeValue.cpp::get_Today"]}
{"id": "C146", "title": "Local and universal time", "statement": "ToLocalTime adds the local zone's offset from UTC and ToUniversalTime subtracts it, at every moment of the day in every zone; one takes back the other.", "quantifier": "Every DateTime, every moment at which the conversion is made, every zone offset.", "why_tests_cant": "The zone offset is found from two hour numbers, which only some moments and zones make right; a test runs in one zone.", "anchors": ["DotNetLibrary/src/DateTimeValue.cpp::ToLocalTime", "DotNetLibrary/src/DateTimeValue.cpp::ToUniversalTime", "DotNetLibrary/src/DateTimeValue.cpp::GetTimeZone"]}
{"id": "C147", "title": "Enum members", "statement": "The C++ enum emitted for a C# enum declares the same members in the same order, each with its C# value, explicit or counted up from the member before.", "quantifier": "Every enum, every member list and every initialiser of every underlying type.", "why_tests_cant": "Infinitely many member lists; only the extreme initialisers of the 64-bit types go wrong.", "anchors": ["CppTranslator/ProtoTypeVisitor.cs::OutputEnumValues", "CppTranslator/ProtoTypeVisitor.cs::VisitEnumMemberDeclaration", "CppTranslator/CppVisitorBase.cs::VisitPrimitiveExpression"]}
{"id": "C148", "title": "Values outside the members of an enum", "statement": "A number cast to an enum type keeps its value in the C++ program, whether or not it is a member, as in C#; in particular every combination of flags does.", "quantifier": "Every enum, every value of the underlying type.", "why_tests_cant": "The C++ range of an enum depends on all its members; undefined behaviour may look right in a test.", "anchors": ["CppTranslator/MyIlInstructionVisitor.cs::HandleStoreVariable", "CppTranslator/ProtoTypeVisitor.cs::VisitTypeDeclaration"]}
{"id": "C149", "title": "Methods over integer variables", "statement": "A translated method whose statements assign integer expressions to variables, with any control flow (loops, branches, switches, try and catch), ends as the C# method does - returning, or with the same uncaught exception - and leaves the same values in the variables.", "quantifier": "Every method body over integer variables, every initial contents of the variables, every number of steps.", "why_tests_cant": "Infinitely many methods and inputs; undefined behaviour and jumps to wrong labels show only on some paths.", "anchors": ["CppTranslator/MyIlInstructionVisitor.cs::VisitBlockContainer", "CppTranslator/MyIlInstructionVisitor.cs::VisitIfInstruction", "CppTranslator/MyIlInstructionVisitor.cs::VisitBinaryNumericInstruction", "CppTranslator/MyIlInstructionVisitor.cs::VisitStLoc"]}
{"id": "C150", "title": "Every instruction is written", "statement": "Every instruction of a method's body has its text in the translated method, in order, or the translation says that it is not supported.", "quantifier": "Every instruction tree: every kind of instruction, every nesting.", "why_tests_cant": "Infinitely many trees; a construct that is left out makes the C++ shorter, not wrong in form.", "anchors": ["CppTranslator/MyIlInstructionVisitor.cs::Default", "CppTranslator/MyIlInstructionVisitor.cs::VisitTryFinally", "CppTranslator/MyIlInstructionVisitor.cs::VisitLockInstruction", "CppTranslator/MyIlInstructionVisitor.cs::WriteBlock"]}
{"id": "C151", "title": "Which types are translated", "statement": "Every class, struct, enum and interface of the program is declared in the C++ header, once and in the order of the assembly, and nothing is declared that the user did not write.", "quantifier": "Every assembly: every list of types of every kind, namespace and name, with every nesting.", "why_tests_cant": "Infinitely many programs; a type that is left out is only missed where it is used.", "anchors": ["CppTranslator/Program.cs::ProcessModules", "CppTranslator/ProtoTypeVisitor.cs::VisitTypeDeclaration"]}
{"id": "C152", "title": "Members and nested types", "statement": "Every field, method, constructor, property, operator, event and nested type of every translated type is declared in the header and defined in the source file, for its own class, in order and once.", "quantifier": "Every list of types with every list of members, nested types included.", "why_tests_cant": "Infinitely many combinations of members; a kind of member that stops the translator stops it for the whole program.", "anchors": ["CppTranslator/CppVisitorBase.cs::HeaderTypeDeclaration", "CppTranslator/HeaderTypeVisitor.cs::CreateHeaders", "CppTranslator/HeaderTypeVisitor.cs::VisitTypeDeclaration", "CppTranslator/CppVisitorBase.cs::VisitEventDeclaration"]}
{"id": "C153", "title": "Comparing parts of strings", "statement": "String.Compare(a, i, b, j, n), with and without ignoring case, and String.CompareOrdinal(a, i, b, j, n) compare the n characters of a from i with the n characters of b from j (fewer where a string ends), null before everything else, and throw ArgumentOutOfRangeException when an index or the length is outside the strings.", "quantifier": "Every pair of strings (null included), every pair of indices, every length.", "why_tests_cant": "Unbounded strings and 2^96 triples of numbers; the fault is a read outside the string, which tests need not observe.", "anchors": ["DotNetLibrary/src/StringDotNet.cpp::Compare", "DotNetLibrary/src/StringDotNet.cpp::CompareOrdinal"]}
{"id": "C154", "title": "Object.Equals(a, b)", "statement": "Object.Equals(a, b) never fails, is an equivalence relation, and is true exactly when both are null, both are the same object, or both are boxed values of the same type with the same value.", "quantifier": "Every pair and triple of objects: null, references, boxed values of every basic type, strings.", "why_tests_cant": "Quantifies over all triples of objects (transitivity) and all boxed values.", "anchors": ["DotNetLibrary/src/Object.cpp::Equals", "DotNetLibrary/src/Int32Value.cpp::Equals", "DotNetLibrary/src/DoubleValue.cpp::Equals", "DotNetLibrary/src/StringDotNet.cpp::Equals", "DotNetLibrary/src/CharValue.cpp::Equals"]}
{"id": "C155", "title": "The characters of an integer expression", "statement": "The characters the translator writes for an integer expression are, for a C++ compiler that splits them into lexemes by maximal munch and resolves names in the library's scope, exactly one expression, and for all values of the variables it computes the value of the source expression.", "quantifier": "all integer expressions of any depth over any variables with any names, and all values of the variables", "why_tests_cant": "A test compares a few texts with expected strings; whether spaces and parentheses suffice, names collide with library names, or literals run together must hold for every nesting, name and constant.", "anchors": ["CppTranslator/MyIlInstructionVisitor.cs::VisitBinaryNumericInstruction", "CppTranslator/MyIlInstructionVisitor.cs::VisitComp", "CppTranslator/MyIlInstructionVisitor.cs::VisitConv", "CppTranslator/MyIlInstructionVisitor.cs::VisitLdcI8", "CppTranslator/MyIlInstructionVisitor.cs::BuildCondition", "CppTranslator/Formatter.cs::AppendName"]}
{"id": "C156", "title": "The characters of a whole method", "statement": "The characters the translator writes for the body of a method over integer variables (braces, labels, declarations, assignments, ++ and --, if, else, switch, case, goto, return, try, catch) are, for a C++ compiler, exactly one function body; run from any values of the variables it returns the same value, ends with the same exception or runs on as the method does, and leaves the same values in the variables.", "quantifier": "all control-flow trees, all integer expressions in their statements, all names of variables, all starting values, all numbers of steps; both line endings", "why_tests_cant": "A test compares a few generated files with expected text; that line breaks, labels, declarations and the choice between names never change how the text is read holds for all methods only by an argument over all of them.", "anchors": ["CppTranslator/MyIlInstructionVisitor.cs::StartMainBlock", "CppTranslator/MyIlInstructionVisitor.cs::WriteBlock", "CppTranslator/MyIlInstructionVisitor.cs::DeclareLocalVariables", "CppTranslator/MyIlInstructionVisitor.cs::VisitSwitchInstruction", "CppTranslator/MyIlInstructionVisitor.cs::VisitTryCatch", "CppTranslator/Formatter.cs::AppendIndented"]}
{"id": "C157", "title": "Programs of methods that call each other", "statement": "In a program of static methods that compute with integers, assign to local variables, parameters and static fields, throw and catch exceptions, and call each other (also recursively), a call of any translated method with any arguments returns the value the source's method returns or ends with the exception it ends with, and leaves the static fields with the same values.", "quantifier": "all programs of such methods, all arguments, all contents of the static fields, every nesting depth of calls and every number of jumps", "why_tests_cant": "Programs with recursion and exceptions across calls have unboundedly many executions; a test runs one program on one input.", "anchors": ["CppTranslator/MyIlInstructionVisitor.cs::FormatCall", "CppTranslator/MyIlInstructionVisitor.cs::AddCallParameters", "CppTranslator/MyIlInstructionVisitor.cs::DoCastOnCallParamterIfNeeded", "CppTranslator/MyIlInstructionVisitor.cs::VisitLeave", "CppTranslator/MyIlInstructionVisitor.cs::VisitThrow", "CppTranslator/MyIlInstructionVisitor.cs::VisitLdsFlda"]}
{"id": "C158", "title": "Programs with arrays", "statement": "A translated program whose methods create arrays of integers (one to three dimensions), read and assign elements, ask for lengths, pass and return arrays and keep them in variables and static fields, does what the C# program does: every call returns the same value or ends with the same exception (IndexOutOfRangeException included), and leaves the static fields and every array with the same contents.", "quantifier": "every program of static methods of this kind, every arguments, every contents of static fields and arrays, every depth of calls, every number of jumps and of arrays created, both orders in which a C++ compiler may evaluate an assignment", "why_tests_cant": "the contents of the arrays after any number of loop passes and recursive calls, and the exceptions raised on the way, depend on all of the program; tests run a few programs on a few inputs", "anchors": ["CppTranslator/MyIlInstructionVisitor.cs::VisitLdElema", "CppTranslator/MyIlInstructionVisitor.cs::VisitNewArr", "CppTranslator/MyIlInstructionVisitor.cs::VisitLdLen", "CppTranslator/MyIlInstructionVisitor.cs::VisitStObj", "DotNetLibrary/src/Array.cpp::Array::Address", "DotNetLibrary/src/Array.cpp::Array::ComputeIndex"]}
{"id": "C159", "title": "Programs with objects", "statement": "A translated program of static and instance methods that create objects with constructors, read and assign their fields, call virtual and other methods through any static type, cast and compare references, and use arrays, behaves as the source: every call returns the same value or reference or ends with the same exception, and leaves the same objects (class and fields), arrays and static fields.", "quantifier": "every program, class hierarchy, method, arguments and heap; all depths of calls and lengths of loops; both evaluation orders of an assignment", "why_tests_cant": "a test runs a few programs; the claim is about the interplay of control flow, dispatch, construction, heap and evaluation order in every program", "anchors": ["CppTranslator/MyIlInstructionVisitor.cs::FormatCall", "CppTranslator/MyIlInstructionVisitor.cs::VisitNewObj", "CppTranslator/MyIlInstructionVisitor.cs::VisitLdFlda", "CppTranslator/MyIlInstructionVisitor.cs::VisitStObj", "CppTranslator/MyIlInstructionVisitor.cs::VisitCastClass", "CppTranslator/CppVisitorBase.cs::VisitConstructorDeclaration"]}
{"id": "C160", "title": "The order in which a new object is made", "statement": "Making an object of a translated class executes each field initialiser and each constructor statement of the class and its bases once, in the order of the source.", "quantifier": "every class hierarchy and every initialisers and constructor bodies", "why_tests_cant": "a test makes objects of a few classes; the order concerns every depth of inheritance and every combination of initialisers", "anchors": ["CppTranslator/CppVisitorBase.cs::VisitConstructorDeclaration", "CppTranslator/MyIlInstructionVisitor.cs::FormatCall"]}
{"id": "C161", "title": "Objects and arrays keep their identity; unfinished objects are seen only by constructors", "statement": "In the source and in the translated program alike: during any call of a method every existing object stays an object of its class, constructed as far as it was, and every existing array keeps its element type, dimensions and memory; every object created during the call is, when the call ends normally or with an exception, completely constructed or (its constructor having raised an exception) gone. `new` gives a reference that is not null and not that of an earlier object; assigning a field changes that field of that object and nothing else; comparisons of references say whether they are null or the same.", "quantifier": "every program of the shape of C159 (in C++: every function body), every method, arguments, state, depth of calls and number of jumps, both orders of evaluation of assignments", "why_tests_cant": "a test runs one program from one state; the claim is an invariant over all executions of all programs, including those that end with exceptions in nested constructors", "anchors": ["CppTranslator/MyIlInstructionVisitor.cs::VisitNewObj", "CppTranslator/MyIlInstructionVisitor.cs::VisitStObj", "CppTranslator/CppVisitorBase.cs::VisitConstructorDeclaration"]}
{"id": "C162", "title": "What Parse and TryParse of the integer types do with every text", "statement": "For each of the eight integer types and every text (null included), exactly one of a closed list of outcomes happens: ArgumentNull for null, FormatException for a text that does not start with white space, a sign and digits ending at white space, OverflowException for the listed numbers, undefined behaviour for a minus sign with a number congruent to the minimum of Int32 or Int64, and otherwise the value of the type congruent to the (signed) number modulo 2^64.", "quantifier": "every integer type, locale and text", "why_tests_cant": "the texts and numbers are unbounded; the overflow tests wrap modulo 2^64", "anchors": ["DotNetLibrary/src/Int32Value.cpp::Parse", "DotNetLibrary/src/Int64Value.cpp::Parse", "DotNetLibrary/src/ByteValue.cpp::Parse", "DotNetLibrary/src/UInt64Value.cpp::TryParseInternal"]}
{"id": "C163", "title": "What CompareTo and Equals of the integer types do with every pair", "statement": "For each integer type and every pair of values, the result of CompareTo is exactly given (also where it does not order the values or is undefined), and with a boxed object it is ArgumentException for another type and 1 for null.", "quantifier": "every integer type and pair of values", "why_tests_cant": "the pairs at which the subtraction overflows or is truncated are a vanishing part of the domain", "anchors": ["DotNetLibrary/src/Int32Value.cpp::CompareTo", "DotNetLibrary/src/Int64Value.cpp::CompareTo"]}
{"id": "C164", "title": "What TimeSpan Negate, Duration, Subtract and the DateTime constructor do with every argument", "statement": "For every 64 bit tick count Negate and Duration throw OverflowException exactly at zero and are undefined exactly at the minimum; Subtract's result or exception is determined by the exact difference and the signs; the DateTime constructor throws exactly for invalid dates and, when the hour is not negative, invalid times (a millisecond of 1000 being accepted), and otherwise gives the calendar's tick count.", "quantifier": "every tick count; every pair of tick counts; every seven integers", "why_tests_cant": "the cases are scattered over the 64 bit and calendar ranges", "anchors": ["DotNetLibrary/src/TimeSpanValue.cpp::Negate", "DotNetLibrary/src/TimeSpanValue.cpp::Subtract", "DotNetLibrary/src/DateTimeValue.cpp::DateTime"]}
{"id": "C165", "title": "What the integer functions of Math do with every argument", "statement": "For every argument, Sign, Abs, Divide, DivRem, BigMul and Clamp return the exact result, throw DivideByZero (or the min/max exception) exactly for a zero divisor (or reversed bounds) and are undefined exactly at the listed corners; DivRem(Int64) is right exactly when the quotient fits 32 bits.", "quantifier": "every pair or triple of integers of the types", "why_tests_cant": "the wrong quotients need 64 bit operands with a quotient above 32 bits", "anchors": ["DotNetLibrary/src/DotNetMath.cpp::DivRem", "DotNetLibrary/src/DotNetMath.cpp::Sign", "DotNetLibrary/src/DotNetMath.cpp::BigMul"]}
{"id": "C166", "title": "What Substring, ToCharArray and CopyTo do with every argument", "statement": "For every string, start, length and destination, Substring, ToCharArray and CopyTo either deliver exactly the characters of the range, or throw the listed exception, or (ToCharArray with a negative length and a start behind the string) are undefined; a NUL in front of a substring makes Substring throw.", "quantifier": "every string, start, length and destination array", "why_tests_cant": "the outcomes depend on relations between unbounded numbers and on the place of a NUL", "anchors": ["DotNetLibrary/src/StringDotNet.cpp::Substring", "DotNetLibrary/src/StringDotNet.cpp::ToCharArray", "DotNetLibrary/src/StringDotNet.cpp::CopyTo"]}
{"id": "C167", "title": "What the backward character searches do with every argument", "statement": "For every string, character or character array, start and count (negative ones included), LastIndexOf(Char) and LastIndexOfAny return the last matching position among those asked for, or -1, or throw IndexOutOfRangeException exactly when the first position is outside the string or the search runs off its front without a match.", "quantifier": "every string, character, array, start and count", "why_tests_cant": "the exception depends on whether a match stops the search before it leaves the string", "anchors": ["DotNetLibrary/src/StringDotNet.cpp::LastIndexOf", "DotNetLibrary/src/StringDotNet.cpp::LastIndexOfAny"]}
{"id": "C168", "title": "What padding, concatenation, insertion, removal, replacement and trimming of strings do with every argument", "statement": "For every string and every argument, PadLeft, PadRight, Concat, Insert, Remove, Replace(Char, Char), Trim, TrimStart and TrimEnd return the text .NET names, or throw, or are undefined, exactly as listed: the exceptions for empty strings, null arguments and positions outside the string, and undefined behaviour only for results above 2147483520 characters, null elements in Concat, an overflowing count in Remove and overlapping memcpy.", "quantifier": "every string, argument, position and count (negative ones included)", "why_tests_cant": "the list of outcomes has to be closed: no finite sample shows there is no further case", "anchors": ["DotNetLibrary/src/StringDotNet.cpp::PadLeft", "DotNetLibrary/src/StringDotNet.cpp::Concat", "DotNetLibrary/src/StringDotNet.cpp::Insert", "DotNetLibrary/src/StringDotNet.cpp::Trim"]}
{"id": "C169", "title": "What Array.Copy, Clear, IndexOf and the dimension queries do with every argument", "statement": "For every array of one, two or three dimensions and every position, length and dimension number, Copy (between arrays and within one), Clear, IndexOf, GetLength, GetLowerBound and GetUpperBound have exactly the outcome listed: the elements named are copied, cleared or found and all others stay, or the named exception is thrown, or (positions past the Int32 range, Clear outside the array, overlapping memcpy) the call is undefined.", "quantifier": "every shape, element type, position, length and dimension number", "why_tests_cant": "boundaries combine: each position against each size, for every shape", "anchors": ["DotNetLibrary/src/Array.cpp::Copy", "DotNetLibrary/src/Array.cpp::Clear", "DotNetLibrary/src/Array.cpp::IndexOf", "DotNetLibrary/src/Array.cpp::GetLength"]}
{"id": "C170", "title": "What the Buffer functions do with every argument", "statement": "For every array of primitive elements and every offset and count, ByteLength, GetByte, SetByte and BlockCopy read, replace or copy exactly the bytes named and leave all others, or throw the exception listed, or (negative index, offsets past the Int32 range) are undefined; BlockCopy within one array behaves as through a temporary.", "quantifier": "every array, offset and count", "why_tests_cant": "overlapping and boundary ranges of arbitrary size", "anchors": ["DotNetLibrary/src/Buffer.cpp::BlockCopy", "DotNetLibrary/src/Buffer.cpp::GetByte", "DotNetLibrary/src/Buffer.cpp::SetByte"]}
{"id": "C171", "title": "What BitConverter's readers and ToString do with every argument", "statement": "For every Byte array and index, ToInt16 to ToUInt64 return the one number of the type whose little-endian two's complement bytes stand there, or throw; ToDouble, ToSingle, ToChar and ToBoolean agree with them; ToString(value, start, length) gives the dashed hex dump of exactly the bytes asked for, or the exception or undefined behaviour listed.", "quantifier": "every byte array, index and length", "why_tests_cant": "2^64 values at every alignment", "anchors": ["DotNetLibrary/src/BitConverter.cpp::ToInt32", "DotNetLibrary/src/BitConverter.cpp::ToString"]}
{"id": "C172", "title": "What IsNegative, BitIncrement, BitDecrement, CopySign and Divide by zero give for every Double", "statement": "For every bit pattern: IsNegative is the sign bit (NaN counting as negative); BitIncrement and BitDecrement give the neighbouring Double, the value itself for NaN and the infinity in the direction of the step, and from the other infinity a value four steps inside the range; CopySign keeps the magnitude bits and takes the sign of its second argument; Divide by either zero gives NaN for a zero and +infinity for everything else.", "quantifier": "every pair of 64-bit patterns", "why_tests_cant": "2^64 patterns", "anchors": ["DotNetLibrary/src/DotNetMath.cpp::BitIncrement", "DotNetLibrary/src/DotNetMath.cpp::CopySign", "DotNetLibrary/src/DoubleValue.cpp::IsNegative"]}
{"id": "C173", "title": "The characters of the methods of a program are functions that call each other and do what the methods do", "statement": "For every program of static methods, void or with a result, and static fields (integer expressions, branches, loops, switches, throw and try/catch, with calls of each other as statements and in the expressions, each in a place where the order of evaluation does not matter): the characters written for each method are, for a C++ compiler that knows the declared functions and fields by their qualified names, exactly one function body, and running those functions, calls going to the function of that name with the arguments converted to the parameters' types and the fields shared by all of them, gives for every method, all arguments, all values of the fields and every depth of recursion the value or exception of the C# program and leaves the same values in the static fields, unless some C++ on the way is undefined or the source overflows in a checked operation; void functions return without a value and the others with one. Otherwise nothing is written because the formatter throws ArgumentOutOfRangeException.", "quantifier": "every such program, every method of it, all arguments, all numbers of jumps and depths of calls, both line ends and all formatter states", "why_tests_cant": "programs, recursion depth and executions are unbounded; a test compiles a handful of sources", "anchors": ["CppTranslator/MyIlInstructionVisitor.cs::VisitCall", "CppTranslator/MyIlInstructionVisitor.cs::HandleStoreVariable", "CppTranslator/MyIlInstructionVisitor.cs::VisitLeave", "CppTranslator/CppTypeVisitor.cs::FormatMethodAccessType", "CppTranslator/Formatter.cs::Append", "CppTranslator/MyIlInstructionVisitor.cs::VisitThrow", "CppTranslator/MyIlInstructionVisitor.cs::VisitLdsFlda", "CppTranslator/MyIlInstructionVisitor.cs::VisitStObj", "CppTranslator/MyIlInstructionVisitor.cs::FormatCall"]}
{"id": "C174", "title": "Exactly which StringBuilder calls are undefined", "statement": "For every StringBuilder a program can hold, after any history of calls, it is decided by the call's arguments, Length, Capacity and MaxCapacity (for Replace of strings also by the text) whether the call has undefined behaviour (writes outside its memory block, overflows an Int32 computation, dereferences a null string or copies overlapping memory). Every other call returns or throws a catchable exception, and the builder stays readable: ToString returns Length characters and reading a character gives that character or IndexOutOfRangeException.", "quantifier": "every builder reached by any history of constructor and method calls (not only well-behaved ones), every next call with any arguments", "why_tests_cant": "which calls corrupt memory depends on the whole history through Length, Capacity and where the block is; tests see only a few histories and corrupted memory often goes unnoticed", "anchors": ["DotNetLibrary/src/StringBuilder.cpp::Append", "DotNetLibrary/src/StringBuilder.cpp::Insert", "DotNetLibrary/src/StringBuilder.cpp::Replace", "DotNetLibrary/src/StringBuilder.cpp::EnsureCapacity"]}
{"id": "C175", "title": "Every DateTime a program can hold", "statement": "Whatever sequence of DateTime constructors, arithmetic, month shifts, conversions and clock readings a program performs, with any arguments, each DateTime it holds lies between 0001-01-01 and the first instant of the year 10000 inclusive. On every such value adding or subtracting a time span gives the exact sum or ArgumentOutOfRangeException when the sum leaves the years 1..9999, components and month shifts are those of the Gregorian calendar, comparison is the order of the ticks, and no operation is undefined. The current time is the C library's broken-down time with its milliseconds; a leap second throws.", "quantifier": "every history of DateTime operations with any arguments, every clock reading, every next operation", "why_tests_cant": "a history can be of any length and the calendar has over 3*10^18 values; the only value outside MaxValue arises from one argument combination", "anchors": ["DotNetLibrary/src/DateTimeValue.cpp::AddMonths", "DotNetLibrary/src/DateTimeValue.cpp::AddTicks", "DotNetLibrary/src/DateTimeValue.cpp::get_UtcNow", "DotNetLibrary/src/DateTimeValue.cpp::get_Today"]}
{"id": "C176", "title": "Exactly which literals and names survive translation", "statement": "For every C# string literal: the emitted C++ does not compile exactly when the string contains a surrogate code unit; otherwise the String object the program holds is the C# string up to its first NUL and nothing else, so it equals the C# string exactly when it has neither NULs nor surrogates, and two literals denote the same text exactly when they agree up to the first NUL. A char literal keeps its code unit exactly when it is not a surrogate. An emitted name is a C++ keyword exactly for the names this and Void.", "quantifier": "all strings, all 65536 chars, all names", "why_tests_cant": "an exact boundary needs both directions for every input; tests sample a few printable strings", "anchors": ["CppTranslator/Formatter.cs::AppendStringsWithControl", "CppTranslator/Formatter.cs::AppendCharWithControls", "CppTranslator/Formatter.cs::AppendName", "DotNetLibrary/src/StringDotNet.cpp::String"]}
{"id": "C177", "title": "Math.PI and Math.E are the doubles nearest to pi and e", "statement": "The constants Math.PI and Math.E are, among all doubles, the ones nearest to the circle constant and to Euler's number.", "quantifier": "every double is a competitor for each of the two constants, which are real numbers", "why_tests_cant": "a test compares with another literal; that no double is nearer to an irrational number is a statement about the reals", "anchors": ["DotNetLibrary/src/DotNetMath.cpp::PI", "DotNetLibrary/src/DotNetMath.cpp::E"]}
{"id": "C178", "title": "Math.Log with a base follows its table of special cases", "statement": "Math.Log(a, newBase) is NaN if either argument is NaN or negative, if newBase is 1, or if a is not 1 and newBase is 0 or infinite; it is the infinity of the documented sign for a = 0 or a infinite with a base below or above 1; it is zero for a = 1 with any other non-negative base; and otherwise it is the quotient of the two logarithms, rounded to the nearest double, with a divisor that is not zero.", "quantifier": "every pair of doubles, and every log function of the C library that meets the special cases of the C standard", "why_tests_cant": "the pairs of doubles cannot be enumerated and the C library differs between platforms", "anchors": ["DotNetLibrary/src/DotNetMath.cpp::Log"]}
{"id": "C179", "title": "Math.Abs of a long is the absolute value", "statement": "For every Int64 x other than MinValue, a long variable assigned Math.Abs(x) holds the absolute value of x.", "quantifier": "every value of Int64", "why_tests_cant": "2^64 values; the library returns a Double, so values above 2^53 decide", "anchors": ["DotNetLibrary/src/DotNetMath.cpp::Abs", "DotNetLibrary/include/DotNetMath.h::Abs"]}
{"id": "C180", "title": "What comparing strings does with every argument", "statement": "For every pair of strings or nulls, every two positions and every length, String.Compare (with and without case), CompareOrdinal and CompareTo either are undefined, exactly for a null operand of the static functions, a position before the start or further behind the end than the terminator, or one past the terminator with a positive length; or return the order of the first pair of characters, among as many as the length (or the length of the first string) says, that differ or of which the first is NUL; CompareTo(Object) throws ArgumentException for an object that is not a string, and 1 for null.", "quantifier": "all strings (with NULs inside), nulls, positions, lengths and locales whose lower case of NUL is NUL", "why_tests_cant": "unboundedly many strings, positions and lengths; the boundary between defined and undefined is a statement about all of them", "anchors": ["DotNetLibrary/src/StringDotNet.cpp::Compare", "DotNetLibrary/src/StringDotNet.cpp::CompareOrdinal", "DotNetLibrary/src/StringDotNet.cpp::CompareTo"]}
{"id": "C181", "title": "What TimeSpan.Parse and TryParse do with every text", "statement": "For every text, TimeSpan.Parse and TryParse read an optional minus sign, numbers of one or two digits as long as one of the two characters behind the first digit is a separator (or the text ends), and then up to seven decimals; more than four numbers are undefined behaviour; every other text is accepted and gives the ticks of those numbers as days, hours, minutes and seconds (one number being days, two hours and minutes, three with seconds, four with days) plus the decimals, with the sign; a null text throws ArgumentNullException in Parse.", "quantifier": "all texts of any length and all locales", "why_tests_cant": "infinitely many texts; which ones write past the array of numbers is a statement about all", "anchors": ["DotNetLibrary/src/TimeSpanValue.cpp::Parse", "DotNetLibrary/src/TimeSpanValue.cpp::TryParse"]}
{"id": "C182", "title": "What the platform allocator does with every request, in every history", "statement": "After any history of allocations of any size, frees, stores and setups, a request for n bytes from the set-up arena: let t be the sum of the sizes, each rounded up to a multiple of 8, of the blocks handed out since the last setup plus n rounded up. If t modulo 2^32 exceeds 32767 the answer is null and nothing changes; if t itself is at most 32767 the answer is the aligned block behind all blocks, all zero, no byte of another block changed; otherwise (t is at least 2^32 and wraps into the arena) and only then the request is undefined. Before setup a request is a zeroed C heap block, undefined exactly when malloc fails. Blocks are always aligned, inside the arena and pairwise disjoint.", "quantifier": "all histories of allocate, free, store and setup with any sizes, all requests of any size", "why_tests_cant": "the sizes and the histories are unbounded, and the undefined requests are those whose rounded sum wraps 32 bits, which no sample of sizes meets", "anchors": ["PlatformSupport/PlatformSupport.cpp::my_operator_new_replacement", "PlatformSupport/PlatformSupport.cpp::PlatformMemorySetup", "PlatformSupport/PlatformSupport.h::Align"]}
{"id": "C183", "title": "What Boolean.Parse, and Boolean's and Char's members of an object or of a string and a position, do with every argument", "statement": "Boolean.Parse: null throws ArgumentException; a string without NUL that is a beginning of \"true\" up to case (also the empty one) is true, a beginning of \"false\" is false; a string with a NUL only if what is before the NUL is the whole word; everything else throws FormatException. CompareTo(Object) of Boolean and Char: null is less, another class throws ArgumentException, the same class is compared by value. Equals(Object) is true exactly for the same class and value, except that Char.Equals(null) is undefined. A Char function of a string and a position answers for the character there; null throws ArgumentNullException, a position from the length on ArgumentOutOfRangeException, a negative one IndexOutOfRangeException.", "quantifier": "all strings or null, all objects, all positions, every Char function", "why_tests_cant": "the strings and the positions are unbounded; texts with NUL inside and all beginnings of the words are special", "anchors": ["DotNetLibrary/src/BooleanValue.cpp::Parse", "DotNetLibrary/src/BooleanValue.cpp::CompareTo", "DotNetLibrary/src/CharValue.cpp::Equals", "DotNetLibrary/src/CharValue.cpp::IsDigit"]}
{"id": "C184", "title": "What the text searches, the forward character searches and the constructors of String do with every argument", "statement": "IndexOf(text, start, count): ArgumentNullException for null and a range not inside the string, otherwise the first position of the range, end included, where what precedes the first NUL of the text stands with no NUL between start and it, or -1. LastIndexOf(text, start, count), negative start meaning the last position and negative count the whole way back: ArgumentNullException for null, -1 for no steps, undefined when start + 1 overflows, when the start is outside the string and when nothing is found in a range that runs past the beginning, otherwise the last position of the range where the text stands, or -1. IndexOf(char) and IndexOfAny: the first match in the range or -1, with exactly the stated exceptions and undefined only where length - start or start + count overflows. The constructors from a character pointer, an array and a repeated character give exactly the stated characters, exceptions and undefined cases.", "quantifier": "all strings, also with NUL inside, all texts or null, all arrays, all starts and counts", "why_tests_cant": "strings, positions and counts are unbounded; NULs inside, ranges past either end and overflows each behave differently", "anchors": ["DotNetLibrary/src/StringDotNet.cpp::IndexOf", "DotNetLibrary/src/StringDotNet.cpp::LastIndexOf", "DotNetLibrary/src/StringDotNet.cpp::IndexOfAny", "DotNetLibrary/src/StringDotNet.cpp::String::String"]}
{"id": "C185", "title": "What Join with a string separator, StartsWith, EndsWith and Contains do with every argument", "statement": "Join(separator, array, start, count), a negative count meaning to the end: ArgumentNullException for a null array and a range outside it, the empty string for an empty array, RankException for a matrix; undefined exactly for a non-empty range of an array that is not of references, a null element in the range, a null separator between two elements and a result of more than 2147483520 characters; otherwise the elements with the separator between them. StartsWith, EndsWith (ArgumentNullException for null, true for the string itself and the empty text) and Contains: IndexOutOfRangeException on an empty string; EndsWith is undefined exactly for a longer text, StartsWith exactly for a text longer than the buffer (otherwise the string counts as followed by NULs), Contains exactly for null and the empty text, each also for texts of 2^29 and strings of more than 2147483520 characters; otherwise they decide suffix, prefix and infix.", "quantifier": "all strings, texts or null, arrays, starts and counts", "why_tests_cant": "strings, arrays and ranges are unbounded; the undefined cases depend on lengths relative to the string, to its buffer and to 32-bit limits", "anchors": ["DotNetLibrary/src/StringDotNet.cpp::Join", "DotNetLibrary/src/StringDotNet.cpp::StartsWith", "DotNetLibrary/src/StringDotNet.cpp::EndsWith", "DotNetLibrary/src/StringDotNet.cpp::Contains"]}
{"id": "C186", "title": "What reading and comparing StringBuilders does with every argument, after every history", "statement": "After any history of calls, also calls that threw, ToString(start, length) with xs the text ToString() gives: IndexOutOfRangeException for a start outside the text (its end is outside) and for a range that runs past its end; undefined exactly when start + length overflows Int32; a negative length gives what is in memory from the start to the first NUL, which for a builder whose Capacity was kept at or above Length and whose Length was not increased by assignment is the text from the start to its first NUL; otherwise exactly the range. Equals is never undefined; it is false for null and true exactly when Capacity and MaxCapacity agree and the memories (for builders kept as above: the texts) agree up to the first NUL.", "quantifier": "all histories of both builders, all starts and lengths", "why_tests_cant": "histories, texts and positions are unbounded; negative lengths, NULs inside and overflow each behave differently", "anchors": ["DotNetLibrary/src/StringBuilder.cpp::ToString", "DotNetLibrary/src/StringBuilder.cpp::Equals"]}
{"id": "C187", "title": "What Math.Round with digits, Math.ILogB and Math.FusedMultiplyAdd give for every argument", "statement": "Math.Round(value, digits, mode) rejects first digits outside 0..15, then modes outside the five, returns NaN, the infinities and everything of size 10^16 or more unchanged, and otherwise rounds value * 10^digits to a double, lets the mode choose an integer for it and returns the double nearest to that integer divided by 10^digits, with the sign of value. Math.ILogB is undefined exactly for zero, NaN and the infinities and otherwise the binary exponent. Math.FusedMultiplyAdd of finite numbers rounds the product and then the sum; an infinite product is the result.", "quantifier": "every double, every digits argument, every mode", "why_tests_cant": "2^64 arguments, and for FusedMultiplyAdd 2^192; the double rounding shows only for particular bit patterns", "anchors": ["DotNetLibrary/src/DotNetMath.cpp::Math::Round", "DotNetLibrary/src/DotNetMath.cpp::Math::ILogB", "DotNetLibrary/src/DotNetMath.cpp::Math::FusedMultiplyAdd"]}
{"id": "C188", "title": "Exactly when the generated header defines base classes first", "statement": "In a module whose structs neither have nor are base types, the header defines every base before the types derived from it exactly when, for every type x met after a type c derived from it and after a base b of it, b stands before c in the header; so in particular whenever no type derived from x, directly or indirectly, is met before a base of x that is met before x.", "quantifier": "every module, every order of its types, every inheritance graph", "why_tests_cant": "orders of types grow factorially and the failing ones need chains of three classes met in particular orders", "anchors": ["CppTranslator/HeaderTypeVisitor.cs::IsParentOf", "CppTranslator/HeaderTypeVisitor.cs::VisitTypeDeclaration"]}
{"id": "C189", "title": "Exactly when the header's by-value fields and its base clauses are right", "statement": "In a module whose structs are nobody's base, every type of the generated header holds by value only structs already defined exactly when the translated structs come in such an order in the module. All bases of a generated type are public exactly when it is a struct or has at most one base.", "quantifier": "every module, every order of its types, every base list", "why_tests_cant": "orders of types grow factorially; the failing ones depend on which struct holds which", "anchors": ["CppTranslator/HeaderTypeVisitor.cs::CreateHeaders", "CppTranslator/HeaderTypeVisitor.cs::OutputParentage"]}
{"id": "C190", "title": "Exactly which strings, names, namespaces, nestings and tables the translator gets right", "statement": "A C# string literal becomes ill-formed C++ exactly when it holds a surrogate and otherwise an object with the characters before its first NUL; a character literal keeps its value exactly when it is no surrogate; a name becomes a C++ keyword exactly when it is this or Void; a namespace becomes a C++ identifier exactly when it is global or one ASCII identifier; nested text is printed as specified exactly when no line needs more than 22 tabs and otherwise an exception is thrown; loading the table of legal types keeps exactly the rows before the first repeated one.", "quantifier": "every string, character, name, namespace, nesting and table", "why_tests_cant": "the sets are infinite and the exact borders (surrogates, NUL, the 23rd tab, the second occurrence of a row) are the statement", "anchors": ["CppTranslator/Formatter.cs::AddOpenBrace", "CppTranslator/Formatter.cs::AppendName", "CppTranslator/CppTypeVisitor.cs::LoadValidationData"]}
{"id": "C191", "title": "Exactly which methods and switches are written correctly", "statement": "For every method: every jump of the text has its label exactly when every branch goes to a block that is written and keeps its label; the leaves go where they must exactly when each leaves the innermost container or try around it or is recognised as a return; the statements are written once and in order exactly when none is in a place the visitor does not look at; the labels are pairwise different exactly when no two blocks that keep their label share it. A switch over all 64-bit integers selects the right section for every value exactly when each section has a single label or is the default section.", "quantifier": "every method body, every switch, every value", "why_tests_cant": "bodies nest without bound; the borders depend on nesting and on label sets", "anchors": ["CppTranslator/MyIlInstructionVisitor.cs::VisitSwitchInstruction", "CppTranslator/MyIlInstructionVisitor.cs::VisitBlockContainer", "CppTranslator/MyIlInstructionVisitor.cs::VisitLeave"]}
{"id": "C192", "title": "Exactly which declarations mean in C++ what they mean in C#", "statement": "A method is always declared static and virtual as in C#, and the declaration is legal C++ exactly when the method has a body or is abstract or virtual; a property's accessors keep its modifiers exactly when it has none of static, abstract and virtual; a parameter takes its argument as in C# exactly when it is not an out parameter; a named type is held by pointer when it is a reference type, exactly when it is not an interface.", "quantifier": "all methods and properties with every combination of modifiers, all parameters and all named types", "why_tests_cant": "the boundary must be exact for every combination of member kind, modifiers, body and type; a compiler judges each output separately", "anchors": ["CppTranslator/CppVisitorBase.cs::WriteModifiers", "CppTranslator/HeaderTypeVisitor.cs::VisitMethodDeclaration", "CppTranslator/CppVisitorBase.cs::AddParameterModifiers", "CppTranslator/CppTypeVisitor.cs::IsPointerType"]}
{"id": "C193", "title": "Exactly what comparing a value with an object gives", "statement": "a.Equals(b) answers whether the two are equal for every object a and every reference b, except that it is undefined exactly when b is null and a is an integer or a character; CompareTo(Object) of an integer does what .NET's does exactly when the argument is null, has another type, or differs by a number whose sign survives in 32 bits (and, for Int64, does not overflow); that of Boolean and Char always does.", "quantifier": "all objects and references, all values of the eight integer types, Boolean and Char", "why_tests_cant": "all pairs of 64-bit values and all pairs of types; the failing differences are sparse residues modulo 2^32", "anchors": ["DotNetLibrary/src/Object.cpp::Equals", "DotNetLibrary/src/Int64Value.cpp::CompareTo"]}
{"id": "C194", "title": "Exactly which names meet their declarations and which enumerators collide", "statement": "A call names the method as it is declared exactly when the name is not changed at the declaration and is not a constructor's; a field is used under its declared name exactly when it does not start with '<'; two enumerators get one name exactly when they are the same member or an underscore lets one name be read as both; the output goes beside the input exactly when no backslash follows the last slash (where both separate) or there is a slash or no backslash (where only the slash does).", "quantifier": "all names of methods, fields, enums and members, all program arguments", "why_tests_cant": "the space of names and paths is infinite and the colliding ones are exact combinations of two names", "anchors": ["CppTranslator/MyIlInstructionVisitor.cs::GetMethodName", "CppTranslator/ProtoTypeVisitor.cs::VisitEnumMemberDeclaration", "CppTranslator/MyIlInstructionVisitor.cs::ReplaceSpecial", "CppTranslator/Program.cs::GetPathToAssembly"]}
{"id": "C195", "title": "Exactly which static fields have one type", "statement": "A static field is given the same type by its declaration in the header and by its definition in the code file exactly when its type is an array, or a type definition whose name is written unchanged; for every other form of type (constructed, nullable, tuple, pointer, type parameter, modified) the definition is an error text that never matches.", "quantifier": "all types of static fields", "why_tests_cant": "types are unbounded and the two texts come from different visitors; a mismatch shows only when the output is compiled", "anchors": ["CppTranslator/CppTypeVisitor.cs::VisitTypeDefinition", "CppTranslator/CppTypeVisitor.cs::VisitParameterizedType", "CppTranslator/CppVisitorBase.cs::FormatStaticFieldDeclaration", "CppTranslator/HeaderTypeVisitor.cs::VisitFieldDeclaration"]}
{"id": "C196", "title": "What Append and Insert of an object do, for every builder, index and object", "statement": "For every builder a program can hold, appending an object adds exactly the text its ToString returns at the end, and inserting one adds it at the index (-1 is the end). A null object is undefined; Insert refuses an object whose text is empty with IndexOutOfRangeException at any index, whereas Append accepts it; an index beyond the text is refused with IndexOutOfRangeException; a result that exceeds both Capacity and MaxCapacity is refused with ArgumentOutOfRangeException; in every refusal the builder is unchanged. Apart from null, the call is undefined exactly when the new length passes the Int32 range or, not being refused, passes 2147483520 or the index is below -1.", "quantifier": "all builders after any history of calls, all insertion indices, all objects (texts returned by ToString, and null)", "why_tests_cant": "A test appends a few objects to a fresh builder; the empty text, indices below -1, full builders and lengths near the Int32 limit after arbitrary histories are not reached.", "anchors": ["DotNetLibrary/src/StringBuilder.cpp::Append", "DotNetLibrary/src/StringBuilder.cpp::Insert", "DotNetLibrary/include/StringBuilder.h::Insert"]}
{"id": "C197", "title": "What Join with a character separator does, for every argument", "statement": "For every character, array (or null), start and count, a negative count meaning to the end, String.Join(character, array, start, count) throws ArgumentNullException for a null array, returns the empty string for an empty array, throws RankException for a matrix and ArgumentNullException for a range that is not inside the array. It is undefined exactly for a range that is not empty in an array that is not of references, for a null element in the range, for a result of more than 2147483520 characters, and when the text before one of the separators has a positive multiple of 128 characters (the separator is then written behind the builder's memory block); in all other cases it returns the elements of the range with the character between them.", "quantifier": "all separator characters, all arrays (any length, elements of any length, null elements, any rank and element type), all starts and counts", "why_tests_cant": "Whether the separator meets a full block depends on the exact lengths of all elements before it; tests join a few short strings and never hit a multiple of 128.", "anchors": ["DotNetLibrary/src/StringDotNet.cpp::Join", "DotNetLibrary/src/StringBuilder.cpp::Append"]}
{"id": "C198", "title": "Exactly which programs have every returned value converted to the right type", "statement": "For every sequence of methods, property getters and operators in the order they are translated: a value returned by a method (one whose own type the translator does not know) is converted to the method's return type; one returned by a getter or operator is converted to the return type of the last method translated before it, in whatever class that is, and if there is none the translator dereferences null. So a whole program has every such value converted to the type of its own member exactly if each getter and operator comes after a method and the last method before it has the same type.", "quantifier": "all sequences of members with any types", "why_tests_cant": "The type is kept in visitor state across members and classes; a test program whose getters happen to follow methods of the same type shows nothing.", "anchors": ["CppTranslator/CppVisitorBase.cs::VisitMethodDeclaration", "CppTranslator/CppVisitorBase.cs::VisitPropertyDeclaration", "CppTranslator/MyIlInstructionVisitor.cs::VisitLeave"]}
{"id": "C199", "title": "What FormatString of String, StringBuilder, Boolean and Object does with every buffer and size", "statement": "For every text, memory and stated size: FormatString of a String or StringBuilder throws IndexOutOfRangeException exactly if the stated size is below the length; otherwise it writes the text and a NUL over the first cells, leaves the others alone and reports the length, which is undefined exactly if the memory does not hold both, so with the true size exactly for a text that fills the buffer. FormatString of a Boolean or a plain Object never throws: a stated size below the length cuts the text to one less than the size, while the length of the whole text is still reported; it is undefined exactly if the size is then below one or above the memory, or if the text is not cut and memory does not hold it and the NUL.", "quantifier": "all strings, all builders after any history, both Booleans, all memories and all stated sizes, honest or not", "why_tests_cant": "The undefined cases are single sizes for each length, and the wrong reported length needs a buffer smaller than the text; tests use a buffer of 128.", "anchors": ["DotNetLibrary/src/StringDotNet.cpp::CopyChars", "DotNetLibrary/src/StringDotNet.cpp::FormatString", "DotNetLibrary/src/StringBuilder.cpp::FormatString", "DotNetLibrary/src/BooleanValue.cpp::FormatString", "DotNetLibrary/src/Object.cpp::FormatString"]}
{"id": "C200", "title": "What appending or inserting a number, Boolean or character does, for every builder, index and value", "statement": "For every builder a program can hold, every insertion index and every value: Append and Insert of an integer of any of the eight types add its decimal numeral (a minus sign exactly for negative numbers, no leading zeros, at most 20 characters), of a Boolean True or False, Insert of a Char the character, of a Double or Single what its ToString returns; at the index, or at the end for Append and for index -1, whatever the stack held before. An index beyond the text throws IndexOutOfRangeException and a result that exceeds both Capacity and MaxCapacity throws ArgumentOutOfRangeException, leaving the builder unchanged; the call is undefined exactly when the new length passes the Int32 range or, not being refused, passes 2147483520 or the index is below -1.", "quantifier": "all builders after any history of calls, all indices, all values of the integer, real, Boolean and Char types, all contents of the stack buffer", "why_tests_cant": "The value is formatted into an uninitialised buffer and copied with its reported size; tests append a few values to a fresh builder and cannot cover all values, indices and histories.", "anchors": ["DotNetLibrary/src/StringBuilder.cpp::Append", "DotNetLibrary/src/StringBuilder.cpp::Insert", "DotNetLibrary/src/Int32Value.cpp::FormatString", "DotNetLibrary/src/DoubleValue.cpp::FormatString", "DotNetLibrary/src/CharValue.cpp::FormatString"]}
{"id": "C201", "title": "What DateTime's FormatString does with every buffer and size", "statement": "For every DateTime, memory and stated size, with text what ToString returns (fewer than 128 characters): a stated size from 0 to two below the text's length throws ArgumentOutOfRangeException, a size one below the length and every negative size throw IndexOutOfRangeException; with any other size the text and a NUL are written over the first cells, the others are left alone and the length is reported, which is undefined exactly if the memory does not hold text and NUL (with the true size: exactly for a text that fills the buffer). The contents of the stack do not matter.", "quantifier": "all DateTimes, all memories, all stated sizes, all contents of the stack buffer", "why_tests_cant": "The exception depends on the stated size against the length of the one text, and the same size also bounds an inner buffer; tests use 128 cells.", "anchors": ["DotNetLibrary/src/DateTimeValue.cpp::FormatString", "DotNetLibrary/src/StringBuilder.cpp::FormatString", "DotNetLibrary/src/StringBuilder.cpp::EnsureCapacity"]}
{"id": "C202", "title": "What TimeSpan's FormatString does with every buffer and size", "statement": "For every TimeSpan, memory and stated size, with text what ToString returns: a stated size below the text's length throws IndexOutOfRangeException; with any other size the text and a NUL are written over the first cells, the others are left alone and the length is reported, which is undefined exactly if the memory does not hold text and NUL. Neither of the two 32-character buffers on the stack nor the builder's block is ever exceeded, and what the stack held does not matter.", "quantifier": "all 2^64 TimeSpans, all memories, all stated sizes, all contents of the stack buffers", "why_tests_cant": "That the inner buffers suffice and the padding count is never negative must hold for every tick count; tests format a few spans.", "anchors": ["DotNetLibrary/src/TimeSpanValue.cpp::FormatString", "DotNetLibrary/src/StringBuilder.cpp::FormatString", "DotNetLibrary/src/StringBuilder.cpp::Append"]}
