{
 "claims": [
  {
   "property": "C01",
   "status": "proved",
   "theorems": [
    "Verif.DateTime.C01_ctor_exact"
   ],
   "note": "**C01** `DateTime(year, month, day)` succeeds exactly on the Gregorian dates of the years 1..9999, with the number of preceding days as its value, and throws `ArgumentOutOfRangeException` on every other triple."
  },
  {
   "property": "C02",
   "status": "proved",
   "theorems": [
    "Verif.DateTime.C02_components_round_trip"
   ],
   "note": "**C02** every component of a constructed DateTime reads back as given."
  },
  {
   "property": "C03",
   "status": "proved",
   "theorems": [
    "Verif.DateTime.C03_decompose",
    "Verif.DateTime.C03_two_copies_agree"
   ],
   "note": "**C03** every in-range value has a valid date, its getters never fail, and rebuilding it from its components loses nothing but the sub-millisecond ticks. The two separately written copies of the date algorithm agree on every in-range value."
  },
  {
   "property": "C04",
   "status": "proved",
   "theorems": [
    "Verif.DateTime.C04_dayOfWeek",
    "Verif.DateTime.C04_dayOfYear",
    "Verif.DateTime.C04_date_time_split"
   ],
   "note": "**C04** day of the week: Monday at the epoch, constant through a day, advancing by one each day. **C04** day of the year: one more than the days since 1 January of the same year, at most the year's length. **C04** `Date` and `TimeOfDay` split the value into a midnight and an offset inside the day."
  },
  {
   "property": "C05",
   "status": "proved",
   "theorems": [
    "Verif.DateTime.C05_isLeapYear",
    "Verif.DateTime.C05_daysInMonth"
   ],
   "note": "**C05** `IsLeapYear`. **C05** `DaysInMonth`."
  },
  {
   "property": "C06",
   "status": "proved",
   "theorems": [
    "Verif.DateTime.C06_addTicks",
    "Verif.DateTime.C06_subtractSpan",
    "Verif.DateTime.C06_add_subtract",
    "Verif.DateTime.C06_subtractDate"
   ],
   "note": "**C06** `AddTicks`/`Add(TimeSpan)` is exact, throwing exactly when the sum leaves the calendar; no overflow. **C06** `Subtract(TimeSpan)` likewise. **C06** adding and then subtracting the same span is the identity (whenever the addition succeeds). **C06** the difference of two DateTimes is exact, and adding it back gives the first."
  },
  {
   "property": "C07",
   "status": "proved",
   "theorems": [
    "Verif.DateTime.C07_addMonths",
    "Verif.DateTime.C07_addYears"
   ],
   "note": "**C07** `AddMonths`: floor arithmetic on the month index, day clamped to the target month, time of day kept; throws exactly when the shift is larger than 120000 months or leaves the years 1..9999. **C07** `AddYears(n)` is `AddMonths(12 n)` for |n| ≤ 10000 and throws otherwise."
  },
  {
   "property": "C08",
   "status": "partial",
   "theorems": [
    "Verif.DateTime.C08_refuted",
    "Verif.DateTime.C08_negative_hour_accepted",
    "Verif.DateTime.C08_ctor_range_partial"
   ],
   "note": "**C08 (partial)**: the claim holds for every call that does not pass `millisecond = 1000`, and always for the tick constructor; all rejections are `ArgumentOutOfRangeException` and there is no undefined behaviour. Counterexamples: **C08 is false**: `DateTime(9999,12,31,23,59,59,1000)` is one tick above `MaxValue` (line 55 tests `> 1000`)."
  },
  {
   "property": "C09",
   "status": "proved",
   "theorems": [
    "Verif.DateTime.C09_order"
   ],
   "note": "**C09** all comparison operations are the order of the tick counts."
  },
  {
   "property": "C10",
   "status": "partial",
   "theorems": [
    "Verif.DateTime.C10_shape",
    "Verif.DateTime.C10_identifies_second",
    "Verif.DateTime.C10_refuted"
   ],
   "note": "Counterexamples: C10 (12-hour clock) is violated: noon is printed as 12 AM and midnight as 0 AM."
  },
  {
   "property": "C11",
   "status": "partial",
   "theorems": [
    "Verif.DateTime.C11_local_universal_inverse",
    "Verif.DateTime.C11_offset_partial",
    "Verif.DateTime.C11_refuted"
   ],
   "note": "C11 (offset, partial): when the zone is a whole number of hours from UTC and the local and UTC clocks show the same day, the offset used is the true one. Missing: other zones and times of day (`C11_refuted`). Counterexamples: C11 (offset) is violated: at 20:00 UTC a zone ten hours ahead is treated as fourteen hours behind, and the half hour of a half-hour zone is lost."
  },
  {
   "property": "C12",
   "status": "proved",
   "theorems": [
    "Verif.TimeSpan.C12_components"
   ],
   "note": "C12: the components of every TimeSpan recompose it; each shares its sign and is below its carry."
  },
  {
   "property": "C13",
   "status": "proved",
   "theorems": [
    "Verif.TimeSpan.C13_ofHms",
    "Verif.TimeSpan.C13_ofDhms"
   ],
   "note": "C13: the constructor from hours, minutes and seconds holds the exact total or throws. C13: the constructor from days, hours, minutes, seconds and milliseconds holds the exact total or throws."
  },
  {
   "property": "C14",
   "status": "proved",
   "theorems": [
    "Verif.TimeSpan.C14_add_exact_or_overflow",
    "Verif.TimeSpan.C14_add_iso"
   ],
   "note": "C14: on two's complement arithmetic, `Add` returns the exact sum when it fits in Int64 and throws OverflowException exactly otherwise. C14 under ISO C++: a sum that fits is returned; otherwise the overflow happens before the test that should report it."
  },
  {
   "property": "C15",
   "status": "partial",
   "theorems": [
    "Verif.TimeSpan.C15_subtract_exact",
    "Verif.TimeSpan.C15_subtract_partial",
    "Verif.TimeSpan.C15_always_throws",
    "Verif.TimeSpan.C15_refuted"
   ],
   "note": "C15 (partial): when the difference fits and the operands have different signs, or the same sign and the result keeps it, `Subtract` returns the exact difference. Missing: the remaining pairs, where it throws for representable differences and returns a wrapped value for others (`C15_refuted`). Counterexamples: C15 is violated: 1 - 2 throws, -3 - -3 throws, and MinValue - 1 wraps around without an exception."
  },
  {
   "property": "C16",
   "status": "partial",
   "theorems": [
    "Verif.TimeSpan.C16_negate_duration_partial",
    "Verif.TimeSpan.C16_refuted"
   ],
   "note": "C16 (partial): every non-zero span except the most negative one negates exactly and back, and its duration is its absolute value. Missing: 0 and the most negative span (`C16_refuted`). Counterexamples: C16 is violated: `MinValue` is 0, so zero cannot be negated or measured, and the true minimum overflows."
  },
  {
   "property": "C17",
   "status": "proved",
   "theorems": [
    "Verif.TimeSpan.C17_order"
   ],
   "note": "C17: all comparison members agree with the order of the tick counts."
  },
  {
   "property": "C18",
   "status": "partial",
   "theorems": [
    "Verif.TimeSpan.C18_round_trip_exact",
    "Verif.TimeSpan.C18_round_trip_partial",
    "Verif.TimeSpan.C18_refuted"
   ],
   "note": "C18 (partial): parsing the printed text gives the span back, when it has at most 99 days and its fraction of a second is zero or at least a tenth of a second. Missing: the other spans (`C18_refuted`). Counterexamples: C18 is violated: the fraction is padded on the wrong side, so one tick prints like a tenth of a second; three-digit day numbers are not read back."
  },
  {
   "property": "C19",
   "status": "partial",
   "theorems": [
    "Verif.TimeSpan.C19_parse_denotes_partial",
    "Verif.TimeSpan.C19_memory_safe_partial",
    "Verif.TimeSpan.C19_refuted"
   ],
   "note": "C19 (accepting side, partial): a text `[-][d.]h:m:s[.fff]` with one- or two-digit numbers and a fraction of 3 to 7 digits is parsed to the tick count it denotes. Missing: longer day numbers and one- or two-digit fractions, which are misread (`C18_refuted`, `C19_refuted`). C19 (memory safety, partial): for every text with at most three separators, `Parse` reads only inside the text and its NUL, writes only the four entries of its array and does no overflowing arithmetic: it returns a value. Missing: texts with more separators, which write past the array (`C19_refuted`). Counterexamples: C19 is violated: a fifth number is written past the end of the array; text that is no time span is accepted, and a short fraction is read as one more number."
  },
  {
   "property": "C20",
   "status": "partial",
   "theorems": [
    "Verif.IntVal.C20_round_trip_partial",
    "Verif.IntVal.C20_refuted",
    "Verif.IntVal.C20_toString_injective"
   ],
   "note": "C20 (partial): for every type and every value except the minimum of Int32 and Int64, parsing the printed text gives the value back, and `TryParse` returns true with it. Missing: the two minima, where the code multiplies `(Int32)2147483648` resp. `(Int64)9223372036854775808` by -1 (signed overflow): `C20_refuted`. Counterexamples: C20 is violated at the two minima: printing gives the right text, but parsing it is undefined behaviour."
  },
  {
   "property": "C21",
   "status": "partial",
   "theorems": [
    "Verif.IntVal.C21_parse_in_range_partial",
    "Verif.IntVal.C21_parse_overflow_partial",
    "Verif.IntVal.C21_byte_negative",
    "Verif.IntVal.C21_format_iff",
    "Verif.IntVal.C21_refuted"
   ],
   "note": "C21 (values in range, partial): `Parse` of `[ws][sign]digits[ws]` returns the denoted integer when it is a value of the type. Missing, because the code is wrong there (see the refutations below): the minimum of the two widest signed types (undefined behaviour), and \"-0\" for Byte. C21 (overflow, partial): a text denoting a number above the maximum of the type makes `Parse` throw OverflowException, for every type narrower than 64 bits and every number below 2^64. Missing (see refutations): larger numbers, Int64 and UInt64, and numbers below the minimum of a signed type. Counterexamples: C21 is violated: the minimum numerals of Int32/Int64 overflow a signed multiplication; numerals below the minimum or at 2^64 and beyond are accepted with a wrong value; a minus sign is accepted for the unsigned types other than Byte (UInt64 even drops it); \"-0\" is an overflow for Byte; text after white spac"
  },
  {
   "property": "C22",
   "status": "partial",
   "theorems": [
    "Verif.IntVal.C22_agree_partial",
    "Verif.IntVal.C22_tryParse_no_throw",
    "Verif.IntVal.C22_null",
    "Verif.IntVal.C22_refuted"
   ],
   "note": "C22 (partial): `Parse` returns `v` exactly when `TryParse` returns true with `v`. For UInt16, UInt32 and UInt64 the text must contain no minus sign (there `Parse` accepts and `TryParse` rejects: `C22_refuted`). Counterexamples: C22 is violated: for the wide unsigned types `Parse` accepts a minus sign that `TryParse` rejects; and `TryParse` has undefined behaviour on a malformed text on which `Parse` throws FormatException."
  },
  {
   "property": "C23",
   "status": "partial",
   "theorems": [
    "Verif.IntVal.C23_compareTo_partial",
    "Verif.IntVal.C23_refuted",
    "Verif.IntVal.C23_exact"
   ],
   "note": "C23 (partial): `CompareTo` has the sign of the comparison for all pairs of values of the 8- and 16-bit types, and for all pairs of the wider types that are less than 2^31 apart. Missing: pairs further apart (`C23_refuted`). Counterexamples: C23 is violated for the four wide types on values far apart: signed overflow, wrong sign, and equality reported for different values."
  },
  {
   "property": "C24",
   "status": "partial",
   "theorems": [
    "Verif.BCProps.C24_parse_exact",
    "Verif.BCProps.C24_parse_partial",
    "Verif.BCProps.C24_parse_refuted",
    "Verif.BCProps.C24_round_trip"
   ],
   "note": "**C24** (partial: strings of four or more characters other than \"fals\", without embedded NUL; the process locale \"C\"). `Parse` accepts exactly the two words up to case and throws FormatException for every other string; null throws. Counterexamples: **C24** is false of the code: the empty string, \"T\", \"tr\", \"fals\" are all accepted."
  },
  {
   "property": "C25",
   "status": "partial",
   "theorems": [
    "Verif.SBProps.C25_memory_safe_partial",
    "Verif.SBProps.C25_reads_safe_partial",
    "Verif.SBProps.C25_append_char_refuted",
    "Verif.SBProps.C25_append_run_refuted",
    "Verif.SBProps.C25_insert_negative_refuted"
   ],
   "note": "**C25** (partial). In every history of covered calls no call reads or writes outside the builder's block (nor has any other undefined behaviour). Missing: the calls excluded by `MemSafe`, which do (theorems below). **C25**: reading (`ToString`, `get_Chars`) never leaves the block, in any such history. Counterexamples: **C25** is false of the code: `Append(Char)` (StringBuilder.cpp lines 261-271) checks room for the appended characters only, not for the text already there. On every default-capacity builder holding 128 characters the next `Append(Char)` writes past `internalMemory`. **C25** is false of the code, second form: on a fresh `new StringBuilder()` 128 single-character appends work and every longer run of them is undefined behaviour. **C25** is false of the code, third form: `Insert` with an index below -1 moves memory from in front of the block (StringBuilder.cpp lines 189-197 re"
  },
  {
   "property": "C26",
   "status": "partial",
   "theorems": [
    "Verif.SBProps.C26_text_partial",
    "Verif.SBProps.C26_throws_exactly_partial",
    "Verif.SBProps.C26_constructors_reject",
    "Verif.SBProps.C26_constructors_partial",
    "Verif.SBProps.C26_empty_string_refuted",
    "Verif.SBProps.C26_insert_empty_refuted",
    "Verif.SBProps.C26_set_length_refuted",
    "Verif.SBProps.C26_insert_half_refuted"
   ],
   "note": "**C26** (partial). In every history of covered calls, each call edits the text exactly as the corresponding list operation, or throws leaving the text alone. Missing: the calls excluded by `MemSafe` and `Plain`. **C26**: a call with acceptable arguments and room returns; one with unacceptable arguments throws. **C26**: the constructors start from the empty text, or from the requested part of a string. Counterexamples: **C26** is false of the code: `new StringBuilder(\"\")` throws, because it takes the address of character 0. **C26** is false of the code: inserting an empty string throws although the index is valid. **C26** is false of the code: lengthening with `set_Length` brings back removed characters (\"abc\", Remove(0,3), then Length = 2 shows a NUL followed by the old 'b'). **C26** is false of the code: a repeated `Insert` that runs into MaxCapacity throws with part of the work done."
  },
  {
   "property": "C27",
   "status": "partial",
   "theorems": [
    "Verif.SBProps.C27_length_le_capacity_partial",
    "Verif.SBProps.C27_ensure_capacity",
    "Verif.SBProps.C27_set_capacity_keeps_text",
    "Verif.SBProps.C27_capacity_bound_partial",
    "Verif.SBProps.C27_capacity_le_max_partial",
    "Verif.SBProps.C27_max_capacity_refuted",
    "Verif.SBProps.C27_set_capacity_refuted",
    "Verif.SBProps.C27_append_char_refuted"
   ],
   "note": "**C27** (partial). Length <= Capacity in every history in which the program itself never sets Capacity below Length and appends single characters only where they fit. **C27** (partial): in every history whatsoever Capacity stays below MaxCapacity + 128. **C27** (partial): when MaxCapacity is a multiple of 128, Capacity never exceeds it, in every history. Counterexamples: **C27** is false of the code: Capacity can exceed MaxCapacity (rounding up, StringBuilder.cpp lines 132-135), and then so can Length without any exception. **C27** is false of the code: `set_Capacity` below the length is accepted and leaves Length > Capacity. **C27** is false of the code: a builder of capacity 2 takes five single characters without growing its capacity."
  },
  {
   "property": "C28",
   "status": "proved",
   "theorems": [
    "Verif.SBProps.C28_replace",
    "Verif.SBProps.C28_replace_total",
    "Verif.SBProps.C28_replace_unique",
    "Verif.SBProps.C28_replace_exists",
    "Verif.SBProps.C28_replace_absent"
   ],
   "note": "**C28**: whenever `Replace(old, new, start, count)` returns, the range was valid and the text is the old text with every leftmost non-overlapping occurrence of `old` inside the range replaced; outside the range nothing changed. The side conditions only exclude patterns of 2^29 characters or more and results above 2147483520 characters (Int32 overflow). **C28**: with a valid range, a non-empty pattern and a result within MaxCapacity the call does return; otherwise it throws and the text is unchanged. **C28**: the result is determined: at most one text is the replacement of `xs`, so `Replaced` pins down the call. **C28**: and there always is one. **C28**: a text without the pattern is unchanged."
  },
  {
   "property": "C29",
   "status": "partial",
   "theorems": [
    "Verif.StrProps.C29_substring_exact",
    "Verif.StrProps.C29_copy_to_empty_refuted",
    "Verif.StrProps.C29_get_chars",
    "Verif.StrProps.C29_substring_partial",
    "Verif.StrProps.C29_substring_nul_refuted",
    "Verif.StrProps.C29_to_char_array_partial",
    "Verif.StrProps.C29_to_char_array_refuted",
    "Verif.StrProps.C29_copy_to_partial",
    "Verif.StrProps.C29_copy_to_refuted",
    "Verif.StrProps.C29_copy"
   ],
   "note": "**C29** (partial: strings without embedded NUL). `Substring(start, length)` returns exactly the requested characters for a range inside the string (a negative length meaning \"to the end\") and throws exactly otherwise. **C29** (partial: see the next theorem). `ToCharArray(start, length)` returns exactly the requested characters for a range inside the string (negative length: to the end) and throws for every other explicit range. **C29** (partial: non-empty ranges, or positions before the end). `CopyTo` puts exactly the requested characters at the requested place of the array, changes nothing else, and throws for every range not inside the string or the array. Counterexamples: **C29**, empty ranges: `CopyTo` of no characters from the end of the string or to the end of the array throws IndexOutOfRange. **C29** is false of the code for embedded NULs: a substring starting after one throws. **"
  },
  {
   "property": "C30",
   "status": "partial",
   "theorems": [
    "Verif.StrProps.C30_index_of_exact",
    "Verif.StrProps.C30_last_index_of_exact",
    "Verif.StrProps.C30_index_of",
    "Verif.StrProps.C30_index_of_default",
    "Verif.StrProps.C30_index_of_bad_partial",
    "Verif.StrProps.C30_index_of_refuted",
    "Verif.StrProps.C30_index_of_any",
    "Verif.StrProps.C30_last_index_of_partial",
    "Verif.StrProps.C30_last_index_of_default",
    "Verif.StrProps.C30_last_index_of_refuted",
    "Verif.StrProps.C30_last_index_of_any_partial"
   ],
   "note": "**C30** (partial): a range that is not empty and not inside the string throws. **C30** (partial: see the next theorem). `LastIndexOf(c, start, count)` on a backward range inside the string returns the last match, or -1; a start beyond the string throws. **C30**: `LastIndexOfAny` likewise. Counterexamples: **C30** is false of the code: negative starts and negative counts are accepted silently when the loop does not run. **C30** is false of the code: a backward range running past the beginning of the string is accepted when a match is found before the beginning is reached."
  },
  {
   "property": "C31",
   "status": "partial",
   "theorems": [
    "Verif.StrProps.C31_index_of_exact",
    "Verif.StrProps.C31_index_of_right_iff",
    "Verif.StrProps.C31_index_of_default_partial",
    "Verif.StrProps.C31_index_of_range_partial",
    "Verif.StrProps.C31_index_of_refuted"
   ],
   "note": "**C31** (partial: default ranges). `IndexOf(value)` and `IndexOf(value, start)` return the least position at or after the start where `value` stands in the string, or -1; strings without embedded NUL. **C31** (partial). With an explicit count: -1 means that `value` does not stand inside the range; a reported position that does end inside the range is the least one; ranges not inside the string throw. Counterexamples: **C31** is false of the code: a match may end (or even begin) outside the searched range."
  },
  {
   "property": "C32",
   "status": "partial",
   "theorems": [
    "Verif.StrProps.C32_ordinal_partial",
    "Verif.StrProps.C32_ordinal_same_length_partial",
    "Verif.StrProps.C32_ordinal_transitive_partial",
    "Verif.StrProps.C32_prefix_refuted",
    "Verif.StrProps.C32_cycle_refuted",
    "Verif.StrProps.C32_compare_to_object_refuted",
    "Verif.StrProps.C32_compare_to",
    "Verif.StrProps.C32_compare_same_length_partial",
    "Verif.StrProps.C32_compare_safe"
   ],
   "note": "**C32** (partial). What `CompareOrdinal(a, b)` computes, for all strings without embedded NUL: 0 exactly when `a` is a prefix of `b`, 1 exactly when `b` precedes `a` in dictionary order, -1 exactly when `a` precedes `b` and is not a prefix. **C32** (partial: strings of equal length). There `CompareOrdinal` is a total order consistent with equality: 0 exactly for equal strings, and swapping the arguments flips the sign. **C32** (partial: strings of equal length): `CompareOrdinal` is transitive. **C32** (partial: strings of equal length, a locale in which no character is both upper and lower case). `Compare(a, b)` is 0 exactly for equal strings and swapping the arguments flips the sign. Counterexamples: **C32** is false of the code: `Compare` looks only at the first `a.Length` characters, so a proper prefix compares equal, and swapping the arguments gives 1 instead of 0. **C32** is false o"
  },
  {
   "property": "C33",
   "status": "partial",
   "theorems": [
    "Verif.StrProps.C33_equality_partial",
    "Verif.StrProps.C33_equals_object_partial",
    "Verif.StrProps.C33_exact",
    "Verif.StrProps.C33_refuted"
   ],
   "note": "**C33** (partial: no NUL characters): `op_Inequality`, `Equals(String*)` and the static `Equals` decide equality of the character sequences, null being equal only to null. Missing: `C33_refuted`. **C33**: `Equals(Object*)` is true exactly for strings with the same characters. Counterexamples: **C33**, the rest refuted: strings that differ only behind a NUL character are equal."
  },
  {
   "property": "C34",
   "status": "partial",
   "theorems": [
    "Verif.StrProps.C34_trim_exact",
    "Verif.StrProps.C34_trim_partial",
    "Verif.StrProps.C34_trim_start_partial",
    "Verif.StrProps.C34_trim_end_partial",
    "Verif.StrProps.C34_trimmed_unique",
    "Verif.StrProps.C34_trim_idempotent_partial",
    "Verif.StrProps.C34_trim_nul_refuted"
   ],
   "note": "**C34** (partial: trim sets without the NUL character). `Trim` removes exactly the leading and trailing trim characters. **C34** (partial, as above): `TrimStart` removes exactly the leading trim characters. **C34** (partial, as above): `TrimEnd` removes exactly the trailing trim characters. **C34** (partial, as above): trimming is idempotent. Counterexamples: **C34** is false of the code for a trim set containing NUL: the constructor rejects a start after a NUL."
  },
  {
   "property": "C35",
   "status": "partial",
   "theorems": [
    "Verif.StrProps.C35_pad_exact",
    "Verif.StrProps.C35_pad_left_partial",
    "Verif.StrProps.C35_pad_right_partial",
    "Verif.StrProps.C35_overflow_refuted"
   ],
   "note": "**C35** (partial: length + width up to 2147483520). `PadLeft` puts exactly `max(0, width - length)` padding characters in front of the string; negative widths throw. **C35** (partial, as above): `PadRight` puts them behind the string. Counterexamples: **C35** is false of the code for widths near the Int32 limit: `length + width` overflows."
  },
  {
   "property": "C36",
   "status": "partial",
   "theorems": [
    "Verif.StrProps.C36_concat_array_exact",
    "Verif.StrProps.C36_concat_exact",
    "Verif.StrProps.C36_concat_array_partial",
    "Verif.StrProps.C36_concat_null_refuted",
    "Verif.StrProps.C36_concat_partial",
    "Verif.StrProps.C36_join_partial",
    "Verif.StrProps.C36_join_char_partial",
    "Verif.StrProps.C36_join_char_refuted"
   ],
   "note": "**C36** (partial: no null elements, total length up to 2147483520). `Concat(array)` is the concatenation of the parts. **C36** (partial: first operand not null). `Concat(o1, o2, ...)` is the concatenation, null operands after the first counting as empty. **C36** (partial: no null elements or separator, total length up to 2147483520). `Join(separator, parts, start, count)` with a String separator: the requested parts in order with the separator between consecutive ones (negative count: to the end). **C36** (partial: results of up to 128 characters). `Join` with a Char separator. Counterexamples: **C36** is false of the code for null elements: `Concat(array)` dereferences them, `Concat(null, ...)` throws. **C36** is false of the code: `Join(Char, ...)` writes outside the builder's memory when the text before a separator fills the builder (128 characters)."
  },
  {
   "property": "C37",
   "status": "partial",
   "theorems": [
    "Verif.StrProps.C37_starts_with_long_exact",
    "Verif.StrProps.C37_contains_empty_refuted",
    "Verif.StrProps.C37_contains_partial",
    "Verif.StrProps.C37_ends_with_partial",
    "Verif.StrProps.C37_starts_with_partial",
    "Verif.StrProps.C37_starts_with_long_partial",
    "Verif.StrProps.C37_affix_refuted",
    "Verif.StrProps.C37_ends_with_long_refuted",
    "Verif.StrProps.C37_ends_with_char"
   ],
   "note": "**C37** (partial: see the next theorems). `Contains(p)` for a non-empty string and a non-empty argument: infix. **C37** (partial: argument not longer than the string). `EndsWith(p)`: suffix. **C37** (partial: argument not longer than the string). `StartsWith(p)`: prefix. **C37** (partial): an argument longer than the string but fitting the comparison buffer (128 characters) is answered `false`, provided it has no NUL character. Counterexamples: **C37**: `Contains(\"\")` never returns, for every non-empty string. **C37** is false of the code: an empty string throws for any non-empty argument; `Contains(\"\")` never terminates (modelled as `ub`); an `EndsWith` argument longer than the string reads before the buffer; a `StartsWith` argument longer than the buffer reads past it. **C37**: reading before the buffer happens for every argument longer than the (non-empty) string."
  },
  {
   "property": "C38",
   "status": "proved",
   "theorems": [
    "Verif.StrProps.C38_case_pointwise",
    "Verif.StrProps.C38_case_idempotent"
   ],
   "note": "**C38**: `ToUpper`/`ToLower` map every character independently and preserve the length, in every locale. **C38**: in the process locale (\"C\"; no code calls `setlocale`) applying `ToUpper` or `ToLower` twice equals applying it once, and `ToLower` undoes the case change of `ToUpper`."
  },
  {
   "property": "C39",
   "status": "proved",
   "theorems": [
    "Verif.StrProps.C39_enumerator"
   ],
   "note": "**C39**: after any history of `MoveNext`/`Reset` calls, with `k` moves since the last reset: no call ever failed; the next `MoveNext` returns true exactly when a character number `k+1` exists; `Current` is the k-th character when `1 <= k <= Length` and InvalidOperationException before the first and after the last."
  },
  {
   "property": "C40",
   "status": "partial",
   "theorems": [
    "Verif.ArrProps.C40_addressing",
    "Verif.ArrProps.C40_wrong_rank",
    "Verif.ArrProps.C40_negative_surplus_refuted"
   ],
   "note": "Counterexamples: **C40** is false of the code for negative surplus indices: a two-index access with a negative second index on a one-dimensional array addresses element `i` instead of throwing."
  },
  {
   "property": "C41",
   "status": "partial",
   "theorems": [
    "Verif.ArrProps.C41_set_get",
    "Verif.ArrProps.C41_set_get_reference",
    "Verif.ArrProps.C41_rejects",
    "Verif.ArrProps.C41_char_refuted",
    "Verif.ArrProps.C41_double_to_uint64_refuted",
    "Verif.ArrProps.C41_index_array",
    "Verif.ArrProps.C41_empty_index_refuted"
   ],
   "note": "Counterexamples: **C41** is false of the code: a Char element set from the Int16 -1 reads back as the character value -1, outside the 16-bit range (.NET: U+FFFF), because the cast goes to the 4-byte `wchar_t`. **C41** is false of the code: a Double that fits UInt64 but not Int64 cannot be stored in a UInt64 array, because the switch asks for the Int64 value. **C41** is false of the code: with an empty index array `GetValue` answers a null reference and `SetValue` does nothing, for every array (.NET throws ArgumentException)."
  },
  {
   "property": "C42",
   "status": "partial",
   "theorems": [
    "Verif.ArrProps.C42_copy_cells",
    "Verif.ArrProps.C42_copy",
    "Verif.ArrProps.C42_copy_rejects",
    "Verif.ArrProps.C42_copy_overflow_refuted",
    "Verif.ArrProps.C42_copy_within_partial",
    "Verif.ArrProps.C42_copy_overlap_refuted",
    "Verif.ArrProps.C42_copy_to",
    "Verif.ArrProps.C42_clear_partial",
    "Verif.ArrProps.C42_clear_refuted"
   ],
   "note": "**C42** (partial: ranges that do not overlap, or a platform whose `memcpy` tolerates overlap). `Copy` within one array behaves as if through a temporary. **C42** (partial: ranges inside the array). `Clear(array, start, n)` zeroes exactly the elements `start..start+n`. Counterexamples: **C42** is false of the code: an index near the Int32 maximum overflows in `index + length` (undefined) instead of throwing. **C42** is false of the code: every overlapping copy of a non-empty range within one array is undefined (it uses `memcpy`, not `memmove`). **C42** is false of the code: `Clear` with any range outside the array (negative start, negative count, or end beyond the length) is undefined behaviour; no exception is ever thrown, since the range check only creates exception objects."
  },
  {
   "property": "C43",
   "status": "partial",
   "theorems": [
    "Verif.ArrProps.C43_shape_partial",
    "Verif.ArrProps.C43_get_length_refuted"
   ],
   "note": "**C43** (partial: the dimension number is not negative and not equal to the rank). `Rank` and `Length` are the declared ones, `GetLength(d)` is the size of dimension `d` and throws for `d > Rank`; bounds are `0` and `size - 1`. Counterexamples: **C43** is false of the code: `GetLength(Rank)` and `GetLength` of a negative dimension answer -1 on every array instead of throwing (the test is `rank > dimensionCount`)."
  },
  {
   "property": "C44",
   "status": "partial",
   "theorems": [
    "Verif.BufProps.C44_byte_length",
    "Verif.BufProps.C44_get_byte",
    "Verif.BufProps.C44_get_byte_negative_refuted",
    "Verif.BufProps.C44_set_byte_negative_refuted",
    "Verif.BufProps.C44_set_byte_partial",
    "Verif.BufProps.C44_block_copy_partial",
    "Verif.BufProps.C44_block_copy_within_partial",
    "Verif.BufProps.C44_block_copy_throws_partial",
    "Verif.BufProps.C44_block_copy_refuses",
    "Verif.BufProps.C44_block_copy_empty_refuted",
    "Verif.BufProps.C44_block_copy_overflow_refuted"
   ],
   "note": "**C44** (partial: non-negative indices). `SetByte(i, v)` makes `GetByte(i)` answer `v` and changes no other byte. **C44** (partial: non-empty arrays). `BlockCopy` between two arrays of any primitive element types, with both ranges inside them, sets exactly the `n` bytes from `d` on to the `n` source bytes from `so` on and leaves every other byte unchanged. **C44** (partial: non-empty arrays). `BlockCopy` within one array copies as if through a temporary, overlap or not. **C44** (partial: as long as the end positions fit an Int32). Negative arguments throw ArgumentOutOfRange, ranges leaving an array throw Argument; nothing is written. Counterexamples: **C44** is false of the code: a negative index is not refused; it reads memory in front of the array. **C44** is false of the code: a negative index in `SetByte` writes memory in front of the array. **C44** is false of the code: copying noth"
  },
  {
   "property": "C45",
   "status": "partial",
   "theorems": [
    "Verif.BufProps.C45_get_bytes",
    "Verif.BufProps.C45_round_trip",
    "Verif.BufProps.C45_round_trip_others",
    "Verif.BufProps.C45_bool_bytes",
    "Verif.BufProps.C45_char_exact",
    "Verif.BufProps.C45_char_refuted",
    "Verif.BufProps.C45_char_partial",
    "Verif.BufProps.C45_throws",
    "Verif.BufProps.C45_memory_safe"
   ],
   "note": "**C45** (partial: code units below 0x8000): Chars round-trip. Counterexamples: **C45** is false of the code: a Char of 0x8000 or above does not survive the round trip."
  },
  {
   "property": "C46",
   "status": "partial",
   "theorems": [
    "Verif.BufProps.C46_dump_faithful",
    "Verif.BufProps.C46_to_string_partial",
    "Verif.BufProps.C46_large_refuted",
    "Verif.BufProps.C46_to_string_throws"
   ],
   "note": "**C46** (partial: up to 715827840 bytes). `ToString(value, start, length)` of a Byte array, with the range inside it, is the hexadecimal dump of exactly the bytes of that range; `length = -1` means up to the end. Counterexamples: **C46** is false of the code for larger ranges: the size of the text overflows an Int32 (undefined)."
  },
  {
   "property": "C47",
   "status": "partial",
   "theorems": [
    "Verif.MathProps.C47_clamp_throws",
    "Verif.MathProps.C47_clamp_nearest",
    "Verif.MathProps.C47_max_min",
    "Verif.MathProps.C47_lattice",
    "Verif.MathProps.C47_sign32_partial",
    "Verif.MathProps.C47_sign_small",
    "Verif.MathProps.C47_sign64_partial",
    "Verif.MathProps.C47_sign_min_refuted"
   ],
   "note": "**C47** (partial: all values but MinValue): `Sign(Int32)` is -1, 0 or 1 with the sign of the argument. **C47** (partial: all values but MinValue): `Sign(Int64)`. Counterexamples: **C47** refuted at MinValue: `Sign(Int32.MinValue)` and `Sign(Int64.MinValue)` negate a value whose negation does not exist."
  },
  {
   "property": "C48",
   "status": "partial",
   "theorems": [
    "Verif.MathProps.C48_divrem32_partial",
    "Verif.MathProps.C48_zero",
    "Verif.MathProps.C48_divrem64_partial",
    "Verif.MathProps.C48_divrem64_refuted",
    "Verif.MathProps.C48_divrem64_identity",
    "Verif.MathProps.C48_divide64_partial",
    "Verif.MathProps.C48_min_refuted"
   ],
   "note": "**C48** (partial: all pairs but MinValue by -1): `DivRem(Int32)` returns the truncated quotient and the matching remainder. **C48** (partial: quotients that fit Int32): `DivRem(Int64)`. **C48** (partial: all pairs but MinValue by -1): `Divide(Int64, Int64)` is the truncated quotient. Counterexamples: **C48** refuted for Int64: a quotient that needs more than 32 bits is truncated, giving a wrong quotient and a remainder larger than the divisor, or overflows. **C48** refuted at MinValue by -1: undefined behaviour in all three."
  },
  {
   "property": "C49",
   "status": "partial",
   "theorems": [
    "Verif.FltProps.C49_adjacent_partial",
    "Verif.FltProps.C49_fixed",
    "Verif.FltProps.C49_inverse_partial",
    "Verif.FltProps.C49_infinity_refuted"
   ],
   "note": "**C49** (partial: finite arguments): `BitIncrement(x)` is the least number greater than `x` and `BitDecrement(x)` the greatest less than `x`, for every finite `x` including both zeros, the subnormals and the extremes (whose neighbours are the infinities). **C49** (partial: while the neighbour is finite): on finite values the two are inverse to each other, up to the sign of zero. Counterexamples: **C49** refuted at the infinities: the number below +infinity is the greatest finite double, `7FEFFFFFFFFFFFFF`, but `BitDecrement(+infinity)` is four steps lower, because `Double.MaxValue` is written with 16 digits; the same for `BitIncrement(-infinity)`, and stepping up from the greatest finite double and back does not return to it."
  },
  {
   "property": "C50",
   "status": "partial",
   "theorems": [
    "Verif.FltProps.C50_classification",
    "Verif.FltProps.C50_partition",
    "Verif.FltProps.C50_is_negative_partial",
    "Verif.FltProps.C50_is_negative_nan_refuted",
    "Verif.FltProps.C50_infinities"
   ],
   "note": "**C50** (partial: not for NaN): `IsNegative` is the sign bit. Counterexamples: **C50** is false of the code for NaN: every NaN counts as negative, whatever its sign bit."
  },
  {
   "property": "C51",
   "status": "proved",
   "theorems": [
    "Verif.FltProps.C51_compare_exact",
    "Verif.FltProps.C51_total_preorder",
    "Verif.FltProps.C51_equals",
    "Verif.FltProps.C51_objects"
   ],
   "note": "**C51**: `CompareTo` is -1, 0 or 1 exactly as the first is below, the same as, or above the second in the order \"NaN first, then by value\". **C51**: `CompareTo` is a total preorder: reflexive, antisymmetric in sign, transitive; all NaNs are equal to each other and below every number. **C51**: `Equals` holds exactly when `CompareTo` is 0, so it is an equivalence; it does not distinguish the two zeros nor NaNs. **C51**: the overloads taking an object: null compares below every value and is equal to none; another class throws in `CompareTo` and is unequal; the same class compares by value."
  },
  {
   "property": "C52",
   "status": "partial",
   "theorems": [
    "Verif.AllocProps.C52_blocks_partial",
    "Verif.AllocProps.C52_allocation_partial",
    "Verif.AllocProps.C52_capacity_partial",
    "Verif.AllocProps.C52_before_setup",
    "Verif.AllocProps.C52_large_refuted",
    "Verif.AllocProps.C52_zero_size_refuted",
    "Verif.AllocProps.C52_recycle"
   ],
   "note": "**C52** (partial: sizes up to 0xFFFF8000, and zero-size blocks may share an address): after any history of allocations, frees, stores and setups, all blocks handed out since the last setup are 8-byte aligned, inside the arena and pairwise disjoint. **C52** (partial, as above): in any state a program can reach after setup, an allocation never fails in an undefined way. It returns null, leaving the arena and all bookkeeping untouched, exactly when the size rounded up to 8 does not fit in what is left; otherwise it returns a block that is aligned, inside the arena, all zero, disjoint from every live block, and no byte of any live block changes. **C52**: the arena is used completely: from a fresh setup any sequence of requests succeeds exactly when the rounded sizes sum to at most 32767 (partial: each request at most 0xFFFF8000). Counterexamples: **C52** refuted for large sizes: a request of"
  },
  {
   "property": "C53",
   "status": "partial",
   "theorems": [
    "Verif.FmtTextProps.C53_keyword_partial",
    "Verif.FmtTextProps.C53_keyword_refuted",
    "Verif.FmtTextProps.C53_injective",
    "Verif.FmtTextProps.C53_identifier",
    "Verif.FmtTextProps.C53_total"
   ],
   "note": "**C53**: the only names emitted as a C++ keyword are `this` and `Void` (as `void`). Counterexamples: **C53** refuted for keywords: a type called `Void` is emitted as `void`, a parameter written `@this` in C# (metadata name \"this\") as the keyword `this`."
  },
  {
   "property": "C54",
   "status": "partial",
   "theorems": [
    "Verif.FmtTextProps.C54_literal",
    "Verif.FmtTextProps.C54_preserved_partial",
    "Verif.FmtTextProps.C54_surrogate_refuted",
    "Verif.FmtTextProps.C54_object_partial",
    "Verif.FmtTextProps.C54_nul_refuted",
    "Verif.FmtTextProps.C54_trigraph_refuted"
   ],
   "note": "**C54** for strings without surrogates: nothing else can go wrong, and different strings get different literals. **C54** for the String object: it has the same characters whenever the string has neither surrogates nor NULs. Counterexamples: **C54** refuted: a valid C# string (an emoji, U+1F600) becomes an ill-formed literal. **C54** refuted for NUL characters: C#'s \"a\\0b\" has three characters, the translated object one. **C54** refuted under a strict ISO C++11/14 compiler (trigraphs enabled): C#'s \"??=\" denotes \"#\"."
  },
  {
   "property": "C55",
   "status": "partial",
   "theorems": [
    "Verif.FmtTextProps.C55_literal",
    "Verif.FmtTextProps.C55_preserved_partial",
    "Verif.FmtTextProps.C55_surrogate_refuted"
   ],
   "note": "Counterexamples: **C55** refuted: `(char)0xD800` becomes an ill-formed literal."
  },
  {
   "property": "C56",
   "status": "partial",
   "theorems": [
    "Verif.FmtLayoutProps.C56_layout_partial",
    "Verif.FmtLayoutProps.C56_depth_refuted",
    "Verif.FmtLayoutProps.C56_braces",
    "Verif.FmtLayoutProps.C56_brace_own_line"
   ],
   "note": "**C56**: a document whose deepest line needs at most 22 tabs is printed exactly as specified (indentation by nesting depth, one brace per line, braces in pairs), and printing leaves the formatter at the start of a line at the same depth. Counterexamples: **C56** refuted without the depth bound: the translation of anything nested deeper than 22 levels is abandoned with an ArgumentOutOfRangeException."
  },
  {
   "property": "C57",
   "status": "proved",
   "theorems": [
    "Verif.TypesProps.C57_reported_once",
    "Verif.TypesProps.C57_log_grows",
    "Verif.TypesProps.C57_call"
   ],
   "note": "**C57**: after any sequence of references to types and methods, the log names every unsupported one exactly once and nothing else. **C57**: the order of the log is the order of first use: validating one more reference only appends to it. **C57** for calls: a call of a method is checked under its signature `Type.Method(P1,P2,...)`, and each of its parameter types under its own name: afterwards the log holds exactly the unsupported ones among them."
  },
  {
   "property": "C58",
   "status": "partial",
   "theorems": [
    "Verif.Header.C58_bases_first_partial",
    "Verif.Header.C58_base_order_partial",
    "Verif.Header.C58_reverse_order_partial",
    "Verif.Header.C58_two_levels_partial",
    "Verif.Header.C58_order_refuted",
    "Verif.Header.C58_interface_refuted"
   ],
   "note": "C58, the general positive result. Whatever the order in which the types of a module are met, if no type is met at a time when both a type derived from it and one of its own base types have already been met, the header defines every base before the types derived from it. C58: in particular when every base precedes the types derived from it in the module. C58: and when every base follows the types derived from it in the module (here the insertion really reorders). C58: and for every order when no type of the module is both derived from one type of it and a base of another. Counterexamples: C58 is false in general: `class C : B`, `class A`, `class B : A` in this order are written `B`, `C`, `A`, so `B` is defined before its base `A`. C58: a class implementing an interface of the same module has it in its base list, but the header never defines it."
  },
  {
   "property": "C59",
   "status": "partial",
   "theorems": [
    "Verif.Const.C59_int32",
    "Verif.Const.C59_int64_value",
    "Verif.Const.C59_int64_type_partial",
    "Verif.Const.C59_int64_type_refuted",
    "Verif.Const.C59_int64_overflow_refuted"
   ],
   "note": "C59: an Int64 constant takes part in arithmetic as a 64-bit integer exactly when it does not fit 32 bits, signed or unsigned maximum. Counterexamples: C59 for the type of Int64 constants is false: `4294967295L` becomes a UInt32 constant. Adding `1L` (emitted as an `int`) to it is done in `unsigned int` and gives 0 in C++, where C# gives 4294967296. C59: and `2147483647L` becomes an Int32, so adding `1L` overflows an `int` (undefined behaviour)."
  },
  {
   "property": "C60",
   "status": "partial",
   "theorems": [
    "Verif.Expr.C60_parses_partial",
    "Verif.Expr.C60_cast_member_refuted",
    "Verif.Expr.C60_new_array_refuted",
    "Verif.Expr.C60_condition_refuted",
    "Verif.Expr.C60_assignment_refuted"
   ],
   "note": "C60: the text of every expression tree (without the structures listed at `Ok`) is, under C++ precedence, an expression with exactly that structure, for trees of every size. Counterexamples: C60 fails: a member of a cast object, `((Foo)o).Bar()`, is written `(Foo*)o->Bar()`, which casts the result of `o->Bar()`. C60 fails: the length of a new array, `new int[n].Length`, is written `new Array(Int32Type,n)->get_Length()`, which is not an expression. C60 fails: `(a ? b : c) ? d : e` is written `(a ? (b) : (c) ? (d) : (e))`, which is `a ? b : (c ? d : e)`; so `(a && b) ? d : e` yields `b` instead of `d`. C60 fails: an assignment used as an operand, `(x = y) + 1`, is written `(x = y + 1)`, which assigns something else."
  },
  {
   "property": "C61",
   "status": "partial",
   "theorems": [
    "Verif.Stmt.C61_selects_partial",
    "Verif.Stmt.C61_no_duplicate_label",
    "Verif.Stmt.C61_grouped_refuted",
    "Verif.Stmt.C61_runs_partial",
    "Verif.Stmt.C61_fall_through_refuted",
    "Verif.Stmt.C61_sections_in_order"
   ],
   "note": "C61: for every switch and every value of a section `i`, the emitted switch goes to section `i` exactly when the value is the section's smallest label or the section contains the smallest 64-bit integer (which is how the decompiler represents `default`). All other labels are lost. C61: where the right section is selected and that section's body ends with a jump (or it is the last section), the emitted switch does what the C# switch does. Counterexamples: C61 fails: in `case 1: case 2:` the second label is lost and the value 2 goes to `default`. C61 fails: a section whose body reaches its end (the statements continue after the switch) runs on into the next section."
  },
  {
   "property": "C62",
   "status": "partial",
   "theorems": [
    "Verif.Stmt.C62_labels_unique",
    "Verif.Stmt.C62_leaves_partial",
    "Verif.Stmt.C62_break_in_try_refuted",
    "Verif.Stmt.C62_nested_refuted",
    "Verif.Stmt.C62_first_loop_refuted"
   ],
   "note": "C62: in a method (without injected statement) all leaves are translated correctly exactly when every leave that the visitor reaches either leaves the method and is recognised by the entry label `IL_0000`, or leaves the innermost container or try around it. Counterexamples:  C62 fails: leaving an outer container from an inner one (`goto` out of two loops) jumps to the end of the inner one. C62 fails: a loop that starts at the method's first instruction has the entry label `IL_0000` too, so leaving the loop returns from the method."
  },
  {
   "property": "C63",
   "status": "partial",
   "theorems": [
    "Verif.SBProps.C63_equals_partial",
    "Verif.SBProps.C63_equals_null",
    "Verif.SBProps.C63_equals_nul_refuted"
   ],
   "note": "**C63** (partial). For two builders of tidy histories whose texts contain no NUL, `Equals` is true exactly when Capacity, MaxCapacity and text agree. Missing: texts with embedded NULs (compared only up to the first) and histories that lengthen with `set_Length`. Counterexamples: **C63** is false of the code: two builders with different texts (differing after an embedded NUL) are \"equal\"."
  },
  {
   "property": "C64",
   "status": "partial",
   "theorems": [
    "Verif.SBProps.C64_get_chars",
    "Verif.SBProps.C64_to_string_range",
    "Verif.SBProps.C64_empty_tail_refuted"
   ],
   "note": "Counterexamples: **C64** is false of the code: the empty range at the end of the text, `ToString(Length, 0)`, throws."
  },
  {
   "property": "C65",
   "status": "partial",
   "theorems": [
    "Verif.StrProps.C65_last_index_of_exact",
    "Verif.StrProps.C65_last_index_of_partial",
    "Verif.StrProps.C65_last_index_of_default",
    "Verif.StrProps.C65_last_index_of_refuted"
   ],
   "note": "**C65** (partial: see the next theorem). `LastIndexOf(value, start, count)` on a backward range inside the string returns the greatest position of the range at which `value` stands in the string, or -1. Counterexamples: **C65** is false of the code: a match may run past the start of the backward search (.NET: \"bc\" is not inside the part of \"abc\" that ends at position 1), and a start beyond the string reads outside the block instead of throwing."
  },
  {
   "property": "C66",
   "status": "partial",
   "theorems": [
    "Verif.StrProps.C66_insert_exact",
    "Verif.StrProps.C66_empty_refuted",
    "Verif.StrProps.C66_remove_exact",
    "Verif.StrProps.C66_insert_partial",
    "Verif.StrProps.C66_insert_refuted",
    "Verif.StrProps.C66_remove_partial",
    "Verif.StrProps.C66_remove_refuted",
    "Verif.StrProps.C66_replace_char_partial",
    "Verif.StrProps.C66_replace_partial",
    "Verif.StrProps.C66_replace_refuted"
   ],
   "note": "**C66** (partial: non-empty string and argument). `Insert(i, p)` puts `p` in front of position `i`; an index outside `0..Length` throws. **C66** (partial: non-empty string; a platform whose `memcpy` tolerates overlap, or a removal at least as long as the rest). `Remove(i, n)` takes out exactly that range (negative count: to the end); ranges not inside the string throw. **C66** (partial: non-empty string). `Replace(Char, Char)` replaces every occurrence and nothing else. **C66** (partial: non-empty string). `Replace(String, String)` replaces every leftmost non-overlapping occurrence; a null or empty pattern throws. Counterexamples: **C66**, **C37** on the empty string: `Remove`, both `Replace`, `Contains`, and `StartsWith`/`EndsWith` with a non-empty argument always throw IndexOutOfRange. **C66** is false of the code: inserting into or inserting an empty string throws. **C66** is false of"
  },
  {
   "property": "C67",
   "status": "partial",
   "theorems": [
    "Verif.StrProps.C67_format_string_partial",
    "Verif.StrProps.C67_format_string_refuted",
    "Verif.StrProps.C67_copy_chars_truncates"
   ],
   "note": "**C67** (partial: room for the terminator). `FormatString(where, size)` writes exactly the characters and a NUL at the front of the buffer, leaves the rest alone, and reports the length; without room for the characters it throws. Counterexamples: **C67** is false of the code: a string exactly filling the buffer has its NUL written one cell behind it, for every string."
  },
  {
   "property": "C68",
   "status": "partial",
   "theorems": [
    "Verif.StrProps.C68_from_array_default",
    "Verif.StrProps.C68_constructors",
    "Verif.StrProps.C68_from_array_partial",
    "Verif.StrProps.C68_from_array_refuted"
   ],
   "note": "**C68** (partial: explicit range, or the whole array). `String(array, start, length)` holds exactly the requested elements; ranges not inside the array throw. Counterexamples: **C68** is false of the code: a start with the default length always throws (for a non-empty array), although the elements from `start` on exist."
  },
  {
   "property": "C69",
   "status": "proved",
   "theorems": [
    "Verif.StrProps.C69_is_null_or"
   ],
   "note": "**C69**: true exactly for null, the empty string, and (white space) strings all of whose characters are white space."
  },
  {
   "property": "C70",
   "status": "partial",
   "theorems": [
    "Verif.BCProps.C70_on_string_partial",
    "Verif.BCProps.C70_negative_index_refuted",
    "Verif.BCProps.C70_numeric_value"
   ],
   "note": "**C70** (partial: see the next theorem for negative indices). For a classification `f` the overload on `(s, i)` answers `f` of the `i`-th character, and ArgumentOutOfRangeException / ArgumentNullException for an index past the end / a null string. Counterexamples: **C70** is false of the code for negative indices: .NET throws ArgumentOutOfRangeException, the code IndexOutOfRangeException (for every string and every negative index)."
  },
  {
   "property": "C71",
   "status": "proved",
   "theorems": [
    "Verif.BCProps.C71_parse",
    "Verif.BCProps.C71_round_trip"
   ],
   "note": "**C71**: `Parse` returns the only character of a one-character string and throws FormatException for every other string, ArgumentNullException for null; `TryParse` answers true with the same character exactly when `Parse` returns, and otherwise false with NUL; neither can fail otherwise. **C71**: `c.ToString()` is the one-character string `c` for every code unit (also NUL), and `Parse` reads it back."
  },
  {
   "property": "C72",
   "status": "partial",
   "theorems": [
    "Verif.BCProps.C72_bool_order",
    "Verif.BCProps.C72_char_order",
    "Verif.BCProps.C72_char_equals_object_partial",
    "Verif.BCProps.C72_char_equals_null_refuted"
   ],
   "note": "**C72** (partial: the argument is not null). `Equals(Object*)` is true exactly for a boxed Char of the same value. Counterexamples: **C72** is false of the code: `Equals(null)` on a Char dereferences the null pointer."
  },
  {
   "property": "C73",
   "status": "partial",
   "theorems": [
    "Verif.ArrProps.C73_index_of_partial",
    "Verif.ArrProps.C73_index_of_rejects",
    "Verif.ArrProps.C73_index_of_values_refuted"
   ],
   "note": "**C73** (partial: arrays of references). `IndexOf(array, value, start, count)` (negative count: to the end) returns the first position in the range whose element is null (searching null) or says it equals the value, or -1; whatever `Equals` does. Counterexamples: **C73** is false of the code: arrays of numbers (any element type other than references) always throw NotImplementedException, for every value and every range inside the array."
  },
  {
   "property": "C74",
   "status": "proved",
   "theorems": [
    "Verif.FltProps.C74_round_nearest_even",
    "Verif.FltProps.C74_round_special",
    "Verif.FltProps.C74_round_idempotent"
   ],
   "note": "**C74**: for every finite Double, `Math.Round` returns a finite integral Double: the nearest integer, the even one when two are equally near, with the sign bit of the argument (so -0.3 and -0 give -0). **C74**: NaNs and infinities are returned unchanged. **C74**: rounding twice is rounding once."
  },
  {
   "property": "C75",
   "status": "partial",
   "theorems": [
    "Verif.FltProps.C75_divide_by_zero_partial",
    "Verif.FltProps.C75_divide_sign_refuted",
    "Verif.FltProps.C75_divide_nan_refuted"
   ],
   "note": "**C75** (partial: non-negative numbers divided by +0). `Divide(x, ±0)` gives NaN for zeros and an infinity for other numbers; the infinity has the IEEE sign when the two signs agree. Nonzero divisors go to the hardware division. Counterexamples: **C75** is false of the code: -1.0 / 0.0 is +infinity instead of -infinity. **C75** is false of the code: NaN / 0.0 is +infinity instead of NaN, for every NaN."
  },
  {
   "property": "C76",
   "status": "proved",
   "theorems": [
    "Verif.FltProps.C76_max",
    "Verif.FltProps.C76_min",
    "Verif.FltProps.C76_magnitude",
    "Verif.FltProps.C76_clamp",
    "Verif.FltProps.C76_sign"
   ],
   "note": "**C76**: `Max` of two numbers is one of them and at least both (with -0 below +0); if one is a NaN the result is a NaN, one of the arguments. **C76**: `Min`, dually. **C76**: `MaxMagnitude`/`MinMagnitude` answer an argument of largest/smallest absolute value; on ties the one that is not negative, or the negative one. NaN arguments give NaN. **C76**: `Clamp(v, lo, hi)` on numbers throws exactly when `lo > hi`; otherwise the result is one of the three arguments, lies in `[lo, hi]`, and is `v` itself when `v` does. **C76**: `Sign` of a number is the sign of its value; of a NaN it throws ArithmeticException."
  },
  {
   "property": "C77",
   "status": "partial",
   "theorems": [
    "Verif.FltProps.C77_copy_sign_partial",
    "Verif.FltProps.C77_copy_sign_nan",
    "Verif.FltProps.C77_positive_nan_refuted"
   ],
   "note": "**C77** (partial: second argument not a NaN): `CopySign(x, y)` has the magnitude bits of `x` and the sign bit of `y`, for every `x` including NaNs, infinities and zeros. Counterexamples: **C77** refuted for NaNs: the sign of a positive NaN is not copied."
  },
  {
   "property": "C78",
   "status": "proved",
   "theorems": [
    "Verif.MathProps.C78_bigmul"
   ],
   "note": "**C78**: `BigMul` is the exact product for every pair of Int32."
  },
  {
   "property": "C79",
   "status": "partial",
   "theorems": [
    "Verif.MathProps.C79_abs_partial",
    "Verif.MathProps.C79_abs_min_refuted"
   ],
   "note": "**C79** (partial: MinValue excluded): `Abs` on Int32, and on Int16 and SByte without exception, is the absolute value. Counterexamples: **C79** refuted: `Abs(Int32.MinValue)` is undefined behaviour instead of OverflowException."
  },
  {
   "property": "C80",
   "status": "partial",
   "theorems": [
    "Verif.FmtLayoutProps.C80_file_partial",
    "Verif.FmtLayoutProps.C80_distinct",
    "Verif.FmtLayoutProps.C80_identifier_partial",
    "Verif.FmtLayoutProps.C80_identifier_refuted"
   ],
   "note": "**C80**: an output file contains exactly its header lines followed by its types, each inside the namespace block of its C# namespace, with blocks shared by consecutive types of the same namespace and each closed exactly once; afterwards the formatter is ready for the next file. Types may nest 21 levels deep inside their namespace. **C80**: the C++ namespace is a C++ identifier when the C# namespace is one (no dots) or the global namespace. Counterexamples: **C80** refuted: a dotted C# namespace (`Company.Product`) is emitted as text that is not a C++ identifier."
  },
  {
   "property": "C81",
   "status": "proved",
   "theorems": [
    "Verif.FmtLayoutProps.C81_no_partial_output"
   ],
   "note": "**C81**: nothing reaches an output file before the formatter is closed: whatever printing calls succeed or throw in between, a translation that stops early leaves the file as the constructor of `StreamWriter` made it (empty), never a truncated text."
  },
  {
   "property": "C82",
   "status": "partial",
   "theorems": [
    "Verif.TableProps.C82_shipped",
    "Verif.TableProps.C82_rows_effective",
    "Verif.TypesProps.C82_load_partial",
    "Verif.TypesProps.C82_duplicate_refuted"
   ],
   "note": "Counterexamples: **C82** refuted for tables with a repeated row: everything after the repetition is dropped."
  },
  {
   "property": "C83",
   "status": "partial",
   "theorems": [
    "Verif.Header.C83_structs_before_classes_partial",
    "Verif.Header.C83_class_fields_partial",
    "Verif.Header.C83_struct_fields_refuted",
    "Verif.Header.C83_struct_order_partial"
   ],
   "note": "C83: every struct is defined before every class, so a class may hold any struct of the module by value. C83 for fields of classes. C83: if the structs of the module come in an order in which each is declared after the structs it holds, so do they in the header; together with `C83_class_fields_partial` every by-value field is then of a type already defined. Counterexamples: C83 is false for structs inside structs: the header defines `Line`, which holds `Point`s, before `Point`."
  },
  {
   "property": "C84",
   "status": "proved",
   "theorems": [
    "Verif.Header.C84_complete",
    "Verif.Header.C84_usings"
   ],
   "note": "C84: the header defines exactly the classes and structs of the module that are to be translated, each exactly once (as often as the module declares it), for every module and every order of its types. C84: every namespace block opened while the header is written (its text is `Fmt.nsText` of the type's namespace) gets a `using namespace` line with that very text, and each line is written once."
  },
  {
   "property": "C85",
   "status": "partial",
   "theorems": [
    "Verif.Header.C85_base_clause_partial",
    "Verif.Header.C85_second_base_refuted",
    "Verif.Header.C85_public_partial"
   ],
   "note": "C85: the base clause names every base of the declaration, in order, the first one `public`; a declaration without base list derives from `Object`. C85: all bases of a struct, and the only base of a class, are public. Counterexamples: C85: in a `class` every base after the first is inherited privately, so its members are not accessible through the class: the claim \"all bases are public\" is false from the second base on."
  },
  {
   "property": "C86",
   "status": "partial",
   "theorems": [
    "Verif.Const.C86_double_partial",
    "Verif.Const.C86_double_max_refuted",
    "Verif.Const.C86_double_epsilon_refuted",
    "Verif.Const.C86_single_partial",
    "Verif.Const.C86_limits_partial",
    "Verif.Const.C86_single_type_refuted"
   ],
   "note": "C86: the text emitted for a double constant other than the six limits is a C++ floating literal of type `double` (never an integer literal), and it denotes the same decimal number as the text .NET gives for the constant. C86: the text emitted for a float constant that .NET prints with a decimal point (and that is not a limit) is a literal of type `float` with the same digits. C86: the texts of the limits become the names of the runtime's constants (for floats without a suffix, whatever the text of the value as a double is). Counterexamples: C86 is false for `Double.MaxValue`: it becomes `DoubleValue::MaxValue`, which the runtime defines four representable numbers lower. C86 is false for the double constant `1E-45`: its text is that of `float.Epsilon`, so it becomes `SingleValue::Epsilon` (2^-149), which is more than 1.4E-45. C86 is false for the type of whole-number float constants: `2f`"
  },
  {
   "property": "C87",
   "status": "partial",
   "theorems": [
    "Verif.Names.C87_method_partial",
    "Verif.Names.C87_method_refuted",
    "Verif.Names.C87_class_partial",
    "Verif.Names.C87_class_refuted",
    "Verif.Names.C87_field",
    "Verif.Names.C87_backing_partial",
    "Verif.Names.C87_accessor"
   ],
   "note": "C87: a call names the method the way it is declared exactly when the method's name does not start with a lower-case letter (and is not `Void`, a constructor or `op_Equality`). C87: an object is created with the class name of the definition exactly when the name does not start with a lower-case letter and is not `Void`. C87: the backing field of an automatic property is used under the name it is declared with exactly when the property's name does not start with a lower-case letter. Counterexamples: C87 is false for a method called `run`: it is declared `x_run` and called `run`. C87 is false for a class called `node`: it is defined as `x_node` but created with `new node(...)`."
  },
  {
   "property": "C88",
   "status": "partial",
   "theorems": [
    "Verif.Names.C88_distinct_partial",
    "Verif.Names.C88_same_enum",
    "Verif.Names.C88_collision_refuted"
   ],
   "note": "C88: when enum names contain no underscore, distinct members (of the same or of different enums) get distinct enumerator names. Counterexamples: C88 is false with underscores: member `Get` of enum `Op_Kind` and member `Get_Op` of enum `Kind` are both written `Get_Op_Kind`."
  },
  {
   "property": "C89",
   "status": "partial",
   "theorems": [
    "Verif.Names.C89_posix_partial",
    "Verif.Names.C89_windows_partial",
    "Verif.Names.C89_mixed_refuted",
    "Verif.Names.C89_distinct_outputs"
   ],
   "note": "C89 on a system whose only separator is `/`: the output goes to `generated/` in the directory of the input file, provided the argument contains a `/` or no backslash. C89 on a system where both `/` and `\\\\` separate: the same, provided the argument does not mix them after its last `/`. Counterexamples: C89 is false for mixed separators on Windows: the output of `C:/src\\app.dll` goes to `C:/generated`, not next to the file."
  },
  {
   "property": "C90",
   "status": "partial",
   "theorems": [
    "Verif.Names.C90_methods",
    "Verif.Names.C90_accessors_partial",
    "Verif.Names.C90_getter_refuted"
   ],
   "note": "C90: in a getter or operator it is the type of the method translated most recently before it. Counterexamples: C90 is false for getters: after a method returning a `String`, the getter of an Int32 property returning a computed value casts it to `String*`; and when no method comes before, there is no type at all (the translator dereferences null)."
  },
  {
   "property": "C91",
   "status": "partial",
   "theorems": [
    "Verif.Stmt.C91_statements_partial",
    "Verif.Stmt.C91_nothing_added",
    "Verif.Stmt.C91_finally_refuted",
    "Verif.Stmt.C91_try_refuted"
   ],
   "note": "C91: the statements written are exactly those of the method, each once and in order, exactly when no statement is in a place the visitor does not look at. Counterexamples: C91 fails: everything inside a `try`/`finally` disappears. C91 fails: a `try` whose body has more than one block loses all but the first."
  },
  {
   "property": "C92",
   "status": "partial",
   "theorems": [
    "Verif.Stmt.C92_inject_partial",
    "Verif.Stmt.C92_loop_refuted",
    "Verif.Stmt.C92_early_return_refuted"
   ],
   "note": "C92: the text of a static constructor without loops ends with the injected return, right after the text of its statements. Counterexamples: C92 fails: a static constructor with a loop has no return of its value at all (the function is declared to return `bool`). C92 fails: an early `return` in a static constructor is dropped when it ends the block of an `if`, so that the statements after it run although they must not."
  },
  {
   "property": "C93",
   "status": "partial",
   "theorems": [
    "Verif.Stmt.C93_targets_partial",
    "Verif.Stmt.C93_lone_return_refuted"
   ],
   "note": "C93: the text jumps exactly where the instructions branch, in order, and every label it jumps to is defined in it, in a method whose branches go to blocks that are written and are not a single leave. Counterexamples: C93 fails: a branch to a block that consists of a single `return` jumps to a label that is never defined."
  },
  {
   "property": "C94",
   "status": "partial",
   "theorems": [
    "Verif.Sem.C94_value_partial",
    "Verif.Sem.C94_sign_refuted",
    "Verif.Sem.C94_overflow_refuted",
    "Verif.Sem.C94_division_refuted",
    "Verif.Sem.C94_remainder_refuted",
    "Verif.Sem.C94_shift_refuted",
    "Verif.Sem.C94_limit_refuted",
    "Verif.Sem.C94_widening_refuted",
    "Verif.Sem.C94_intermediate_refuted",
    "Verif.Sem.C94_checked_refuted",
    "Verif.Sem.C94_condition_refuted"
   ],
   "note": "C94 (partial): for every integer expression on which the operand types C++ sees agree with the sign flags of the IL, every contents of the variables and every target variable, the translated assignment stores the value the source stores, or raises the same exception. Missing: the expressions outside `Agree` and the executions with undefined behaviour or OverflowException (refuted below). Counterexamples: C94 fails for `(uint)x >> 4` and `(uint)a < (uint)b` on `int` variables: the IL has no conversion, only an unsigned operator, and the C++ operator is signed. C94 fails for every sum of two `int` variables that leaves the range of `int`: the IL wraps around, the C++ is undefined. C94 fails for divisions: `ulong` operands of 2^63 and more are read as negative, a `uint` constant of 2^31 and more is printed as a negative number, and `Int32.MinValue / -1` gives a value where the source raises"
  },
  {
   "property": "C95",
   "status": "partial",
   "theorems": [
    "Verif.Stmt.C95_labels_partial",
    "Verif.Stmt.C95_try_refuted"
   ],
   "note": "C95 (partial): the block labels of a method are pairwise different exactly when no two of its blocks have the same label, except that a block that starts with a container may have the label of the container's first block, and a block that is a single leave any label. Missing: a block that starts with a `try` (refuted below). Counterexamples: C95 fails: in a method that begins with a `try`, the first block of the method and the first block of the `try` have the same label, and it is defined twice."
  },
  {
   "property": "C96",
   "status": "partial",
   "theorems": [
    "Verif.Stmt.C96_followed_partial",
    "Verif.Stmt.C96_loop_refuted"
   ],
   "note": "C96 (partial): in the body of a method without injected statement, no label is followed by `}` exactly when no block, branch of an `if`, `try` or handler ends with a container that is left, and no labelled block is empty. Counterexamples: C96 fails: a loop that is the last statement of a branch leaves its end label directly before the closing brace."
  },
  {
   "property": "C97",
   "status": "partial",
   "theorems": [
    "Verif.ArgProps.C97_string_partial",
    "Verif.ArgProps.C97_array_partial",
    "Verif.ArgProps.C97_array_kind_partial",
    "Verif.ArgProps.C97_null_refuted",
    "Verif.ArgProps.C97_append_null_refuted"
   ],
   "note": "C97 (partial): every String method that .NET specifies to reject null throws ArgumentNullException for a null argument, whatever the string and the other arguments are. Missing: `Contains` and the others below. C97 (partial): the same for Array, Buffer, BitConverter and the integer parsers; here either of two arrays may be null. C97 (partial): an array of the wrong rank or element type is rejected with an exception before any element is read. Counterexamples: C97 fails for these methods: a null argument is dereferenced. (.NET: ArgumentNullException for `Contains`; nothing is appended or inserted for StringBuilder; `Equals` answers false; a null element of the array is the empty text.) C97 fails for every `StringBuilder.Append(String, start, count)` of null (.NET: nothing is appended when both numbers are 0): it is dereferenced unless the start is negative and the count is not."
  },
  {
   "property": "C98",
   "status": "partial",
   "theorems": [
    "Verif.ArgProps.C98_compare_partial",
    "Verif.ArgProps.C98_equals_partial",
    "Verif.ArgProps.C98_convert_partial",
    "Verif.ArgProps.C98_refuted"
   ],
   "note": "C98 (partial): comparing with a boxed value: null comes first, another type is rejected, a value of the same type compares as the numbers do (for the 8- and 16-bit types always, otherwise when they are less than 2^31 apart: C23). C98 (partial): `Equals` on boxed values is equality of type and number. Missing: null, which is dereferenced (`C97_null_refuted`). C98 (partial): reading a boxed integer as another integer type gives the value of that type that is congruent modulo 2^bits; it is the number itself exactly when it fits. Counterexamples: **C98**, the rest refuted: `Equals(null)` is undefined for every value (it is false in .NET); and two different boxed numbers may compare equal, or in the wrong order (`C23_exact`: for every two numbers that are 2^32 apart the result of comparing is 0, if there is one)."
  },
  {
   "property": "C99",
   "status": "proved",
   "theorems": [
    "Verif.ArgProps.C99_integers",
    "Verif.ArgProps.C99_references"
   ],
   "note": "**C99**: after `Initialize` from a C++ array of integers, every element of the array, of any shape, is the number at its row-major position. **C99** for references: the array holds exactly the addresses given."
  },
  {
   "property": "C100",
   "status": "partial",
   "theorems": [
    "Verif.ArgProps.C100_access_partial",
    "Verif.ArgProps.C100_reference_partial",
    "Verif.ArgProps.C100_interface_refuted"
   ],
   "note": "C100 (partial): the operator used to reach a member agrees with the way the type is declared: `->` exactly when the declaration's text ends with `*` (the type's own name not doing so). C100 (partial): a named type other than an interface is a pointer in C++ exactly when it is a reference type in .NET. Counterexamples: C100 fails for interfaces: a variable of an interface type is declared as a value of the (abstract) C++ class."
  },
  {
   "property": "C101",
   "status": "partial",
   "theorems": [
    "Verif.Stmt.C101_one_reading",
    "Verif.Stmt.C101_flow_partial",
    "Verif.Stmt.C101_break_in_try_refuted",
    "Verif.Stmt.C101_fall_through_refuted"
   ],
   "note": "C101: what is written for a method has exactly one reading as C++ statements, and running it does the same as running the instructions (the same simple statements and conditions in the same order on the same states, ending the same way after the same number of jumps), for every method body in which each leave is of the method or of the innermost container or try around it, containers are distinct, no branch goes to a block that is a single leave, and which has the shape described in `Shape`. (Several blocks are read as a sequence of compound statements; that the text is one function body needs one block: C102.) Counterexamples: C101 fails: `break` inside a `try` inside a loop (`breakInTry`) leaves the loop, but the C++ goes round the loop until the jumps are used up. C101 fails: without a `break` the C++ runs into the next section."
  },
  {
   "property": "C102",
   "status": "partial",
   "theorems": [
    "Verif.Stmt.C102_one_function_partial",
    "Verif.Stmt.C102_two_blocks_refuted"
   ],
   "note": "C102: the braces of a method body always match, and what is written after the header of a method is the body of one function exactly when the method consists of one block. Counterexamples: C102 fails: a method of two blocks (`L: work; if (c) goto L; return;` when the decompiler keeps the label) ends after its first block."
  },
  {
   "property": "C103",
   "status": "partial",
   "theorems": [
    "Verif.Scope.C103_scope_partial",
    "Verif.Scope.C103_blocks_refuted",
    "Verif.Scope.C103_initializer_refuted"
   ],
   "note": "C103: in a method that consists of one block, every local variable is declared once, as a new name, and is declared before and in scope at every place that mentions it, exactly when every variable mentioned is a parameter, the variable of a handler around the place, or stored (or passed by reference) somewhere outside array initialisers. Missing: methods of several blocks and initialisers (refuted below). Counterexamples: C103 fails: in a method of two blocks that both store and use variable 2, the second block uses a variable that is declared in the braces of the first (whatever variables are visible around the two blocks, unless it is one of them). C103 fails: a variable that gets its value inside an array initialiser (`int[] a = { F(out x) }; return x;`) is not declared at all."
  },
  {
   "property": "C104",
   "status": "partial",
   "theorems": [
    "Verif.Expr.C104_text_partial",
    "Verif.Sem.C104_branch_partial",
    "Verif.Sem.C104_logic_refuted",
    "Verif.Sem.C104_logic_wrong_refuted"
   ],
   "note": "C104: the text between the parentheses of an `if` is an expression with the structure of the condition exactly when the condition is not a conditional; `a && b` and `a || b` are conditionals in the IL (`a ? b : 0`, `a ? 1 : b`). C104: an `if` statement whose condition is not itself a conditional (in particular no `&&` or `||`) and on which C++'s typing rules agree with the IL takes the branch the source takes, or raises the same exception. Counterexamples: C104 fails for `&&` and `||`: the IL writes `a && b` as `a ? b : 0` and `a || b` as `a ? 1 : b`; of either the C++ `if` tests `a` alone. C104: hence `if (a && b)` goes wrong whenever the test of `a` succeeds and `b` is false, and `if (a || b)` whenever it fails and `b` is true."
  },
  {
   "property": "C105",
   "status": "partial",
   "theorems": [
    "Verif.Sem.C105_after_partial",
    "Verif.Sem.C105_value_partial",
    "Verif.Sem.C105_value_refuted",
    "Verif.Sem.C105_long_constant_refuted",
    "Verif.Sem.C105_total_partial",
    "Verif.Sem.C105_division_refuted",
    "Verif.Sem.C105_float_partial",
    "Verif.Sem.C105_float_refuted",
    "Verif.Sem.C105_store_partial"
   ],
   "note": "C105 (partial): when the translator writes a form for `x op= v` on an integer variable, the C++ statement leaves in the variable the value the source leaves, or raises the same exception, for every operator, operand type and contents of the variables. Missing: the operand types outside `AgreeC`, and the executions with undefined behaviour or OverflowException (refuted below and by C94). C105 (partial): a form other than an increment has the new contents as its value, as in C#; an increment has the old contents, which is what C# gives for `x++` and `x--`. Missing: `++x` and `--x` used for their value (refuted below). No other value makes the translator fail. C105 (partial): among the floating constants with an integer value exactly 1 is written as an increment. C105 (partial): a store to a local variable, `++x`, `--x` or `x = e`, leaves in the variable the value the source leaves, or rais"
  },
  {
   "property": "C106",
   "status": "partial",
   "theorems": [
    "Verif.Member.C106_definitions_partial",
    "Verif.Member.C106_accessors",
    "Verif.Member.C106_operator_name",
    "Verif.Member.C106_operator_refuted",
    "Verif.Member.C106_field_refuted",
    "Verif.Member.C106_property_refuted"
   ],
   "note": "C106 (partial): for every class, the definitions written to the source file are, in order, exactly those of the functions (other than abstract ones) and static fields declared in the header, each a member of that class with the same types, name and parameters. Missing: operators, and static fields whose type's name is changed by the formatter (both refuted below); constants, which are not referenced. Counterexamples: C106 is false as stated, for operators: an operator is defined as a member of the type it returns instead of the type that declares it; one that returns a C# keyword type, or that is not one of `+`, `-` and `&`, ends the translation. C106 is false as stated, for static fields: the definition of a static field writes the name of its class as it is, the declaration with the prefix. C106 is false as stated, for properties: a property without a getter, or without bodies (an abst"
  },
  {
   "property": "C107",
   "status": "partial",
   "theorems": [
    "Verif.Member.C107_method_partial",
    "Verif.Member.C107_others_partial",
    "Verif.Member.C107_modifiers_refuted"
   ],
   "note": "C107 (partial): a method is declared static, virtual or pure exactly when it is static, abstract or virtual, or without a body; with at most one of the specifiers; so an abstract method is a pure virtual function. Missing: methods without a body that are not marked abstract, and properties (refuted below). C107 (partial): fields are static exactly when they are static or constant; constructors are never static, operators always. Counterexamples: C107 is false as stated: the accessors of a static or virtual property are ordinary functions and its backing field is an instance field, whatever the property's modifiers; a method without a body that is not marked abstract (one of an interface, or a static external one) becomes `= 0` on a function that is not virtual, which is not C++."
  },
  {
   "property": "C108",
   "status": "partial",
   "theorems": [
    "Verif.Ctor.C108_initializer_partial",
    "Verif.Ctor.C108_dropped_refuted",
    "Verif.Ctor.C108_this_refuted",
    "Verif.Ctor.C108_double_refuted"
   ],
   "note": "C108 (partial): a constructor's initialiser names the base class and passes it, one for one, texts that denote the arguments, exactly when it is not `: this` and every argument is a parameter, null or a supported literal. Missing: everything else (refuted below). Counterexamples: C108 is false as stated: an argument that is a cast, a member, a call, an arithmetic or conditional expression, an element, a new array or a default value is dropped without notice, so that a call with one such argument is the call without arguments. C108 is false as stated: a constructor that calls another constructor of its class is written with `: this`, which is not C++. C108 is false as stated: the double 2.0 is passed as the int 2."
  },
  {
   "property": "C109",
   "status": "partial",
   "theorems": [
    "Verif.Ctor.C109_passing_partial",
    "Verif.Ctor.C109_out_refuted"
   ],
   "note": "C109 (partial): a variable can be passed for a parameter of its type that is not `out` (the call writes the variable itself), and the parameter is another name for the variable exactly when it is a `ref` parameter. Missing: `out` parameters, refuted below. Counterexamples: C109 is false as stated: no variable can be passed for an `out` parameter of its type, which is a pointer to that type."
  },
  {
   "property": "C110",
   "status": "partial",
   "theorems": [
    "Verif.Ctor.C110_default_partial",
    "Verif.Ctor.C110_no_duplicate",
    "Verif.Ctor.C110_static_refuted"
   ],
   "note": "C110 (partial): a struct can be default-constructed, as every C# struct can, exactly when it has no static constructor, or no constructor with parameters beside it, or one without. Missing: the other structs, refuted below. Counterexamples: C110 is false as stated: a struct with a static constructor and one that takes parameters cannot be default-constructed in C++."
  },
  {
   "property": "C111",
   "status": "partial",
   "theorems": [
    "Verif.Concat.C111_operands",
    "Verif.Concat.C111_compiles_iff",
    "Verif.Concat.C111_eight_refuted",
    "Verif.Concat.C111_value_partial",
    "Verif.Concat.C111_null_refuted"
   ],
   "note": "**C111** (partial): a concatenation of at most seven operands at each level, with a result of at most 2147483520 characters, has the source's value if no concatenation in it has null as its first operand, and otherwise throws `ArgumentNullException`. Missing: the leading null (`C111_null_refuted`), which C# treats as the empty string, and more than seven operands (`C111_eight_refuted`). Counterexamples: **C111** is false of the code for a concatenation of eight operands: `String::Concat` takes at most seven. **C111** is false of the code for a null first operand: `s + \"x\"` with `s == null` is `\"x\"` in C# and throws in the translated program."
  },
  {
   "property": "C112",
   "status": "partial",
   "theorems": [
    "Verif.Order.C112_order_partial",
    "Verif.Order.C112_terminates",
    "Verif.Order.C112_race_refuted",
    "Verif.Order.C112_calls_refuted"
   ],
   "note": "**C112** (partial: no operand writes, itself or through a method it calls, what another operand of the same operator or call reads or writes). The translated expression is defined, and whatever order of evaluation the C++ compiler chooses, it ends, and it ends with the value and the storage that C#'s left-to-right evaluation gives. Missing: operands that interfere (`C112_race_refuted`, `C112_calls_refuted`). Counterexamples: **C112** is false of the code for `x - (x = 1)`: the store is unsequenced with the read, so the translated program is undefined. **C112** is false of the code for `next() - next()`: the C++ compiler may call the second one first, and 1 - 2 becomes 2 - 1."
  },
  {
   "property": "C113",
   "status": "partial",
   "theorems": [
    "Verif.Lib.C113_declared_partial",
    "Verif.Lib.C113_implicit_refuted",
    "Verif.Lib.C113_implicit_literal"
   ],
   "note": "**C113** (partial: methods other than constructors and the conversion of a string to a span, for which no C++ call is emitted). Every library method the shipped table accepts resolves, under C++ lookup and overload resolution, to exactly one public method the library headers declare. Missing: the conversion of a string that is not a literal stops the translator (`C113_implicit_refuted`); constructors are not looked up in the table (C114). Counterexamples: **C113** is false of the code for the conversion of a string to a span: the table accepts `String.op_Implicit`, but the translator stops on an argument that is not a literal."
  },
  {
   "property": "C114",
   "status": "partial",
   "theorems": [
    "Verif.Report.C114_no_false_report",
    "Verif.Report.C114_reported_partial",
    "Verif.Report.C114_unchecked_refuted"
   ],
   "note": "**C114** (partial: no object or array creation, boxing, static field, default value or overloaded compound assignment). Every unsupported library type or member the translated instruction refers to is reported. Missing: those kinds of instruction, which are not checked (`C114_unchecked_refuted`). Counterexamples: **C114** is false of the code for the creation of objects and arrays, boxing, unboxing, static fields, default values and compound assignments through a user-defined operator: whatever the table, an unsupported type or member is not reported."
  },
  {
   "property": "C115",
   "status": "partial",
   "theorems": [
    "Verif.Try.C115_hierarchy_iff",
    "Verif.Try.C115_handler_partial",
    "Verif.Try.C115_hierarchy_refuted",
    "Verif.Try.C115_filter_refuted",
    "Verif.Try.C115_static_refuted"
   ],
   "note": "**C115** (partial: every `throw` throws an object of its expression's static type, no handler for `ArgumentException` or `ArithmeticException`, no filter that is false). A translated statement performs the same actions in the same order as the source and ends the same way: every exception is handled by the handler the source says, or leaves the statement as the same exception. Missing: a variable of a base class that is thrown (`C115_static_refuted`), the two handler types (`C115_hierarchy_refuted`) and filters (`C115_filter_refuted`). Counterexamples: **C115** is false of the code for `catch (ArgumentException)` when `ArgumentNullException` is thrown: the library's classes all derive from `Exception` directly, so the translated program does not handle it. **C115** is false of the code for a filter: `catch (Exception) when (false)` handles the exception in the translated program. **C115*"
  },
  {
   "property": "C116",
   "status": "partial",
   "theorems": [
    "Verif.Box.C116_round_trip",
    "Verif.Box.C116_unbox_iff",
    "Verif.Box.C116_unbox_partial",
    "Verif.Box.C116_reference",
    "Verif.Box.C116_float_to_int",
    "Verif.Box.C116_convert_refuted",
    "Verif.Box.C116_null_refuted"
   ],
   "note": "**C116** (partial: the object is not null and the library does not convert between its type and the one asked for). Unboxing does what C# does. Missing: conversions (`C116_convert_refuted`), null (`C116_null_refuted`). Counterexamples: **C116** is false of the code: `(long) o` of a boxed `int` is -1 instead of InvalidCastException, `(byte) o` of a boxed `int` 300 is 44, `(int) o` of a boxed `double` 1e10 is undefined. **C116** is false of the code: unboxing null dereferences it."
  },
  {
   "property": "C117",
   "status": "partial",
   "theorems": [
    "Verif.Default.C117_default_partial",
    "Verif.Default.C117_default_refuted"
   ],
   "note": "**C117** (partial, but exact): `default(S)` has every field zero, at every depth, exactly when `S` has no instance constructor, or has a static one, or contains nothing but `DateTime` and `TimeSpan` fields. The constructors of the structs it contains do not matter. Missing: the other structs (`C117_default_refuted`). Counterexamples: **C117** is false of the code for `struct T { int y; DateTime d; T(int y) {...} }`: the added constructor leaves `y` as it was in memory."
  },
  {
   "property": "C118",
   "status": "partial",
   "theorems": [
    "Verif.Order.C118_compound_partial",
    "Verif.Order.C118_twice_refuted"
   ],
   "note": "**C118** (partial: computing the target's address changes nothing, and no operand writes what another operand of the same operator or call uses). The translated compound assignment is defined, and whatever order of evaluation the C++ compiler chooses, it ends with the value and the storage of the C# one: the target is read and written once, and the operator's method called once with the old value and the right operand. Missing: a target with effects (`C118_twice_refuted`). Counterexamples: **C118** is false of the code for `a[next()] op= 5`: `next` is called twice. With 10 and 20 in elements 1 and 2 the source makes element 1 15; the translated statement, evaluated from left to right, stores 25 into element 1, made from element 2."
  },
  {
   "property": "C119",
   "status": "partial",
   "theorems": [
    "Verif.Access.C119_field_partial",
    "Verif.Access.C119_call_partial",
    "Verif.Access.C119_out_refuted",
    "Verif.Access.C119_static_refuted",
    "Verif.Access.C119_this_refuted",
    "Verif.Access.C119_ref_refuted"
   ],
   "note": "**C119** (partial, but exact): in correct IL the operator written before a field's name fits the operand exactly when the operand is not an `out` parameter, not a static field holding a struct and not a call returning an interface. Missing: those (`C119_out_refuted`, `C119_static_refuted`). **C119** (partial, but exact): in correct IL an instance call is well formed exactly when the operand is not `this` of a struct, not an `out` parameter, not a static field that holds a struct or a primitive value, not a call returning an interface and not a parameter of primitive type passed by reference. (A class's own `this` is fine; primitive types are not part of the program, so `this` is never one.) Missing: those. Counterexamples: **C119** is false of the code: `p.x` for `out Point p` is written with `.`, but `p` is a pointer; `n.next` for `out Node n` with `->`, but `n` is a pointer to a pointe"
  },
  {
   "property": "C120",
   "status": "partial",
   "theorems": [
    "Verif.Dispatch.C120_dispatch_partial",
    "Verif.Dispatch.C120_base_iff",
    "Verif.Dispatch.C120_base_refuted",
    "Verif.Dispatch.C120_new_refuted",
    "Verif.Dispatch.C120_overload_refuted"
   ],
   "note": "**C120** (partial: no method hides another, and the call is a `callvirt` or the method is not virtual). The translated call executes the method the source's call executes, for every class hierarchy, every static type of the operand between the object's class and the declaring class, and every object. Missing: `base.Method()` (`C120_base_iff`, `C120_base_refuted`), `new` methods (`C120_new_refuted`), overloads in different classes (`C120_overload_refuted`). Counterexamples: **C120** is false of the code: `class A { virtual M() } class B : A { override M() { base.M(); } }`: in the translated program the call in `B.M` executes `B.M` again. **C120** is false of the code: `class A { virtual M() } class B : A { new M() }`: a `B` used as an `A` executes `A.M` in the source and `B.M` in the translated program. **C120** is false of the code: `class A { M(int) } class B : A { M(string) }`: `M(int)"
  },
  {
   "property": "C121",
   "status": "partial",
   "theorems": [
    "Verif.Init.C121_initial_partial",
    "Verif.Init.C121_lost_refuted",
    "Verif.Init.C121_static_partial",
    "Verif.Init.C121_static_lost_refuted"
   ],
   "note": "**C121** (partial, but exact): a new object of the translated class has the fields of the source's object exactly when the class declares a constructor other than a single empty one, or its initialisers leave every field zero. Missing: classes with initialisers and no such constructor (`C121_lost_refuted`). **C121** (partial, but exact), static fields: the translated class's static initialisation gives the values of the source's exactly when the class declares a static constructor or its initialisers leave every static field zero. Counterexamples: **C121** is false of the code: `class P { int x = 5; }`: in the translated program `new P().x` is 0. **C121** is false of the code: `class P { static int x = 5; }`: in the translated program `P::x` is 0."
  },
  {
   "property": "C122",
   "status": "partial",
   "theorems": [
    "Verif.Init.C122_statics_partial",
    "Verif.Init.C122_order_refuted"
   ],
   "note": "**C122** (partial: static constructors change only their own class and use only classes written before it; classes are written in the order of the assembly). When the translated `main` begins, the static fields of every class have the values that C#'s execution of the static constructor at the first access gives them. Missing: constructors that use later classes (`C122_order_refuted`); effects other than on static fields, which happen although the class may never be used. Counterexamples: **C122** is false of the code: `class A { static int x; static A() { x = B.x + 1; } } class B { static int x; static B() { x = 5; } }`: `A.x` is 6 in the source, 1 in the translated program."
  },
  {
   "property": "C123",
   "status": "partial",
   "theorems": [
    "Verif.Line.C123_flags",
    "Verif.Line.C123_value",
    "Verif.Line.C123_block_partial",
    "Verif.Line.C123_start_partial",
    "Verif.Line.C123_start_refuted"
   ],
   "note": "**C123** (partial: no statement begins with a conditional whose value is used). The instructions of a block are written as statements, whenever the formatter does not run out of indentation (C56): an `if` in statement position as `if (test){...}else {...}`, every other instruction with text as the expression followed by one `;`, an instruction without text as nothing; up to white space. Missing: statements that begin with a conditional (`C123_start_refuted`); the test of an `if` whose condition is itself a conditional is wrong (C104). **C123** (partial, but exact): an expression statement is written as an expression exactly when it does not begin with a conditional. Counterexamples: **C123** is false of the code: `(b ? x : y).f();` as a statement becomes an `if` statement followed by `->f();`."
  },
  {
   "property": "C124",
   "status": "partial",
   "theorems": [
    "Verif.FloatTime.C124_whole_units",
    "Verif.FloatTime.C124_add_partial",
    "Verif.FloatTime.C124_infinite",
    "Verif.FloatTime.C124_nan_refuted",
    "Verif.FloatTime.C124_nearest_refuted"
   ],
   "note": "**C124 (partial)**: every finite Double gives a whole number `m` of milliseconds within 9/16 of a millisecond of `delta` units (full claim: within 1/2, the nearest), and the result is `m` milliseconds away, or ArgumentOutOfRangeException when that is outside the calendar; no execution is undefined. A `delta` longer than the calendar throws. Counterexamples: **C124 is refuted for NaN**: the comparisons are all false, and NaN is converted to Int64 (undefined) where .NET throws. **C124 is refuted for the nearest millisecond**: 0.49999999999999994 ms is less than half a millisecond, and one millisecond is added."
  },
  {
   "property": "C125",
   "status": "partial",
   "theorems": [
    "Verif.FloatTime.C125_from",
    "Verif.FloatTime.C125_whole_units",
    "Verif.FloatTime.C125_days_hours",
    "Verif.FloatTime.C125_special",
    "Verif.FloatTime.C125_limit_refuted"
   ],
   "note": "Counterexamples: **C125 is refuted at the upper limit**: `FromMilliseconds(922337203685477.5807)` (the Double nearest to the longest TimeSpan) is converted out of range (undefined; .NET gives MaxValue)."
  },
  {
   "property": "C126",
   "status": "partial",
   "theorems": [
    "Verif.FloatTime.C126_multiply",
    "Verif.FloatTime.C126_divide",
    "Verif.FloatTime.C126_multiply_whole",
    "Verif.FloatTime.C126_divide_whole",
    "Verif.FloatTime.C126_special",
    "Verif.FloatTime.C126_ratio",
    "Verif.FloatTime.C126_limit_refuted"
   ],
   "note": "Counterexamples: **C126 is refuted at the upper limit and for zero times infinity**: multiplying the longest TimeSpan by one is undefined (.NET gives it back), and so is zero times infinity (NaN passes the test; .NET throws)."
  },
  {
   "property": "C127",
   "status": "proved",
   "theorems": [
    "Verif.FloatTime.C127_total",
    "Verif.FloatTime.C127_whole_units",
    "Verif.FloatTime.C127_days",
    "Verif.FloatTime.C127_total_milliseconds"
   ],
   "note": "**C127**: `TotalDays`, `TotalHours`, `TotalMinutes`, `TotalSeconds`: the Double nearest to the quotient of the tick count (itself as the nearest Double) by the ticks in one unit; of the exact tick count when it is at most 2^53. **C127**: a whole number of units, with at most 53 significant bits of ticks, is returned exactly. **C127**: days: every whole number of days comes back exactly, and `FromDays` of it is the TimeSpan again. **C127**: `TotalMilliseconds` is the nearest Double, limited to ±922337203685477."
  },
  {
   "property": "C128",
   "status": "proved",
   "theorems": [
    "Verif.FloatText.C128_special",
    "Verif.FloatText.C128_text"
   ],
   "note": "**C128**: the text of an infinity is `INF` or `-INF`, that of a NaN is `NAN` or, with the sign bit, `-NAN`. **C128**: the text of a finite Double or Single is a decimal numeral with the value's sign and at most six digits, and no number that can be written with at most six digits (and any exponent) is nearer to the value. `ToString` never overruns its buffer."
  },
  {
   "property": "C129",
   "status": "partial",
   "theorems": [
    "Verif.FloatText.C129_special",
    "Verif.FloatText.C129_roundtrip_partial",
    "Verif.FloatText.C129_integer_partial",
    "Verif.FloatText.C129_refuted"
   ],
   "note": "**C129, exactly when**: `Parse(v.ToString())` gives `v` back if and only if `v` is what some decimal number of at most six digits rounds to. Missing: all other values (`C129_refuted`). **C129, integers**: a Double that is an integer of at most six digits is printed as that integer (as `Int32.ToString` prints it) and read back exactly. Counterexamples: **C129 is false**: 1234567 is printed as `1.23457E+06` and read back as 1234570; 1/3 comes back as 0.333333; for Single, 16777217's neighbour 16777216 comes back as 16777200. (.NET prints the shortest text that round-trips.)"
  },
  {
   "property": "C130",
   "status": "partial",
   "theorems": [
    "Verif.FloatText.C130_numeral_partial",
    "Verif.FloatText.C130_rest_ignored_refuted",
    "Verif.FloatText.C130_refuted",
    "Verif.FloatText.C130_never_throws_refuted",
    "Verif.FloatText.C130_hex_refuted"
   ],
   "note": "**C130, numerals**: for white space followed by a decimal numeral, `Parse` of Double and Single returns the numeral's number rounded to nearest, ties to even (the infinity when that is the nearest), with the numeral's sign. Missing: `C130_refuted`; what may follow the numeral is in `C130_rest_ignored`. Counterexamples: **C130 is false: text after the numeral is ignored.** Whatever follows a numeral without continuing it (letters, a second number, a thousands separator) changes nothing; .NET throws a FormatException unless it is white space. **C130 is false**: a null string is dereferenced, and for a text that is no number (here `abc`, the empty text, and `1E`, whose exponent has no digits) the returned variable was never written: undefined behaviour where .NET throws ArgumentNullException and FormatException. Hexadecimal floating constants, which .NET rejects, are accepted. `Parse` never"
  },
  {
   "property": "C131",
   "status": "partial",
   "theorems": [
    "Verif.FloatText.C131_agree_partial",
    "Verif.FloatText.C131_refuted",
    "Verif.FloatText.C131_null"
   ],
   "note": "**C131, agreement**: on every non-null string `TryParse` returns true with exactly the value `Parse` returns. Missing: `C131_refuted` (where `Parse` has no value `TryParse` has no defined result either). Counterexamples: **C131 is false**: for a text that is no number `TryParse` copies an uninitialised variable to the result (undefined behaviour); the only argument for which it reports failure is null, and then the result parameter is not set to 0."
  },
  {
   "property": "C132",
   "status": "proved",
   "theorems": [
    "Verif.FloatText.C132_modulus",
    "Verif.FloatText.C132_special"
   ],
   "note": "**C132**: `Modulus(a, b)` (C#'s `a % b`) is exact. For finite `a` and finite `b ≠ 0` there is an integer `q` with `a = q * b + r` exactly, `|r| < |b|`, the result is the number `r` and has the sign of `a` (also when it is zero), and the quotient is truncated (`|q * b| ≤ |a|`). The special values, as IEEE 754 and C# require: NaN operands, an infinite dividend or a zero divisor give NaN; an infinite divisor leaves a finite dividend unchanged."
  },
  {
   "property": "C133",
   "status": "partial",
   "theorems": [
    "Verif.FloatExpr.C133_store_partial",
    "Verif.FloatExpr.C133_compare_partial",
    "Verif.FloatExpr.C133_toInt64_partial",
    "Verif.FloatExpr.C133_unrounded_refuted",
    "Verif.FloatExpr.C133_compare_refuted",
    "Verif.FloatExpr.C133_negative_by_zero_refuted",
    "Verif.FloatExpr.C133_relations",
    "Verif.FloatExpr.C133_special",
    "Verif.FloatExpr.C133_signs",
    "Verif.FloatExpr.C133_literals_partial",
    "Verif.FloatExpr.C133_zero_product_refuted",
    "Verif.FloatExpr.C133_operations"
   ],
   "note": "**C133** (partial): for every floating-point expression in which no quotient of floats (and no sum, difference or product in which a float remainder or such a result takes part) is used unrounded, every contents of the variables and no division of a negative number (or NaN) by zero, the translated assignment stores exactly the source's value: all `double` arithmetic, and `float` arithmetic whose results in `Double` are the value assigned, because rounding a quotient, sum, difference or product of floats to `double` first does not change it. Missing: the refuted cases below. **C133**, comparisons (partial): `==`, `!=`, `<`, `<=`, `>`, `>=` of two such expressions, neither of which is an unrounded result, have the source's outcome; NaN, infinities and signed zeros included. **C133**, conversions to `long` (partial): of such an expression that is not an unrounded result, to `long`: the sour"
  },
  {
   "property": "C134",
   "status": "partial",
   "theorems": [
    "Verif.Box.C134_whole_to_integer",
    "Verif.Box.C134_real_to_integer_partial",
    "Verif.Box.C134_overflow_refuted",
    "Verif.Box.C134_whole_to_real",
    "Verif.Box.C134_real_to_real",
    "Verif.Box.C134_special",
    "Verif.Box.C134_to_bool",
    "Verif.Box.C134_to_char_partial",
    "Verif.Box.C134_char_refuted"
   ],
   "note": "**C134** (partial: the integer part fits, the type has at least 16 bits): a boxed finite `Single` or `Double` read as an integer type is the number without its fraction. Missing: `C134_overflow_refuted`. **C134** (partial: the integer is a character code): a boxed integer read as a character has that code. Missing: `C134_char_refuted`. Counterexamples: **C134** (refuted): for an infinity, NaN or a number whose integer part does not fit the type, and only for those, the conversion is undefined in C++ (C# gives an unspecified value of the type); to `byte` and `sbyte` the library does not convert at all: InvalidCastException. **C134** (refuted): where `wchar_t` has 32 bits no Int32 is reduced to 16 bits, so for every integer outside 0..65535 the result is no character of C#; where it has 16 bits the integer is reduced as in C#."
  },
  {
   "property": "C135",
   "status": "proved",
   "theorems": [
    "Verif.MathRound.C135_integral_part",
    "Verif.MathRound.C135_special"
   ],
   "note": "**C135**: `Math.Truncate`, `Math.Floor` and `Math.Ceiling` of a finite double give a finite double that is exactly the number without its fraction, the greatest integer not above it, the least not below it, with the sign bit of the argument. **C135**: NaN and the infinities are returned unchanged."
  },
  {
   "property": "C136",
   "status": "partial",
   "theorems": [
    "Verif.MathRound.C136_round_partial",
    "Verif.MathRound.C136_exact_partial",
    "Verif.MathRound.C136_integer",
    "Verif.MathRound.C136_no_mode_partial",
    "Verif.MathRound.C136_unchanged",
    "Verif.MathRound.C136_arguments",
    "Verif.MathRound.C136_decimal_refuted"
   ],
   "note": "**C136** (partial: this is not the decimal nearest to the value, see `C136_decimal_refuted`): for 0 to 15 digits, every mode and every finite double below 10^16 in size, `Math.Round(value, digits, mode)` multiplies by the power of ten and rounds that product to a double, chooses the integer `k` the mode asks for, and returns the double nearest to `k / 10^digits`, with the sign bit of the value. **C136**: when the product with the power of ten is a double (always for 0 digits), the integer is chosen for the exact value. **C136** (partial as `C136_round_partial`): `Math.Round(value, digits)` chooses the nearest integer, the even one of two equally near. Counterexamples: **C136** (refuted): the product is rounded first, so the result is not always the nearest decimal: the double 0.045 is below 0.045, the nearest decimal with two digits is 0.04; `Math.Round(0.045, 2, AwayFromZero)` is 0.05."
  },
  {
   "property": "C137",
   "status": "partial",
   "theorems": [
    "Verif.MathRound.C137_exact_product_partial",
    "Verif.MathRound.C137_refuted"
   ],
   "note": "**C137** (partial: the product is a double): `FusedMultiplyAdd(x, y, z)` is `x * y + z` rounded once. Missing: every other product, `C137_refuted`. Counterexamples: **C137** (refuted): the product is rounded before the addition, which is what the function exists to avoid. `x = 1 + 2^-27`: `x * x - (1 + 2^-26)` is `2^-54`, the result is 0. And an intermediate overflow is not avoided: `1e308 * 10 - 1.5e308` is infinite."
  },
  {
   "property": "C138",
   "status": "proved",
   "theorems": [
    "Verif.MathRound.C138_remainder",
    "Verif.MathRound.C138_special"
   ],
   "note": "**C138**: `IEEERemainder(x, y)` of finite numbers, `y ≠ 0`, is exactly `x - n * y` where `n` is the integer nearest to the exact quotient `x / y`, the even one of two equally near; a zero result has the sign of `x`. **C138**: NaN operands, an infinite dividend or a zero divisor give NaN; an infinite divisor leaves a finite dividend."
  },
  {
   "property": "C139",
   "status": "partial",
   "theorems": [
    "Verif.MathRound.C139_exponent_partial",
    "Verif.MathRound.C139_refuted"
   ],
   "note": "**C139** (partial: a finite number other than zero): `ILogB(x)` is the exponent of the power of two below the size of `x`, for subnormal numbers too. Missing: `C139_refuted`. Counterexamples: **C139** (refuted): of zero, an infinity or NaN an infinity or NaN is converted to Int32, which is undefined; .NET gives Int32.MinValue for 0 and Int32.MaxValue for the others."
  },
  {
   "property": "C140",
   "status": "proved",
   "theorems": [
    "Verif.MathRound.C140_scale",
    "Verif.MathRound.C140_special"
   ],
   "note": "**C140**: `ScaleB(x, n)` of a finite number is `x * 2^n` rounded once, for every `n`, with the sign of `x`; exact whenever the result is a double. **C140**: infinities are kept, NaN stays NaN."
  },
  {
   "property": "C141",
   "status": "partial",
   "theorems": [
    "Verif.Support.C141_accessors",
    "Verif.Support.C141_innermost",
    "Verif.Support.C141_base_partial",
    "Verif.Support.C141_base_refuted",
    "Verif.Support.C141_message_refuted"
   ],
   "note": "**C141**, `GetBaseException()` (partial: it is the innermost exception exactly when there is one inner exception and that one has none itself). Counterexamples: **C141**, the rest refuted: an exception without inner exception is its own base exception in .NET, here there is none; with two levels the result is the exception in the middle. **C141**, refuted for `Message`: .NET never returns null (an exception made without a message says so in words), here `new Exception()` and `new Exception(null)` have none."
  },
  {
   "property": "C142",
   "status": "partial",
   "theorems": [
    "Verif.Support.C142_console_partial",
    "Verif.Support.C142_library",
    "Verif.Support.C142_texts",
    "Verif.Support.C142_refuted"
   ],
   "note": "**C142** (partial): the console shows every message sent, each on a line of its own and in order, then the message of the exception that gets out, and `Run` returns — exactly when all the messages exist, have no NUL character and can be represented in the locale, and nothing but exception objects gets out. Counterexamples: **C142**, the rest refuted: an uncaught `new Exception()` (no message) is undefined behaviour; text after a NUL is lost; a message with a character the locale does not have is lost with its line; anything but an exception object leaves `Run`."
  },
  {
   "property": "C143",
   "status": "partial",
   "theorems": [
    "Verif.Support.C143_memory_partial",
    "Verif.Support.C143_index",
    "Verif.Support.C143_exhaustion_refuted",
    "Verif.Support.C143_identity_refuted"
   ],
   "note": "**C143** (partial): the program sees the platform's array as plain memory that starts as 1, 2, 3, 4: what is written through one access is read by the later ones — while the arena, fresh from the set-up, has room for one wrapper (`size` bytes, rounded up to 8) per access. Counterexamples: **C143**, the rest refuted: every access allocates a wrapper that is never freed, so a program that uses the platform's array often enough has undefined behaviour, whatever the (positive) size of the wrapper. **C143**, refuted: two accesses to the property are two objects."
  },
  {
   "property": "C144",
   "status": "partial",
   "theorems": [
    "Verif.Support.C144_listeners",
    "Verif.Support.C144_log",
    "Verif.Support.C144_main",
    "Verif.Support.C144_early_refuted",
    "Verif.Support.C144_second_refuted"
   ],
   "note": "Counterexamples: **C144**, refuted: a failure before the log is opened (the path to the assembly) is written to no file. **C144**, refuted: a run that failed leaves its log open, so the events of a second run in the same process go to the first run's log and not to its own."
  },
  {
   "property": "C145",
   "status": "partial",
   "theorems": [
    "Verif.Clock.C145_clock_partial",
    "Verif.Clock.C145_now_partial",
    "Verif.Clock.C145_today",
    "Verif.Clock.C145_refuted"
   ],
   "note": "**C145**, `UtcNow` (partial: to the millisecond): with the clock at `t` seconds and `ns` nanoseconds after the epoch, the value is that many ticks, the part below a millisecond dropped. **C145**, `Now` (partial: to the millisecond): at the same instant it is `UtcNow` plus the zone's offset from UTC (`off` seconds). Counterexamples: **C145**, the rest refuted: instants up to a millisecond apart (10000 ticks, which .NET tells apart) are the same; a leap second is an exception."
  },
  {
   "property": "C146",
   "status": "partial",
   "theorems": [
    "Verif.Clock.C146_zone_partial",
    "Verif.Clock.C146_convert_partial",
    "Verif.Clock.C146_round_trip",
    "Verif.Clock.C146_refuted"
   ],
   "note": "**C146**, the zone (exact): the offset found is the zone's offset exactly when that is a whole number of hours and the local date is the UTC date at the moment. **C146** (partial): when that is so, `ToLocalTime` adds the offset and `ToUniversalTime` subtracts it, throwing exactly when the result leaves the calendar. Counterexamples: **C146**, the rest refuted: an hour before midnight in a zone one hour ahead of UTC the conversion goes 23 hours back instead of one forward; half an hour of India's offset is lost; near the end of the calendar .NET gives the last moment, here an exception is thrown."
  },
  {
   "property": "C147",
   "status": "partial",
   "theorems": [
    "Verif.Enum.C147_values_partial",
    "Verif.Enum.C147_refuted"
   ],
   "note": "**C147** (partial: initialisers other than the least `long`): the C++ enum defines the members of the source, in order, with their values: explicit ones and those counted up from the member before. Counterexamples: **C147**, the rest refuted: a member with the least `long` is no C++ constant; a `ulong` member from 2^63 on, which the decompiler gives as a negative `long`, gets a negative value and is less than the others."
  },
  {
   "property": "C148",
   "status": "partial",
   "theorems": [
    "Verif.Enum.C148_cast_partial",
    "Verif.Enum.C148_flags",
    "Verif.Enum.C148_refuted"
   ],
   "note": "**C148** (exact condition): a value stored in a variable of an enum type, or passed as one, is kept exactly when it needs no more bits than the widest member (and a sign only if some member is negative); otherwise the C++ has undefined behaviour. In C# every value of the underlying type is kept. Counterexamples: **C148**, the rest refuted: the complement of a flag, and a value with a bit beyond the members, are undefined."
  },
  {
   "property": "C149",
   "status": "partial",
   "theorems": [
    "Verif.Method.C149_method_partial",
    "Verif.Method.C149_refuted"
   ],
   "note": "**C149** (partial: the methods and pieces of C94, C101 and C104): the C++ function written for a method whose statements assign integer expressions to variables ends as the method does, by returning the same value or with the same uncaught exception, and leaves the same values in the variables, for every contents of the variables at the start and however often it jumps; unless on the way it comes to a statement whose C++ is undefined or in which the source raises OverflowException. Counterexamples: **C149**, the rest refuted: `if (a && b)` with `a` true and `b` false; the C++ does the assignment."
  },
  {
   "property": "C150",
   "status": "partial",
   "theorems": [
    "Verif.Visit.C150_order",
    "Verif.Visit.C150_complete_partial",
    "Verif.Visit.C150_refuted"
   ],
   "note": "**C150** (exact condition): every instruction of a method is written exactly when none of them is of the constructs in `leftOut` and no handler has a filter. Counterexamples: **C150**, the rest refuted: whatever their operands do, nothing is written for `try`/`finally`, `lock`, `using`, `yield`, `await`, `is`/`as`, `??` and the other constructs without a visitor, and the translation goes on as if they were not there."
  },
  {
   "property": "C151",
   "status": "partial",
   "theorems": [
    "Verif.Drive.C151_types_partial",
    "Verif.Drive.C151_refuted"
   ],
   "note": "**C151** (partial: no interfaces): every class, struct and enum of the program is declared, once and in order, and nothing else is. Counterexamples: **C151**, the rest refuted: no interface is ever declared, nor a type in a namespace such as `MyCppTranslatorSupportTools`, nor a nested type."
  },
  {
   "property": "C152",
   "status": "partial",
   "theorems": [
    "Verif.Drive.C152_members_partial",
    "Verif.Drive.C152_refuted"
   ],
   "note": "**C152** (exact condition): the header and the source file are written exactly when no class or struct that is translated has an event, an indexer, a destructor, a fixed-size buffer or a nested class, struct, interface or delegate; then the header declares every class and struct with its own fields, methods, constructors, properties and operators, and the source file defines each of these for its class, in order and once. Otherwise neither is written. Counterexamples: **C152**, the rest refuted: one nested class anywhere in the program, or one event, and neither the header nor the source file of the whole program is written."
  },
  {
   "property": "C153",
   "status": "partial",
   "theorems": [
    "Verif.StrModel.C153_ordinal_partial",
    "Verif.StrModel.C153_ignore_case_partial",
    "Verif.StrModel.C153_compare_partial",
    "Verif.StrModel.C153_refuted"
   ],
   "note": "**C153**, `CompareOrdinal(a, i, b, j, n)` (partial: no NUL in the strings, positions inside them): the order of the at most `n` characters from `i` and from `j`. Missing: `C153_refuted`. **C153**, `Compare(a, i, b, j, n, true)` (partial as above; a locale whose lower case of a character is not NUL): the order of the characters in lower case. **C153**, `Compare(a, i, b, j, n, false)` (partial as above; a locale in which no character is both upper and lower case): 0 exactly when the characters are the same, and swapping the operands flips the sign. Counterexamples: **C153**, the rest refuted: a position outside its string, or a null string, is undefined behaviour instead of an exception or an ordering; a negative length compares equal instead of being rejected; and two parts that differ after a NUL character compare equal."
  },
  {
   "property": "C154",
   "status": "proved",
   "theorems": [
    "Verif.Obj.C154_equals",
    "Verif.Obj.C154_equivalence"
   ],
   "note": "**C154**: `Object.Equals(a, b)` always returns (null arguments and any mixture of types included), and it returns true exactly when both are null, both are the same object, or both are boxed values of the same type (or strings) with the same value. **C154**: it is an equivalence relation on references."
  },
  {
   "property": "C155",
   "status": "partial",
   "theorems": [
    "Verif.Text.C155_reads_partial",
    "Verif.Text.C155_value_partial",
    "Verif.Text.C155_condition_refuted",
    "Verif.Text.C155_name_refuted"
   ],
   "note": "C155: the characters written for an integer expression are one C++ expression, and it has the type and, for all values of the variables, the value of the tree of C94 (whose value is compared with the source's there). The conditions: variables with names of their own, constants that fit, no conditional as a condition. C155: on the expressions on which C++'s typing rules agree with the IL, what a C++ compiler reads from the characters computes, stored in a variable of type `ty`, exactly what the source stores, or throws the same exception; the C++ being defined and the source not raising OverflowException. Counterexamples: C155 fails for a conditional in condition position: `(a && b) ? d : e` is written `(a ? (b) : (0) ? (d) : (e))`, which a C++ compiler reads as `a ? b : (0 ? d : e)`; with `a` and `b` true it yields `b`, the source `d`. C155 fails for a variable called `Void`, which is wr"
  },
  {
   "property": "C156",
   "status": "partial",
   "theorems": [
    "Verif.Text.C156_written",
    "Verif.Text.C156_deep_refuted",
    "Verif.Text.C156_method_partial"
   ],
   "note": "**C156** (partial: the methods of C149, with all variables declared at the start): the characters written for the body of a method are, for a C++ compiler, one function body; it returns or ends as the method does, with the same value or exception, and leaves the same values in the variables. Counterexamples: **C156** refuted without the bound: a statement inside 22 `if`s is not written."
  },
  {
   "property": "C157",
   "status": "partial",
   "theorems": [
    "Verif.Program.C157_program_partial",
    "Verif.Program.C157_refuted"
   ],
   "note": "**C157** (partial: the methods of C149 with calls of static methods, static fields and exceptions thrown). A translated program does what the program does: for each method there is exactly one way to read what is written as a function body, and a call of any method with any arguments and any contents of the static fields returns the same value or ends with the same exception, and leaves the same values in the static fields; however deep the calls are nested and however often the methods jump; unless on the way some C++ is undefined or the source raises OverflowException. Counterexamples: **C157**, the rest refuted: `Ask()` returns 0, and in the translated program 1, whatever the variables hold."
  },
  {
   "property": "C158",
   "status": "partial",
   "theorems": [
    "Verif.ArrProg.C158_arguments",
    "Verif.ArrProg.C158_elements",
    "Verif.ArrProg.C158_null",
    "Verif.ArrProg.C158_arrays_partial",
    "Verif.ArrProg.C158_refuted"
   ],
   "note": "**C158** (partial: the programs of C157 with arrays of integers, of one to three dimensions, that are created, indexed, assigned to, measured, passed, returned and kept in variables and static fields). A translated program does what the program does: for each method there is exactly one way to read what is written as a function body, and a call of any method, from states in which the library's arrays hold what the source's hold, returns the same value (or the reference of the same array) or ends with the same exception (IndexOutOfRangeException included), and leaves the static fields and all arrays with the same contents; whichever side of an assignment to an element the C++ compiler evaluates first; however deep the calls are nested, however often the methods jump and however many arrays they create; unless on the way some C++ is undefined, the source raises OverflowException, an array "
  },
  {
   "property": "C159",
   "status": "partial",
   "theorems": [
    "Verif.ObjProg.C159_escape_refuted",
    "Verif.ObjProg.C159_objects_partial",
    "Verif.ObjProg.C159_refuted"
   ],
   "note": "**C159** (partial: the programs of C158 with classes, single inheritance, constructors, fields of integer and reference types, virtual and other instance methods, casts and comparisons of references; no field or method hides another and no `base.Method()` of a virtual method; arguments of base constructors are variables, numbers or null). A translated program does what the program does: for each method there is exactly one way to read what is written as a function body, and a call of any method, from states with the same objects and arrays, returns the same value or reference or ends with the same exception, and leaves the same objects, of the same classes with the same fields, the same arrays and the same static fields; whichever side of an assignment the C++ compiler evaluates first; however deep calls are nested and whatever methods are called through whatever classes; unless on the w"
  },
  {
   "property": "C160",
   "status": "partial",
   "theorems": [
    "Verif.CtorOrder.C160_once",
    "Verif.CtorOrder.C160_order_partial",
    "Verif.CtorOrder.C160_order_refuted"
   ],
   "note": "**C160** (partial, but exact): the initialisers and the statements of the constructors are executed in the same order exactly when no class with initialisers has a base class for which something is done. Missing: the others (`C160_order_refuted`). Counterexamples: **C160** is false of the code: `class A { A() { Log(\"A\"); } } class B : A { int x = Log(\"x\"); B() { Log(\"B\"); } }`: `new B()` logs x, A, B in the source and A, x, B in C++."
  },
  {
   "property": "C161",
   "status": "proved",
   "theorems": [
    "Verif.ObjProg.C161_cpp",
    "Verif.ObjProg.C161_source",
    "Verif.ObjProg.C161_new",
    "Verif.ObjProg.C161_fields",
    "Verif.ObjProg.C161_comparisons"
   ],
   "note": "**C161**, in the translated program: whatever the functions do (`body` is arbitrary), during a call every object stays the object of the class it is, constructed exactly as far as it was, and every array keeps its element type, its dimensions and its memory; every object created in the call is, when the call ends (normally or with an exception), completely constructed, or its constructor raised an exception and it is gone. **C161**, in the source: the same of every program whose methods have the shape of C101 and C159 (`Good`). **C161**: `new T(...)` gives a reference that is not null and not that of an object there was before, to an object of class `T` that is completely constructed; `new T[...]` gives one that is not that of an array there was before. (`C` does the calls: see `C161_source` and `C161_cpp`.) **C161**: after `x.f = v` the field `x.f` is `v`, all other fields of that objec"
  },
  {
   "property": "C162",
   "status": "proved",
   "theorems": [
    "Verif.IntVal.C162_parse",
    "Verif.IntVal.C162_try_parse"
   ],
   "note": "**C162**. What `Parse` does with every text: null throws ArgumentNullException; a text that is not white space, an optional sign, digits and then the end or white space throws FormatException; for every other text the outcome is the one described by `ParseDoes` for the sign and the number (modulo 2^64), which is exactly one. **C162**. What `TryParse` does with every text: it never throws except for null; it is undefined exactly for a minus sign and a number congruent to the minimum of Int32 or Int64 (whatever follows); otherwise it returns true with `v` exactly when `Parse` returns `v` and there is no minus sign before a number of an unsigned type."
  },
  {
   "property": "C163",
   "status": "proved",
   "theorems": [
    "Verif.IntVal.C163_compare_wide",
    "Verif.IntVal.C163_compare_narrow",
    "Verif.IntVal.C163_objects"
   ],
   "note": "**C163**. What `CompareTo` does with every pair of values of the 64-bit types: its result is the residue of the difference modulo 2^32 between -2^31 and 2^31 - 1; so it has the right sign exactly when that residue has. **C163**. The narrower types: exact for the 8- and 16-bit types; for Int32 exact or undefined; for UInt32 right exactly when the two are less than 2^31 apart, or 2^31 with the first the smaller. **C163**. `CompareTo(Object)` and `Equals(Object)`: null sorts before everything but is dereferenced by `Equals`; another type is an ArgumentException for the first and unequal for the second."
  },
  {
   "property": "C164",
   "status": "proved",
   "theorems": [
    "Verif.Complete.C164_negate_duration",
    "Verif.Complete.C164_subtract",
    "Verif.Complete.C164_date_time"
   ],
   "note": "**C164**. `Negate` and `Duration` of every span: zero is refused with OverflowException (it is taken for MinValue), the most negative span is undefined, and every other span is negated, and measured, exactly. **C164**. `Subtract` of every two spans, on two's complement arithmetic: when the difference is a span, it is returned if the operands have different signs or the difference has the sign of both (zero counting as positive), and OverflowException is thrown otherwise; when it is not, the difference less or plus 2^64 is returned and nothing is reported. **C164**. `DateTime(year, month, day, hour, minute, second, millisecond)` for every seven numbers: a date that is none throws ArgumentOutOfRangeException; with a negative hour the other three numbers are ignored (midnight); otherwise a time that is none throws, except that millisecond 1000 is taken as the next second."
  },
  {
   "property": "C165",
   "status": "proved",
   "theorems": [
    "Verif.Complete.C165_sign_abs",
    "Verif.Complete.C165_divide",
    "Verif.Complete.C165_divrem64",
    "Verif.Complete.C165_big_mul"
   ],
   "note": "**C165**. `Sign` and `Abs` of every integer: the sign and the absolute value, except that the minimum of Int32 (and of Int64 for `Sign`) is undefined. **C165**. `Divide(Int64)` and `DivRem(Int32)` of every pair: DivideByZeroException for a zero divisor, undefined for the minimum by -1, otherwise the truncated quotient (and the remainder that belongs to it). **C165**. `DivRem(Int64)` of every pair with a non-zero divisor whose quotient `q` is an Int64: with `d` the Int32 congruent to `q`, the result is `d` and `a - d * b` when both `d * b` and that are Int64 values, and otherwise undefined. So it is right exactly when the quotient fits Int32. **C165**. `BigMul` of every pair of Int32 values is the product; `Clamp`, `Max` and `Min` (C47) have no exceptions besides an empty range."
  },
  {
   "property": "C166",
   "status": "proved",
   "theorems": [
    "Verif.StrProps.C166_substring",
    "Verif.StrProps.C166_to_char_array",
    "Verif.StrProps.C166_copy_to"
   ],
   "note": "**C166**. `Substring(start, length)` of every string, with every start and length (a negative length meaning \"to the end\"): ArgumentOutOfRangeException when the range is not inside the string, or when the range is not empty and a NUL stands in front of it; otherwise exactly the characters of the range. **C166**. `ToCharArray(start, length)`: exactly the characters of the range; ArgumentOutOfRangeException when the start is negative or the range ends behind the string, undefined (an array of negative size) when the length is negative and the start lies behind the string. **C166**. `CopyTo` with every destination, positions and count: ArgumentNullException for a null array, an array that is not of characters and for every range that is not inside the string and the array, RankException for a matrix, IndexOutOfRangeException for an empty range at the end of the string or of the array; other"
  },
  {
   "property": "C167",
   "status": "proved",
   "theorems": [
    "Verif.StrProps.C167_last_index_of",
    "Verif.StrProps.C167_last_index_of_any"
   ],
   "note": "**C167**. `LastIndexOf(Char, start, count)` of every string, for every start (negative: the last position) and count (negative: all the way down): exactly one of the outcomes listed in `SearchedBack`. **C167**. `LastIndexOfAny(chars, start, count)` of every string, for every array, start and count: ArgumentNullException for null (and for an array that is not of characters), RankException for a matrix (both after the overflow of `start + 1`), -1 for an empty array, and otherwise one of the outcomes of `SearchedBack`."
  },
  {
   "property": "C168",
   "status": "proved",
   "theorems": [
    "Verif.StrProps.C168_pad",
    "Verif.StrProps.C168_concat",
    "Verif.StrProps.C168_insert",
    "Verif.StrProps.C168_remove",
    "Verif.StrProps.C168_replace_char",
    "Verif.StrProps.C168_trim"
   ],
   "note": "**C168**. `PadLeft` and `PadRight` of every string, with every width and character. **C168**. `Concat` of every array of references and of every list of operands: the texts in order. A null array or a null first operand is refused, a matrix is a RankException; a null element of an array, an array of values and a result of more than 2147483520 characters are undefined. **C168**. `Insert` into every string, at every position, of every text: refused when the text is null or the position outside the string; IndexOutOfRangeException when the string or the text is empty; undefined when the result exceeds 2147483520 characters; otherwise the insertion. **C168**. `Remove` from every string, with every start and count (negative: to the end). `ov`: whether `memcpy` tolerates overlap. **C168**. `Replace(Char, Char)` in every string. **C168**. `Trim`, `TrimStart` and `TrimEnd` of every string with e"
  },
  {
   "property": "C169",
   "status": "proved",
   "theorems": [
    "Verif.ArrProps.C169_dimensions",
    "Verif.ArrProps.C169_copy",
    "Verif.ArrProps.C169_copy_within",
    "Verif.ArrProps.C169_clear",
    "Verif.ArrProps.C169_index_of"
   ],
   "note": "**C169**. `Rank`, `Length`, `GetLength`, `GetLowerBound` and `GetUpperBound` of every array, with every dimension number: the declared sizes; a dimension number that is negative or equal to the rank is treated as a dimension of size -1, a larger one throws. **C169**. `Copy` from one array to another, for every pair of arrays, positions and length: null arrays are refused; then, in this order, negative lengths and positions, a source range ending behind the Int32 range (undefined) or behind the source, the same for the destination, arrays of different ranks and of different element types; otherwise elements `di..di+n` are those of the source (in storage order) and the others stay. **C169**. `Copy` within one array, for every array, positions and length: as between two arrays; overlapping ranges are undefined unless `memcpy` tolerates them (`ov`), and then copied as through a temporary. **"
  },
  {
   "property": "C170",
   "status": "proved",
   "theorems": [
    "Verif.BufProps.C170_bytes",
    "Verif.BufProps.C170_block_copy",
    "Verif.BufProps.C170_block_copy_within"
   ],
   "note": "**C170**. `ByteLength`, `GetByte` and `SetByte` of every array with every index: null, arrays of references and several dimensions are refused; the length is the number of bytes; an index from the length on is refused, a negative one is undefined; otherwise the byte is read, or replaced with every other byte staying. **C170**. `BlockCopy` between any two arrays of primitive elements, with every offset and count (null arrays, matrices and arrays of references are refused: `C44_block_copy_refuses`). **C170**. `BlockCopy` within one array of primitive elements, with every offset and count: overlap or not, as through a temporary."
  },
  {
   "property": "C171",
   "status": "proved",
   "theorems": [
    "Verif.BufProps.C171_read",
    "Verif.BufProps.C171_read_others",
    "Verif.BufProps.C171_to_string"
   ],
   "note": "**C171**. `ToInt16 ... ToUInt64` of every Byte array at every index: refused outside the array and where too few bytes follow; otherwise the number of the type whose `k`-th base-256 digit (of the two's complement) is the byte at `index + k`; it is the only such number. **C171**. The other readers: `ToDouble` and `ToSingle` give the bit pattern `ToUInt64` and `ToUInt32` give, `ToChar` gives the number `ToInt16` gives (so never a code unit above 0x7FFF), and `ToBoolean` tells whether the byte at the index is not 0. **C171**. `ToString(value, start, length)` of every Byte array with every start and length."
  },
  {
   "property": "C172",
   "status": "proved",
   "theorems": [
    "Verif.FltProps.C172_is_negative",
    "Verif.FltProps.C172_neighbours",
    "Verif.FltProps.C172_copy_sign",
    "Verif.FltProps.C172_divide"
   ],
   "note": "**C172**. `IsNegative` of every value: the sign bit, and true for every NaN. **C172**. `BitIncrement` and `BitDecrement` of every Double: the neighbour for finite values, the value itself for NaN and for the infinity in the direction of the step; from the other infinity the step lands on 1.797693134862315E+308, four values before the last finite one. **C172**. `CopySign(x, y)` for every pair: the magnitude bits of `x`, and the sign of `y`, a NaN counting as negative. **C172**. `Divide(Double, Double)` by either zero, for every dividend: NaN for a zero, +infinity for everything else, NaNs and negative numbers included; every other divisor is left to the hardware division."
  },
  {
   "property": "C173",
   "status": "partial",
   "theorems": [
    "Verif.Read.C173_order",
    "Verif.Text.C173_program_partial",
    "Verif.Text.C173_refuted"
   ],
   "note": "**C173** (partial: the methods of C156, also void ones, with static fields, with calls of static methods, one in an expression or as statements, and with `throw` statements for new objects made without arguments). The characters written for the bodies of the methods of a program are for a C++ compiler, that knows functions and static fields by their declarations, exactly one body each, void functions return without a value and the others with one; and the functions with these bodies, which call each other by their names and share the static fields, do what the methods do: a call of any method with any arguments and any contents of the static fields returns the same value or ends with the same exception, and leaves the same values in the static fields, however deep the calls are nested and however often the methods jump; unless on the way some C++ is undefined or the source raises Overflo"
  },
  {
   "property": "C174",
   "status": "proved",
   "theorems": [
    "Verif.SBModel.C174_undefined_exact",
    "Verif.SBModel.C174_otherwise_usable",
    "Verif.SBModel.C174_create_exact",
    "Verif.SBModel.C174_createFrom_exact"
   ],
   "note": "**C174**: in every history whatsoever a call is undefined exactly when `Undefined` says so, from the arguments and the numbers a program can read off the builder. **C174**: every other call returns or throws a catchable exception, keeps MaxCapacity, and leaves a builder of which every character and the text can be read. **C174**: the constructor taking a capacity is undefined exactly when the capacity is acceptable but cannot be rounded up within an Int32. **C174**: the constructor taking a string."
  },
  {
   "property": "C175",
   "status": "proved",
   "theorems": [
    "Verif.DateTime.C175_held_range",
    "Verif.DateTime.C175_arithmetic",
    "Verif.DateTime.C175_components",
    "Verif.DateTime.C175_never_undefined",
    "Verif.DateTime.C175_compare",
    "Verif.DateTime.C175_now"
   ],
   "note": "**C175**: whatever the history, a `DateTime` lies between the first instant of the year 1 and the first instant of the year 10000, both included. **C175**: adding and subtracting a time span on every held value: the exact sum, or `ArgumentOutOfRangeException` when it is not in the years 1..9999. **C175**: the components, the date, and the shift by months of every held value. **C175**: no operation on any held value is undefined. **C175**: two held values compare by their ticks with every comparison, and their difference is exact and never overflows. **C175**: the current time. From any broken-down time of the C library in the years 1..9999 the value is that time with the milliseconds of the clock; a leap second (60) throws."
  },
  {
   "property": "C176",
   "status": "proved",
   "theorems": [
    "Verif.FmtTextProps.C176_string",
    "Verif.FmtTextProps.C176_distinct",
    "Verif.FmtTextProps.C176_char",
    "Verif.FmtTextProps.C176_name"
   ],
   "note": "**C176**, string literals: the translated literal does not compile exactly when the C# string contains a surrogate; otherwise the String object the program holds is the C# string up to its first NUL, and never anything else. Two literals of one program denote the same text exactly when they agree up to the first NUL: distinct C# strings without NULs never become equal. **C176**, character literals: every char survives except the surrogates, whose literal does not compile. **C176**, names: the C++ identifier is a keyword exactly for the names `this` and `Void`."
  },
  {
   "property": "C177",
   "status": "partial",
   "theorems": [
    "Verif.MathConst.C177_constants_partial",
    "Verif.MathConst.C177_refuted"
   ],
   "note": "**C177** (partial: fifteen digits). `Math.PI` and `Math.E` are the doubles nearest to the decimals with 14 places that are nearest to π and e. Missing: the doubles nearest to π and e themselves (C177_refuted). Counterexamples: **C177**, the rest refuted: the doubles that .NET has are nearer to π and e."
  },
  {
   "property": "C178",
   "status": "proved",
   "theorems": [
    "Verif.MathConst.C178_log"
   ],
   "note": "**C178**: `Math.Log(a, newBase)`, for every pair of doubles. The table of the documentation of .NET, and otherwise the rounded quotient of the two logarithms, the second of which is not zero."
  },
  {
   "property": "C179",
   "status": "partial",
   "theorems": [
    "Verif.MathAbs.C179_abs_exact",
    "Verif.MathAbs.C179_abs_partial",
    "Verif.MathAbs.C179_refuted"
   ],
   "note": "**C179** (partial: sizes of 53 bits). Missing: all other values (C179_refuted). Counterexamples: **C179**, the rest refuted: `Math.Abs(9007199254740993)` as a long is 9007199254740992, and `Math.Abs(9223372036854775807)` is undefined."
  },
  {
   "property": "C180",
   "status": "proved",
   "theorems": [
    "Verif.StrModel.C180_parts",
    "Verif.StrModel.C180_whole",
    "Verif.StrModel.C180_unique"
   ],
   "note": "**C180**, `Compare(a, i, b, j, n, ignoreCase)` and `CompareOrdinal(a, i, b, j, n)`, for all arguments, in every locale whose lower case of NUL is NUL: undefined for a null string, a position before the start or beyond the position after the end, and, unless the length is 0 or negative, the position after the end plus one; everywhere else the result of the first pair of characters that ends the comparison. **C180**, `Compare(a, b, ignoreCase)`, `CompareOrdinal(a, b)` and both `CompareTo`, for all strings: as many pairs as the first string has characters are looked at, whatever the second one has. What is decided is decided once: the two theorems give the result."
  },
  {
   "property": "C181",
   "status": "proved",
   "theorems": [
    "Verif.TimeSpan.C181_parse"
   ],
   "note": "**C181**: `TimeSpan.Parse` and `TryParse`, for every text: undefined exactly when more than four numbers are read; otherwise the ticks of the text as the specification reads it. No text is rejected."
  },
  {
   "property": "C182",
   "status": "proved",
   "theorems": [
    "Verif.AllocProps.C182_request",
    "Verif.AllocProps.C182_undefined",
    "Verif.AllocProps.C182_blocks",
    "Verif.AllocProps.C182_contents"
   ],
   "note": "**C182**: after any history of allocations of any size, frees, stores and setups, with the arena set up, a request for `n` bytes, whatever `n`: with `t` the bytes the blocks since the last setup take and `n` rounded up, null and an unchanged arena when `t` modulo 2^32 exceeds the arena; otherwise, when `t` itself fits, the block behind all blocks, cleared, everything else unchanged; otherwise (`t` is at least 2^32) the request is undefined. **C182**: exactly which requests are undefined. **C182**: after any defined history, of requests of any size, the blocks handed out since the last setup are aligned, inside the arena and share no byte. **C182**: a request that gets a block gets it all zero, and no byte of a block handed out before changes."
  },
  {
   "property": "C183",
   "status": "proved",
   "theorems": [
    "Verif.BCProps.C183_parse",
    "Verif.BCProps.C183_bool",
    "Verif.BCProps.C183_char",
    "Verif.BCProps.C183_on_string"
   ],
   "note": "**C183**, `Boolean.Parse` for every argument, in the \"C\" locale: true for what is taken for \"true\", false for what is taken for \"false\", FormatException for everything else, ArgumentException for null. **C183**, `CompareTo` and `Equals` of a Boolean with every object: null is less and not equal, something else is refused by `CompareTo` and not equal, a Boolean is compared with false before true. **C183**, `CompareTo` and `Equals` of a Char with every object: as for a Boolean, by the difference of the code units, except that `Equals(null)` is undefined. **C183**, a Char function of a string and a position, for every argument: the function of the character there; null, a position behind the last character and a negative position each have their own exception."
  },
  {
   "property": "C184",
   "status": "proved",
   "theorems": [
    "Verif.StrProps.C184_index_of_text",
    "Verif.StrProps.C184_index_of_text_defaults",
    "Verif.StrProps.C184_last_index_of_text",
    "Verif.StrProps.C184_index_of",
    "Verif.StrProps.C184_index_of_any",
    "Verif.StrProps.C184_constructors"
   ],
   "note": "**C184**, `IndexOf(text, start, count)` for all arguments: ArgumentNullException for null and for a range that is not inside the string; otherwise the first position in the range, its end included, at which what is before the first NUL of the text stands without a NUL in between, or -1. **C184**: the overloads of `IndexOf(text)` without a count or a start search to the end and from the beginning; the subtraction that finds the count is undefined exactly for a start so far before the beginning that it overflows. **C184**, `LastIndexOf(text, start, count)` for all arguments. With a negative start replaced by the last position and a negative count by one more than the start: ArgumentNullException for null; undefined when that one more overflows; -1 for no steps; undefined from a start behind the string; otherwise the last position of the range at which what is before the first NUL of the te"
  },
  {
   "property": "C185",
   "status": "proved",
   "theorems": [
    "Verif.StrProps.C185_join",
    "Verif.StrProps.C185_contains",
    "Verif.StrProps.C185_ends_with",
    "Verif.StrProps.C185_starts_with"
   ],
   "note": "**C185**, `Join(separator, array, start, count)` for all arguments, a negative count meaning to the end: ArgumentNullException for a null array, the empty string for an empty array, RankException for a matrix, ArgumentNullException for a range that is not inside the array (only a negative count may go with a start behind the end: the empty string). Undefined exactly for a range that is not empty in an array that is not of references, for a null element in the range, for a null separator between two elements and for a result of more than 2147483520 characters; otherwise the elements with the separator between them. **C185**, `Contains` for all arguments: IndexOutOfRangeException on an empty string; undefined for null, for an empty text, for a text of 2^29 or more characters that is not longer than the string and on a string of more than 2147483520 characters; otherwise whether the text is"
  },
  {
   "property": "C186",
   "status": "proved",
   "theorems": [
    "Verif.SBRead.C186_to_string_range",
    "Verif.SBRead.C186_to_string_tail",
    "Verif.SBRead.C186_equals",
    "Verif.SBRead.C186_equals_text"
   ],
   "note": "**C186**, `ToString(start, length)` of a builder after every history (also one with calls that threw), for all starts and lengths. With `xs` the text `ToString()` gives: IndexOutOfRangeException for a start outside the text (the end of the text is outside) and for a range that runs past its end; undefined exactly when start + length overflows; a negative length gives the memory from the start up to the first NUL; otherwise exactly the range. **C186**: when the program kept Capacity at or above Length and did not lengthen with `set_Length`, a negative length gives the text from the start up to its first NUL. **C186**, `Equals` of two builders after every history, and with null: never undefined; true exactly when Capacity and MaxCapacity agree and the memories agree up to the first NUL. **C186**: for builders kept as above, `Equals` compares the texts up to their first NUL."
  },
  {
   "property": "C187",
   "status": "proved",
   "theorems": [
    "Verif.MathRound.C187_round",
    "Verif.MathRound.C187_exponent",
    "Verif.MathRound.C187_multiply_add"
   ],
   "note": "**C187**: `Math.Round(value, digits, mode)` of every double, every number of digits and every mode. First digits outside 0 to 15, then modes outside the five, are rejected; NaN, the infinities and everything of size 10^16 or more come back unchanged; every other value is multiplied by the power of ten (rounded to a double `y`), the mode chooses the integer `k` for `y`, and the result is the double nearest to `k / 10^digits`, with the sign bit of the value. **C187**: `Math.ILogB` of every double: undefined for zero, NaN and the infinities, otherwise the exponent of the power of two below the size. **C187**: `Math.FusedMultiplyAdd(x, y, z)` of finite numbers rounds twice: to `p`, the double nearest to the product, then to the double nearest to `p + z`; once `p` is infinite it is the result, whatever `z` is."
  },
  {
   "property": "C188",
   "status": "proved",
   "theorems": [
    "Verif.Header.C188_exact",
    "Verif.Header.C188_order",
    "Verif.Header.C188_violated"
   ],
   "note": "**C188**. The types of a module are met in some order. The header defines every base before the types derived from it exactly when, for every type `x` met after a type `c` derived from it and after a base `b` of it, it has `b` before `c`; whatever else the module contains and in whatever order. **C188**. It is so for every module, in whatever order its types are met, in which no type derived from `x`, directly or not, is met before a base of `x` that is met before `x`. **C188**: the condition of `C188_exact` fails for the module of `C58_order_refuted`: there the header has `C` before `A`."
  },
  {
   "property": "C189",
   "status": "proved",
   "theorems": [
    "Verif.Header.C189_fields",
    "Verif.Header.C189_public"
   ],
   "note": "**C189**. In a module whose structs are nobody's base, every type of the header holds by value only structs already defined exactly when the structs that are translated come in such an order in the module: the translator never reorders structs. **C189**. All bases of a type are public bases in the generated text exactly when it is a struct or has at most one base (names without commas that do not start with `public `, as identifiers do not)."
  },
  {
   "property": "C190",
   "status": "proved",
   "theorems": [
    "Verif.TranslateExact.C190_string",
    "Verif.TranslateExact.C190_char",
    "Verif.TranslateExact.C190_keyword",
    "Verif.TranslateExact.C190_namespace",
    "Verif.TranslateExact.C190_layout",
    "Verif.TranslateExact.C190_table"
   ],
   "note": "**C190**. The object a C# string literal becomes, for every string: no object at all (the C++ text is ill-formed) when the string holds a surrogate, otherwise the characters before the first NUL; so the same characters exactly for the strings without surrogates and NULs. **C190**. A character literal keeps its value exactly when the character is no surrogate. **C190**. A name is emitted as a C++ keyword exactly when it is `this` or `Void`. **C190**. The C++ namespace of a C# namespace is a C++ identifier exactly when the C# namespace is the global one or one identifier, of ASCII letters, digits and underscores. **C190**. Printing a document either succeeds, exactly as specified, or throws; it succeeds exactly when no line of it needs more than 22 tabs. **C190**. Loading a table of legal types keeps exactly the rows before the first repeated row, for every table; the failure is reported e"
  },
  {
   "property": "C191",
   "status": "proved",
   "theorems": [
    "Verif.Stmt.C191_targets",
    "Verif.Stmt.C191_method",
    "Verif.Stmt.C191_switch"
   ],
   "note": "**C191**. Every jump of the text goes to a label the text defines exactly when every branch of the method goes to a block that is written, is not a single leave and does not begin with a container whose first block has the same label (that block then has it). **C191**. For every method: its leaves go where they must exactly when each goes to the innermost container or try around it, or leaves the method and is recognised as return; its statements are written once and in order exactly when none is where the visitor does not look; its labels are pairwise different exactly when no two blocks whose labels are written have the same label. **C191**. A switch that covers all 64-bit integers, as the decompiler's do, selects the right section for every value exactly when each of its sections has a single label or is the one with the smallest 64-bit integer (which is written as `default`)."
  },
  {
   "property": "C192",
   "status": "proved",
   "theorems": [
    "Verif.DeclExact.C192_method",
    "Verif.DeclExact.C192_property",
    "Verif.DeclExact.C192_parameter",
    "Verif.DeclExact.C192_type"
   ],
   "note": "C192: every method, whatever its (valid) modifiers and whether or not it has a body, is declared as one function that is static and virtual as in C#, with at most one specifier, and pure exactly when it has no body; that declaration is legal C++ exactly when the method has a body or is abstract or virtual. C192: the declarations written for a property keep its modifiers exactly when the property is neither static nor abstract nor virtual. C192: for a parameter and a variable of the same type, the C++ parameter takes the variable the way C# says exactly when the parameter is not `out`: an `out` parameter cannot even be bound. C192: a named type is held by pointer in C++ exactly when it is a class or an array of .NET, so the way it is held is right exactly when it is not an interface; and members are reached with `->` exactly for the types held by pointer."
  },
  {
   "property": "C193",
   "status": "proved",
   "theorems": [
    "Verif.BoxedExact.C193_equals",
    "Verif.BoxedExact.C193_compare",
    "Verif.BoxedExact.C193_bool_char"
   ],
   "note": "C193: `a.Equals(b)` for every object `a` and every reference `b`: it is undefined exactly when `b` is null and `a` is an integer or a character; in every other case it answers whether the two are equal. C193: `CompareTo(Object)` of every value of the eight integer types: it does what .NET's does exactly when the argument is null, has another type, or is a value whose difference keeps its sign in 32 bits (for Int64, a difference that does not overflow). C193: `CompareTo(Object)` of Boolean and of Char: always what .NET does."
  },
  {
   "property": "C194",
   "status": "proved",
   "theorems": [
    "Verif.Names.C194_enumerators",
    "Verif.Names.C194_method",
    "Verif.Names.C194_field",
    "Verif.Names.C194_directory"
   ],
   "note": "C194: two enumerators get the same name exactly when they clash. C194: a call names the method the way it is declared exactly when the name is not changed at the declaration and is not that of a constructor. C194: a field is used under the name it is declared with exactly when the name does not start with `<`. C194: where only `/` separates, the output goes beside the input file exactly when the argument has a `/` or no backslash; where both separate, exactly when no backslash follows the last `/`."
  },
  {
   "property": "C195",
   "status": "proved",
   "theorems": [
    "Verif.FieldType.C195_static_field",
    "Verif.FieldType.C195_keyword"
   ],
   "note": "C195: a static field has the same type in the header and in the code file exactly when it is an array, or a type definition whose name is written unchanged. No field of any other form of type (constructed, nullable, tuple, pointer, type parameter, ...) has: its definition starts with `***`, whatever the decompiler adds. C195: in particular the types that C# writes with a keyword are defined under the library's names, but only when the decompiler gives the type that keyword as its name: then the two texts differ."
  },
  {
   "property": "C196",
   "status": "proved",
   "theorems": [
    "Verif.SBModel.C196_append_object_exact",
    "Verif.SBModel.C196_insert_object_exact",
    "Verif.SBModel.C196_append_empty"
   ],
   "note": "**C196**: what `Append(Object*)` does with every builder and object. **C196**: what `Insert(index, Object*)` does with every builder, index and object: an empty text is always refused, any other is added at the index. **C196**: unlike `Insert`, `Append(Object*)` accepts an empty text and leaves the builder's text alone, whenever Length does not exceed Capacity."
  },
  {
   "property": "C197",
   "status": "proved",
   "theorems": [
    "Verif.StrProps.C197_join_char_exact"
   ],
   "note": "**C197**, `Join(character, array, start, count)` for all arguments, a negative count meaning to the end: ArgumentNullException for a null array, the empty string for an empty array, RankException for a matrix, ArgumentNullException for a range that is not inside the array. Undefined exactly for a range that is not empty in an array that is not of references, for a null element in the range, for a result of more than 2147483520 characters, and when the text before some separator has a positive multiple of 128 characters; otherwise the elements with the character between them."
  },
  {
   "property": "C198",
   "status": "proved",
   "theorems": [
    "Verif.Names.C198_cast_exact",
    "Verif.Names.C198_program_exact"
   ],
   "note": "**C198**, member by member: a method's returned values are converted to its return type; a getter's or operator's to the return type of the last method before it; with no method before it there is no type, and the translator dereferences null. **C198**, whole programs: every returned value is converted to the type of the member it is returned from exactly if each getter and operator follows a method, and the last method before it has its type."
  },
  {
   "property": "C199",
   "status": "proved",
   "theorems": [
    "Verif.SBModel.C199_string",
    "Verif.SBModel.C199_builder",
    "Verif.SBModel.C199_boolean",
    "Verif.SBModel.C199_object",
    "Verif.SBModel.C199_honest_refusing",
    "Verif.SBModel.C199_honest_cutting"
   ],
   "note": "**C199**, String: refuses a stated size below the length, else writes text and NUL. **C199**, StringBuilder, after any history of calls: the same. **C199**, Boolean: cuts the text to the stated size and still reports the whole length. **C199**, Object: likewise with the text \"Object\". **C199**, an honest size: String and StringBuilder throw exactly for longer texts, and are undefined exactly for a text that fills the buffer. **C199**, an honest size: Boolean and Object never throw, are undefined exactly for an empty buffer and for one as long as the text, and otherwise leave a terminated text in the buffer, which has the reported length exactly if the buffer is longer than the text."
  },
  {
   "property": "C200",
   "status": "proved",
   "theorems": [
    "Verif.SBModel.C200_integer",
    "Verif.SBModel.C200_boolean",
    "Verif.SBModel.C200_char",
    "Verif.SBModel.C200_real"
   ],
   "note": "**C200**, integers of all eight types: the decimal numeral is added, whatever was on the stack. **C200**, Booleans: \"True\" or \"False\" is added. **C200**, characters through a boxed Char: the character is added. **C200**, Doubles and Singles: what their ToString returns is added; for every finite value that is a text (C128)."
  },
  {
   "property": "C201",
   "status": "proved",
   "theorems": [
    "Verif.SBModel.C201_datetime_exact"
   ],
   "note": "**C201**: for every DateTime, buffer and stated size, with `text` what its ToString returns: a stated size from 0 to two below the length throws ArgumentOutOfRangeException, one below the length and every negative one IndexOutOfRangeException; otherwise text and NUL are written and the length reported, undefined exactly if the memory does not hold both."
  },
  {
   "property": "C202",
   "status": "proved",
   "theorems": [
    "Verif.SBModel.C202_timespan_exact"
   ],
   "note": "**C202**: for every TimeSpan, buffer and stated size, with `text` what its ToString returns: a stated size below the length throws IndexOutOfRangeException; otherwise text and NUL are written and the length reported, undefined exactly if the memory does not hold both."
  }
 ]
}