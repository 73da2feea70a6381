import Verif.Model.Basic
import Verif.Model.Json
/-
Dates, times and their texts (include/eosio/chain_conversions.hpp, include/eosio/time.hpp).
-/
namespace Abieos

/-- `year_month_day` (include/eosio/chain_conversions.hpp:57-92). The members are `uint32_t`; the model keeps the year as
the integer that the cast back to `int` in `to_days` recovers. -/
structure Date where
  y : Int
  m : Nat
  d : Nat
  deriving DecidableEq, Repr, Inhabited

/-- `year_month_day::from_days` (include/eosio/chain_conversions.hpp:58-69). `z` is an `int` and `doe` a `uint32_t`; for
every day number a 64-bit count of microseconds can give, no intermediate value leaves its type, so exact integers are
used. C++ division truncates: `Int.tdiv`. -/
def fromDays (n : Int) : Date :=
  let z := n + 719468
  let era := (if z ≥ 0 then z else z - 146096).tdiv 146097
  let doe := (z - era * 146097).toNat
  let yoe := (doe - doe / 1460 + doe / 36524 - doe / 146096) / 365
  let y := (yoe : Int) + era * 400
  let doy := doe - (365 * yoe + yoe / 4 - yoe / 100)
  let mp := (5 * doy + 2) / 153
  let d := doy - (153 * mp + 2) / 5 + 1
  let m := if mp < 10 then mp + 3 else mp - 9
  ⟨y + (if m ≤ 2 then 1 else 0), m, d⟩

/-- `year_month_day::to_days` (include/eosio/chain_conversions.hpp:70-79). `doy` and `doe` are `uint32_t`; the only value
that can be negative here is `doy` for day 0 of March, and the cast of `doe` to `int` undoes the wrap-around, so exact
integers are used. -/
def toDays (x : Date) : Int :=
  let y := x.y - (if x.m ≤ 2 then 1 else 0)
  let era := (if y ≥ 0 then y else y - 399).tdiv 400
  let yoe := y - era * 400
  let mp : Int := if x.m > 2 then x.m - 3 else x.m + 9
  let doy := (153 * mp + 2) / 5 + x.d - 1
  let doe := yoe * 365 + yoe / 4 - yoe / 100 + doy
  era * 146097 + doe - 719468

/-- The character of a digit. -/
def digitChar (d : Nat) : UInt8 := UInt8.ofNat (48 + d % 10)

/-- `append_uint` (include/eosio/chain_conversions.hpp:234-242): the last `digits` decimal digits. -/
def appendUint (value : Nat) : Nat → Bytes
  | 0 => []
  | digits + 1 => appendUint (value / 10) digits ++ [digitChar value]

/-- `microseconds_to_str` (include/eosio/chain_conversions.hpp:231-264). The argument is the `int64_t` that the `uint64_t`
parameter is converted to in the constructor of `std::chrono::microseconds`. `std::chrono::floor` rounds down. -/
def microsecondsToStr (us : Int) : Bytes :=
  let sd := us / 86400000000
  let ymd := fromDays sd
  let ms := (us / 1000 - sd * 86400000).toNat
  appendUint (ymd.y % 4294967296).toNat 4 ++ [45] ++ appendUint ymd.m 2 ++ [45] ++ appendUint ymd.d 2 ++ [84] ++
    appendUint (ms / 3600000 % 60) 2 ++ [58] ++ appendUint (ms / 60000 % 60) 2 ++ [58] ++ appendUint (ms / 1000 % 60) 2 ++ [46] ++
    appendUint (ms % 1000) 3

/-- The value of a digit. -/
@[irreducible] def digitOf (c : UInt8) : Option Nat := if 48 ≤ c ∧ c ≤ 57 then some (c.toNat - 48) else none

/-- `parse_uint` (include/eosio/chain_conversions.hpp:268-277): exactly `digits` digits. At most four digits are read, so
the `uint32_t` does not overflow. -/
def parseUint (acc : Nat) : Nat → Bytes → Option (Nat × Bytes)
  | 0, s => some (acc, s)
  | _ + 1, [] => none
  | digits + 1, c :: s =>
    match digitOf c with
    | some v => parseUint (acc * 10 + v) digits s
    | none => none

/-- `s == end || *s++ != c` (include/eosio/chain_conversions.hpp:281-301). -/
def parseChar (c : UInt8) : Bytes → Option Bytes
  | [] => none
  | x :: s => if x = c then some s else none

/-- Skip digits (include/eosio/chain_conversions.hpp:304). -/
def skipDigits : Bytes → Bytes
  | [] => []
  | c :: s => match digitOf c with
    | some _ => skipDigits s
    | none => c :: s

/-- The date and time of day in `string_to_utc_seconds` (include/eosio/chain_conversions.hpp:278-301). -/
def parseDateTime (s : Bytes) : Option ((Nat × Nat × Nat) × (Nat × Nat × Nat) × Bytes) := do
  let (y, s) ← parseUint 0 4 s
  let s ← parseChar 45 s
  let (m, s) ← parseUint 0 2 s
  let s ← parseChar 45 s
  let (d, s) ← parseUint 0 2 s
  let s ← parseChar 84 s
  let (h, s) ← parseUint 0 2 s
  let s ← parseChar 58 s
  let (min, s) ← parseUint 0 2 s
  let s ← parseChar 58 s
  let (sec, s) ← parseUint 0 2 s
  some ((y, m, d), (h, min, sec), s)

/-- The seconds computed in `string_to_utc_seconds` (include/eosio/chain_conversions.hpp:302), before the reduction to
`uint32_t`. -/
def dateSeconds (y m d h min sec : Nat) : Int :=
  toDays ⟨y, m, d⟩ * 86400 + h * 3600 + min * 60 + sec

/-- `string_to_utc_seconds` (include/eosio/chain_conversions.hpp:266-307): the seconds and the unread text. The product
`count() * 86400` is computed in `int` and overflows for dates after 2038-01-19, which is undefined; the model takes the
two's complement result that compilers produce, like the rest of the sum, which is reduced modulo 2^32. -/
def stringToUtcSeconds (eatFractional requireEnd : Bool) (s : Bytes) : Option (Nat × Bytes) := do
  let ((y, m, d), (h, min, sec), s) ← parseDateTime s
  let r := (dateSeconds y m d h min sec % 4294967296).toNat
  let s := if eatFractional then
      match s with
      | 46 :: s' => skipDigits s'
      | s => s
    else s
  if s = [] ∨ !requireEnd then some (r, s) else none

/-- The fraction loop of `string_to_utc_microseconds` (include/eosio/chain_conversions.hpp:323-327). -/
def parseFraction (acc : Nat) : (scale : Nat) → (fuel : Nat) → Bytes → Nat × Bytes
  | _, 0, s => (acc, s)
  | _, _ + 1, [] => (acc, [])
  | scale, fuel + 1, c :: s =>
    if 1 ≤ scale then
      match digitOf c with
      | some v => parseFraction (acc + v * scale) (scale / 10) fuel s
      | none => (acc, c :: s)
    else (acc, c :: s)

/-- `string_to_utc_microseconds` (include/eosio/chain_conversions.hpp:313-334) with `require_end`. The scale becomes zero
after six digits. -/
def stringToUtcMicroseconds (s : Bytes) : Option Nat := do
  let (sec, s) ← stringToUtcSeconds false false s
  let r := sec * 1000000
  match s with
  | [] => some r
  | c :: s =>
    if c ≠ 46 then none
    else
      let (r, s) := parseFraction r 100000 7 s
      if s = [] then some r else none

/-- `time_point_sec` from JSON text (include/eosio/time.hpp, `from_json(time_point_sec&)`). -/
def timePointSecFromText (s : Bytes) : Option Nat := (stringToUtcSeconds true true s).map (·.1)

/-- `time_point_sec` to text: `microseconds_to_str(uint64_t(utc_seconds) * 1000000)`. -/
def timePointSecToText (sec : Nat) : Bytes := microsecondsToStr (sec * 1000000)

/-- `block_timestamp::operator time_point` (include/eosio/time.hpp:213-217): microseconds. The values stay far below
2^63. -/
def slotToTime (slot : Nat) : Int := ((slot : Int) * 500 + 946684800000) * 1000

/-- `uint32_t(x)` of an `int64_t`. -/
def toU32 (x : Int) : Nat := (x % 4294967296).toNat

/-- `block_timestamp::set_time_point(time_point)` (include/eosio/time.hpp:233-237). -/
def timeToSlot (us : Int) : Nat := toU32 (((us.tdiv 1000) - 946684800000).tdiv 500)

/-- `block_timestamp::set_time_point(time_point_sec)` (include/eosio/time.hpp:239-242). -/
def secToSlot (sec : Nat) : Nat := toU32 (((sec : Int) * 1000 - 946684800000).tdiv 500)

/-- `time_point_sec(time_point)` (include/eosio/time.hpp:116). -/
def timeToSec (us : Int) : Nat := toU32 (us.tdiv 1000000)

/-- `block_timestamp::next` (include/eosio/time.hpp:204-209). -/
def nextSlot (slot : Nat) : Res Nat :=
  if 4294967295 - slot ≥ 1 then .ok (slot + 1) else .error (.text .blockTimestampOverflow)

/-- `block_timestamp` from JSON text (include/eosio/time.hpp, `from_json(block_timestamp&)`): the `uint64_t` of
microseconds is below 2^53, so the conversion to `int64_t` keeps it. -/
def slotFromText (s : Bytes) : Option Nat := (stringToUtcMicroseconds s).map fun us : Nat => timeToSlot (us : Int)

/-- `block_timestamp` to text. -/
def slotToText (slot : Nat) : Bytes := microsecondsToStr (slotToTime slot)

end Abieos
