import Verif.Model.Time
import Verif.Model.Symbol
import Verif.Model.Operators
/-
The arithmetic of `microseconds`, `time_point` and `time_point_sec` (include/eosio/time.hpp). A `microseconds` and a `time_point` are their `int64_t` count of
microseconds, a `time_point_sec` its `uint32_t` count of seconds, a `block_timestamp` its slot. Overflow of `int64_t` is undefined (`int64` of Model/Symbol).
-/
namespace Abieos.TimeArith

/-- `microseconds + microseconds` and `+=` (include/eosio/time.hpp:25-27, 32-35), `time_point + microseconds`, `+ time_point` and `+=` (71-74, 79-80) -/
def add (l r : Int) : Res Int := int64 (l + r)

/-- `microseconds - microseconds` and `-=` (include/eosio/time.hpp:28-30, 36-39), `time_point - microseconds`, `- time_point` and `-=` (75-78, 81-82) -/
def sub (l r : Int) : Res Int := int64 (l - r)

/-- `microseconds::to_seconds` (include/eosio/time.hpp:41): division truncates -/
def toSeconds (us : Int) : Int := us.tdiv 1000000

/-- `seconds` (include/eosio/time.hpp:50) -/
def seconds (s : Int) : Res Int := int64 (s * 1000000)
/-- `milliseconds` (include/eosio/time.hpp:51) -/
def milliseconds (s : Int) : Res Int := int64 (s * 1000)
/-- `minutes` (include/eosio/time.hpp:52) -/
def minutes (m : Int) : Res Int := do seconds (← int64 (60 * m))
/-- `hours` (include/eosio/time.hpp:53) -/
def hours (h : Int) : Res Int := do minutes (← int64 (60 * h))
/-- `days` (include/eosio/time.hpp:54) -/
def days (d : Int) : Res Int := do hours (← int64 (24 * d))

/-- `time_point_sec::operator time_point` (include/eosio/time.hpp:121) -/
def secToTime (s : Nat) : Res Int := seconds s

/-- `time_point_sec += uint32_t`, `+= time_point_sec`, `+ uint32_t` (include/eosio/time.hpp:129-132, 137-140, 153): `uint32_t` arithmetic -/
def secAdd (t n : Nat) : Nat := (t + n) % 4294967296

/-- `time_point_sec -= uint32_t`, `-= time_point_sec`, `- uint32_t` (include/eosio/time.hpp:141-144, 149-152, 154) -/
def secSub (t n : Nat) : Nat := toU32 ((t : Int) - n)

/-- `time_point_sec += microseconds` (include/eosio/time.hpp:133-136): the sum is an `int64_t` and is reduced to `uint32_t`. -/
def secAddMicro (t : Nat) (us : Int) : Res Nat := do return toU32 (← int64 (t + toSeconds us))

/-- `time_point_sec -= microseconds` (include/eosio/time.hpp:145-148) -/
def secSubMicro (t : Nat) (us : Int) : Res Nat := do return toU32 (← int64 (t - toSeconds us))

/-- `time_point_sec + microseconds` (include/eosio/time.hpp:156) -/
def secPlus (t : Nat) (us : Int) : Res Int := do add (← secToTime t) us

/-- `time_point_sec - microseconds` (include/eosio/time.hpp:157) -/
def secMinus (t : Nat) (us : Int) : Res Int := do sub (← secToTime t) us

/-- `time_point_sec - time_point_sec` (include/eosio/time.hpp:158-160) -/
def secDiff (t m : Nat) : Res Int := do sub (← secToTime t) (← secToTime m)

/-- `time_point - time_point_sec` (include/eosio/time.hpp:161) -/
def timeSecDiff (t : Int) (m : Nat) : Res Int := do sub t (← secToTime m)

/-- The fields of `microseconds` (include/eosio/time.hpp:47-48) -/
def microMembers : List (Member Int) := [.leaf id (fun a b => decide (a < b)) (fun a b => decide (a = b))]

/-- The fields of `time_point` (include/eosio/time.hpp:87-88) -/
def timeMembers : List (Member Int) := [.nested id microMembers]

/-- The fields of `time_point_sec` (include/eosio/time.hpp:167). It is enabled for comparison because it converts to `time_point` (include/eosio/time.hpp:168,
include/eosio/operators.hpp:9, 18). -/
def secMembers : List (Member Nat) := [.leaf id (fun a b => decide (a < b)) (fun a b => decide (a = b))]

/-- `block_timestamp::maximum()` (include/eosio/time.hpp:201) -/
def maximumSlot : Nat := 0xffff

/-- `time_point_sec::maximum()` (include/eosio/time.hpp:118) -/
def maximumSec : Nat := 0xffffffff

/-- `time_point::max()` and `microseconds::maximum()` (include/eosio/time.hpp:24, 68) -/
def maximumTime : Int := 0x7fffffffffffffff

end Abieos.TimeArith
