import Verif.Model.Basic
namespace Abieos

/-- The bytes of an ASCII literal of the C++ source. -/
def str (s : String) : Bytes := s.toList.map fun c => UInt8.ofNat c.toNat

/-- One nibble as an upper-case digit: `nibble` in `hex` (src/abieos.hpp:69-74) and
`hex_digits[i]` (include/eosio/to_json.hpp:23, 243-244). -/
def hexDigit (i : Nat) : UInt8 := if i ≤ 9 then UInt8.ofNat (48 + i) else UInt8.ofNat (65 + i - 10)

/-- `hex(begin, end)` (src/abieos.hpp:67-88) and the body of `to_json_hex` (include/eosio/to_json.hpp:241-245). -/
def hexEncode : Bytes → Bytes
  | [] => []
  | b :: s => hexDigit (b.toNat >>> 4) :: hexDigit (b.toNat &&& 0xf) :: hexEncode s

/-- `get_digit` of `unhex` (include/eosio/from_json.hpp:345-355, src/abieos.hpp:93-102). -/
def unhexDigit (c : UInt8) : Option Nat :=
  if 48 ≤ c ∧ c ≤ 57 then some (c.toNat - 48)
  else if 97 ≤ c ∧ c ≤ 102 then some (c.toNat - 97 + 10)
  else if 65 ≤ c ∧ c ≤ 70 then some (c.toNat - 65 + 10)
  else none

/-- `unhex(dest, begin, end)` (include/eosio/from_json.hpp:343-363) and `unhex(error, ...)` (src/abieos.hpp:91-111).
With an odd number of characters the second `get_digit` looks at `*end`. Callers in from_json check for even length
first; the callers in src/abieos.cpp pass NUL-terminated C strings, where `*end` is NUL and is refused.
Both are the `[_]` case. -/
def unhexLoop : Bytes → Option Bytes
  | [] => some []
  | [_] => none
  | c :: d :: s => do
    let h ← unhexDigit c
    let l ← unhexDigit d
    let r ← unhexLoop s
    return UInt8.ofNat ((h <<< 4) ||| l) :: r

/-- `from_json_hex(vector<char>&)` on the string token `s` (include/eosio/from_json.hpp:588-596). -/
def fromJsonHex (s : Bytes) : Res Bytes :=
  if s.length &&& 1 ≠ 0 then .error .expected_hex_string
  else match unhexLoop s with
    | some b => .ok b
    | none => .error .expected_hex_string

end Abieos
