import Verif.Model.Hex
/-! Integers in JSON: include/eosio/from_json.hpp:385-414, include/eosio/to_json.hpp:90-109,
include/eosio/abieos_numeric.hpp. -/
namespace Abieos

/-- An integer type `T`: signedness and width (8, 16, 32, 64, 128). -/
structure IntTy where
  signed : Bool
  bits : Nat
  deriving DecidableEq, Repr

/-- `std::numeric_limits<T>::min()` -/
def IntTy.min (t : IntTy) : Int := if t.signed then -2 ^ (t.bits - 1) else 0
/-- `std::numeric_limits<T>::max()` -/
def IntTy.max (t : IntTy) : Int := if t.signed then 2 ^ (t.bits - 1) - 1 else 2 ^ t.bits - 1
/-- Conversion of an integer value to `T` (reduction modulo 2^bits into the range of `T`). -/
def IntTy.wrap (t : IntTy) (x : Int) : Int :=
  let m := x % 2 ^ t.bits
  if t.signed ∧ 2 ^ (t.bits - 1) ≤ m then m - 2 ^ t.bits else m

/-- Result of an arithmetic operation on operands of type `T` after integral promotion: types narrower than `int`
are promoted to (32-bit, signed) `int`; signed overflow is undefined; wide unsigned types wrap. -/
def IntTy.arith (t : IntTy) (x : Int) : Res Int :=
  if t.signed = false ∧ 32 ≤ t.bits then .ok (x % 2 ^ t.bits)
  else
    let w := if t.bits < 32 then 32 else t.bits
    if -2 ^ (w - 1) ≤ x ∧ x < 2 ^ (w - 1) then .ok x else .error .ub

/-- The digit loop of `from_json_int` (include/eosio/from_json.hpp:400-413); `sign` is 1 or -1, `limit` the bound.
`-sign`, `-sign * limit`, `... + digit`, `/ 10`, `-sign * result`, `result * 10 + sign * digit` are evaluated with
`IntTy.arith` so that an overflow would show up as `ub`; `/` truncates toward zero. -/
def fromJsonIntLoop (t : IntTy) (sign limit : Int) : (result : Int) → (found : Bool) → Bytes → Res Int
  | r, found, [] => if found then .ok r else .error .expected_int
  | r, _, c :: s =>
    if 48 ≤ c ∧ c ≤ 57 then do
      let d : Int := (c.toNat : Int) - 48
      if t.signed then
        let nl ← t.arith (-sign * limit)
        let x ← t.arith (nl + d)
        let nr ← t.arith (-sign * r)
        if x.tdiv 10 > nr then throw .number_out_of_range
      else
        let x ← t.arith (limit - d)
        if x.tdiv 10 < r then throw .number_out_of_range
      let a ← t.arith (r * 10)
      let b ← t.arith (sign * d)
      let r' ← t.arith (a + b)
      fromJsonIntLoop t sign limit (t.wrap r') true s
    else .error .expected_int

/-- `from_json_int<T>` on the string token `s` (include/eosio/from_json.hpp:385-414). JSON numbers arrive as string
tokens too, because the reader is run with kParseNumbersAsStringsFlag. -/
def fromJsonInt (t : IntTy) (s : Bytes) : Res Int :=
  match t.signed, s with
  | true, 45 :: s' => fromJsonIntLoop t (-1) t.min 0 false s'
  | _, _ => fromJsonIntLoop t 1 t.max 0 false s

/-- Decimal digits, least significant first: `do { *pos++ = '0' + u % 10; u /= 10; } while (u)`
(include/eosio/to_json.hpp:99-102, include/eosio/chain_conversions.hpp:236-244 and 432-447). -/
def decRev (u : Nat) : Bytes :=
  UInt8.ofNat (48 + u % 10) :: (if u / 10 = 0 then [] else decRev (u / 10))
termination_by u

/-- The characters `int_to_json` writes between the optional quotes (include/eosio/to_json.hpp:90-109):
`uvalue = make_unsigned(value); if (neg) uvalue = -uvalue` (modulo 2^bits), digits, sign, then reversed. -/
def intText (t : IntTy) (v : Int) : Bytes :=
  let u := (v % 2 ^ t.bits).toNat
  let u := if v < 0 then ((-(u : Int)) % 2 ^ t.bits).toNat else u
  (decRev u ++ (if v < 0 then [45] else [])).reverse

/-- `int_to_json` (include/eosio/to_json.hpp:90-109): 64-bit and wider integers are quoted. -/
def intToJson (t : IntTy) (v : Int) : Bytes :=
  if t.bits > 32 then 34 :: intText t v ++ [34] else intText t v

/-- `std::numeric_limits<T>::digits10`: number of decimal digits that always fit. -/
def IntTy.digits10 (t : IntTy) : Nat := (if t.signed then t.bits - 1 else t.bits) * 30103 / 100000

/-! ### fixed-size binary numbers (include/eosio/abieos_numeric.hpp) -/

/-- `is_negative` (abieos_numeric.hpp:42-45): top bit of the last byte. -/
def isNegative (a : Bytes) : Bool := match a.getLast? with
  | some b => b.toNat &&& 0x80 ≠ 0
  | none => false

/-- `negate` (abieos_numeric.hpp:47-55). -/
def negateLoop : (carry : Nat) → Bytes → Bytes
  | _, [] => []
  | carry, b :: s =>
    let x := (~~~b).toNat + carry
    UInt8.ofNat x :: negateLoop (x >>> 8) s

def negate (a : Bytes) : Bytes := negateLoop 1 a

/-- inner loop of `decimal_to_binary` (abieos_numeric.hpp:64-68): multiply by ten and add; returns the final carry.
`carry` is a `uint8_t` and never exceeds 10 here, `x >> 8` fits it. -/
def mulTenAdd : (carry : Nat) → Bytes → Bytes × Nat
  | carry, [] => ([], carry)
  | carry, b :: s =>
    let x := b.toNat * 10 + carry
    let (r, c) := mulTenAdd ((x >>> 8) % 256) s
    (UInt8.ofNat x :: r, c)

/-- `decimal_to_binary` (abieos_numeric.hpp:57-73) on an array that starts as `acc`. -/
def decimalToBinaryLoop : Bytes → Bytes → Res Bytes
  | acc, [] => .ok acc
  | acc, c :: s =>
    if 48 ≤ c ∧ c ≤ 57 then
      let (r, carry) := mulTenAdd (c.toNat - 48) acc
      if carry ≠ 0 then .error .number_out_of_range else decimalToBinaryLoop r s
    else .error .expected_int

/-- `decimal_to_binary<size>` (abieos_numeric.hpp:57-73). -/
def decimalToBinary (size : Nat) (s : Bytes) : Res Bytes := decimalToBinaryLoop (List.replicate size 0) s

/-- inner loop of `binary_to_decimal` (abieos_numeric.hpp:80-84): multiply the decimal digits (least significant
first) by 256 and add; returns the final carry. -/
def mul256Add : (carry : Nat) → Bytes → Bytes × Nat
  | carry, [] => ([], carry)
  | carry, c :: s =>
    let x := ((c.toNat - 48) <<< 8) + carry
    let (r, k) := mul256Add (x / 10) s
    (UInt8.ofNat (48 + x % 10) :: r, k)

/-- `while (carry) { push_back('0' + carry % 10); carry /= 10; }` (abieos_numeric.hpp:85-88). -/
def pushCarry (carry : Nat) : Bytes :=
  if _h : carry = 0 then [] else UInt8.ofNat (48 + carry % 10) :: pushCarry (carry / 10)
termination_by carry

/-- outer loop of `binary_to_decimal`, over the bytes from the most significant. -/
def binaryToDecimalLoop : Bytes → Bytes → Bytes
  | digits, [] => digits
  | digits, b :: s =>
    let (r, k) := mul256Add b.toNat digits
    binaryToDecimalLoop (r ++ pushCarry k) s

/-- `binary_to_decimal` (abieos_numeric.hpp:75-92). -/
def binaryToDecimal (bin : Bytes) : Bytes := (binaryToDecimalLoop [48] bin.reverse).reverse

/-- `from_json(uint128&)` without native 128-bit integers (src/abieos.hpp:413-415). -/
def u128FromJson (s : Bytes) : Res Bytes := decimalToBinary 16 s

/-- `from_json(int128&)` without native 128-bit integers (src/abieos.hpp:417-428). -/
def i128FromJson (s : Bytes) : Res Bytes := do
  match s with
  | 45 :: s' =>
    let d ← decimalToBinary 16 s'
    let d := negate d
    check (isNegative d) .number_out_of_range
    return d
  | _ =>
    let d ← decimalToBinary 16 s
    check (!isNegative d) .number_out_of_range
    return d

/-- `to_json(uint128)`, `to_json(int128)` without native 128-bit integers (src/abieos.hpp:430-447), text between the quotes. -/
def u128Text (d : Bytes) : Bytes := binaryToDecimal d
def i128Text (d : Bytes) : Bytes := if isNegative d then 45 :: binaryToDecimal (negate d) else binaryToDecimal d

end Abieos
