import Verif.Model.Basic
import Verif.Model.Hex
/-
Base58 (src/crypto.cpp:24-84).
-/
namespace Abieos

/-- `base58_chars` (src/crypto.cpp:24). -/
def base58Chars : Bytes := str "123456789ABCDEFGHJKLMNPQRSTUVWXYZabcdefghijkmnopqrstuvwxyz"

/-- `base58_chars[i]`. -/
def base58Char (i : Nat) : UInt8 := base58Chars.getD i 0

/-- `base58_map` (src/crypto.cpp:26-35). `sizeof(base58_chars)` counts the terminating NUL, so the NUL character is given
the value 58. -/
@[irreducible] def base58Map (c : UInt8) : Option Nat := (base58Chars ++ [0]).idxOf? c

/-- The inner loop of `base58_to_binary` (src/crypto.cpp:44-49): multiply the little-endian number by 58 and add. `x` stays
below 2^15. -/
def mul58Add : (carry : Nat) → Bytes → Bytes × Nat
  | carry, [] => ([], carry)
  | carry, b :: s =>
    let x := b.toNat * 58 + carry
    let r := mul58Add (x >>> 8) s
    (UInt8.ofNat x :: r.1, r.2)

/-- The outer loop of `base58_to_binary` (src/crypto.cpp:40-52), on the part of the container after `offset`. -/
def base58Loop : Bytes → Bytes → Res Bytes
  | acc, [] => .ok acc
  | acc, c :: s =>
    match base58Map c with
    | none => .error .expected_key
    | some d =>
      let r := mul58Add d acc
      base58Loop (if r.2 ≠ 0 then r.1 ++ [UInt8.ofNat r.2] else r.1) s

/-- The leading `1` characters (src/crypto.cpp:53-57): one zero byte each. -/
def leadingOnes : Bytes → Bytes
  | [] => []
  | c :: s => if c = 49 then 0 :: leadingOnes s else []

/-- `base58_to_binary` (src/crypto.cpp:38-59) and `from_base58` (src/crypto.cpp:210-214): the bytes appended. -/
def fromBase58 (s : Bytes) : Res Bytes := do
  let acc ← base58Loop [] s
  .ok (acc ++ leadingOnes s).reverse

/-- The inner loop of `binary_to_base58` (src/crypto.cpp:67-71): multiply the number in base 58 digits by 256 and add. The
digits are characters. `base58_map` of a character written before is not -1. -/
def mul256Add58 : (carry : Nat) → Bytes → Bytes × Nat
  | carry, [] => ([], carry)
  | carry, c :: s =>
    let x := ((base58Map c).getD 0 <<< 8) + carry
    let r := mul256Add58 (x / 58) s
    (base58Char (x % 58) :: r.1, r.2)

/-- `while (carry) push_back(...)` (src/crypto.cpp:72-75). -/
def pushCarry58 (carry : Nat) : Bytes :=
  if carry = 0 then [] else base58Char (carry % 58) :: pushCarry58 (carry / 58)
termination_by carry

/-- The outer loop of `binary_to_base58` (src/crypto.cpp:64-76). -/
def toBase58Loop : Bytes → Bytes → Bytes
  | acc, [] => acc
  | acc, b :: s =>
    let r := mul256Add58 b.toNat acc
    toBase58Loop (r.1 ++ pushCarry58 r.2) s

/-- The leading zero bytes (src/crypto.cpp:77-81): one `1` character each. -/
def leadingZeros : Bytes → Bytes
  | [] => []
  | b :: s => if b ≠ 0 then [] else 49 :: leadingZeros s

/-- `binary_to_base58` (src/crypto.cpp:61-84) and `to_base58` (src/crypto.cpp:206-208). -/
def toBase58 (bin : Bytes) : Bytes := (toBase58Loop [] bin ++ leadingZeros bin).reverse

end Abieos
