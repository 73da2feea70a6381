import Verif.Model.Hex
namespace Abieos

/-- `char_to_name_digit` (include/eosio/chain_conversions.hpp:95-101). -/
def charToNameDigit (c : UInt8) : Nat :=
  if 97 ≤ c ∧ c ≤ 122 then c.toNat - 97 + 6
  else if 49 ≤ c ∧ c ≤ 53 then c.toNat - 49 + 1
  else 0

/-- `char_to_name_digit_strict(char, uint64_t&)` (chain_conversions.hpp:139-155). -/
def charToNameDigitStrict (c : UInt8) : Option Nat :=
  if 97 ≤ c ∧ c ≤ 122 then some (c.toNat - 97 + 6)
  else if 49 ≤ c ∧ c ≤ 53 then some (c.toNat - 49 + 1)
  else if c = 46 then some 0
  else none

/-- Loop of `string_to_name(const char*, int)` (chain_conversions.hpp:103-110) from index `i`:
twelve 5-bit digits from the top, then 4 bits of the 13th; later characters are ignored.
(Simplification: sizes ≥ 2^31, where the `int size` parameter would be negative, are not considered.) -/
def stringToNameLoop : (i name : Nat) → Bytes → Nat
  | _, name, [] => name
  | i, name, c :: s =>
    if i < 12 then stringToNameLoop (i + 1) (name ||| ((charToNameDigit c &&& 0x1f) <<< (64 - 5 * (i + 1)))) s
    else name ||| (charToNameDigit c &&& 0x0f)

/-- `string_to_name(std::string_view)` (chain_conversions.hpp:103-122). -/
def stringToName (s : Bytes) : Nat := stringToNameLoop 0 0 s

/-- `try_string_to_name_strict` (chain_conversions.hpp:190-208) from index `i`. -/
def stringToNameStrictLoop : (i name : Nat) → Bytes → Res Nat
  | _, name, [] => .ok name
  | i, name, c :: s =>
    if i < 12 then
      match charToNameDigitStrict c with
      | none => .error .invalid_name_char
      | some x => stringToNameStrictLoop (i + 1) (name ||| ((x &&& 0x1f) <<< (64 - 5 * (i + 1)))) s
    else
      match charToNameDigitStrict c with
      | none => .error .invalid_name_char
      | some x =>
        if x ≠ x &&& 0xf then .error .invalid_name_char13
        else match s with
          | [] => .ok (name ||| x)
          | _ :: _ => .error .name_too_long

/-- `string_to_name_strict(std::string_view)` (chain_conversions.hpp:190-214). -/
def stringToNameStrict (s : Bytes) : Res Nat := stringToNameStrictLoop 0 0 s

/-- `charmap` of `name_to_string` (chain_conversions.hpp:217): ".12345abcdefghijklmnopqrstuvwxyz". -/
def nameCharmap : List UInt8 :=
  [46, 49, 50, 51, 52, 53, 97, 98, 99, 100, 101, 102, 103, 104, 105, 106, 107, 108, 109, 110, 111, 112, 113, 114,
   115, 116, 117, 118, 119, 120, 121, 122]

/-- Loop of `name_to_string` (chain_conversions.hpp:220-225); `n` iterations are left, filling the string from the
right. -/
def nameToStringLoop : (n : Nat) → (first : Bool) → (tmp : Nat) → Bytes → Bytes
  | 0, _, _, acc => acc
  | n + 1, first, tmp, acc =>
    nameToStringLoop n false (tmp >>> (if first then 4 else 5))
      (nameCharmap.getD (tmp &&& (if first then 0x0f else 0x1f)) 0 :: acc)

/-- `str.substr(0, str.find_last_not_of('.') + 1)` (chain_conversions.hpp:227-228); when there is no such character
`npos + 1` is 0 and the result is empty. -/
def trimDots (s : Bytes) : Bytes := (s.reverse.dropWhile (· == 46)).reverse

/-- `name_to_string` (chain_conversions.hpp:216-229). -/
def nameToString (name : Nat) : Bytes := trimDots (nameToStringLoop 13 true name [])

/-- `name::length` (include/eosio/name.hpp:55-70). `uint64_t` shift drops high bits. -/
def nameLength (value : Nat) : Nat :=
  if value = 0 then 0
  else
    let rec go : (n i v l : Nat) → Nat
      | 0, _, _, l => l
      | n + 1, i, v, l => go n (i + 1) ((v <<< 5) % 2 ^ 64) (if v &&& 0xF800000000000000 > 0 then i else l)
    go 13 0 value 0 + 1

/-- Loop of `name::suffix` (include/eosio/name.hpp:77-87): `n` characters left, the next one is at bit
`59 - 5*(12-n)`; returns `(remaining_bits_after_last_actual_dot, tmp)`. -/
def nameSuffixLoop (value : Nat) : (n : Nat) → (last tmp : Nat) → Nat × Nat
  | 0, last, tmp => (last, tmp)
  | n + 1, last, tmp =>
    let rb := 5 * n + 4
    let c := (value >>> rb) &&& 0x1f
    if c = 0 then nameSuffixLoop value n last rb else nameSuffixLoop value n tmp tmp

/-- `name::suffix` (include/eosio/name.hpp:75-107). -/
def nameSuffix (value : Nat) : Nat :=
  let (last, tmp) := nameSuffixLoop value 12 0 0
  let c13 := value &&& 0xf
  let last := if c13 ≠ 0 then tmp else last
  if last = 0 then value
  else
    let mask := (1 <<< last) - 16
    let shift := 64 - last
    (((value &&& mask) <<< shift) % 2 ^ 64 + (c13 <<< (shift - 1)) % 2 ^ 64) % 2 ^ 64

/-- Loop of `name::prefix` (include/eosio/name.hpp:112-139): `k` is the number of the character from the right
(0 is the 13th), at bit offset 0, 4, 9, ..., 59; `n` iterations left. -/
def namePrefixLoop (value : Nat) : (n : Nat) → (offset : Nat) → (seen : Bool) → Nat
  | 0, _, _ => value
  | n + 1, offset, seen =>
    let c := (value >>> offset) &&& (if offset = 0 then 0xf else 0x1f)
    if c = 0 then
      if seen then (value >>> offset) <<< offset
      else namePrefixLoop value n (if offset = 0 then 4 else offset + 5) seen
    else namePrefixLoop value n (if offset = 0 then 4 else offset + 5) true

/-- `name::prefix` (include/eosio/name.hpp:112-139). -/
def namePrefix (value : Nat) : Nat := namePrefixLoop value 13 0 false

end Abieos
