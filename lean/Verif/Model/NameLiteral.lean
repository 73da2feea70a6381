import Verif.Model.Name
/-
Names known at compile time: `"..."_n` and `name::char_to_value`.
-/
namespace Abieos

/-- `string_to_name_strict_impl<N, ValueSoFar, C, Rest...>` (include/eosio/chain_conversions.hpp:157-168). `none`: a `static_assert` fails (also the one in
`char_to_name_digit_strict<C>`, chain_conversions.hpp:128-137), and the program does not compile. -/
def nameLiteralImpl : (n value : Nat) → (c : UInt8) → (rest : Bytes) → Option Nat
  | n, value, c, rest =>
    match charToNameDigitStrict c with
    | none => none
    | some x =>
      if n = 12 ∧ x &&& 0xf ≠ x then none
      else match rest with
        | c' :: rest' => nameLiteralImpl (n + 1) (value ||| (x &&& 0x1f) <<< (64 - 5 * (n + 1))) c' rest'
        | [] => some (value ||| (x &&& 0x1f) <<< (64 + (if n = 12 then 1 else 0) - 5 * (n + 1)))

/-- `string_to_name_strict<Str...>` (include/eosio/chain_conversions.hpp:170-177), which `operator""_n` calls (include/eosio/name.hpp:166-168). -/
def nameLiteral (s : Bytes) : Option Nat :=
  if s.length ≤ 13 then
    match s with
    | [] => some 0
    | c :: rest => nameLiteralImpl 0 0 c rest
  else none

/-- `name::char_to_value` (include/eosio/name.hpp:39-50) -/
def charToValue (c : UInt8) : Res Nat :=
  if c = 46 then .ok 0
  else if 49 ≤ c ∧ c ≤ 53 then .ok (c.toNat - 49 + 1)
  else if 97 ≤ c ∧ c ≤ 122 then .ok (c.toNat - 97 + 6)
  else .error .invalid_name_char

end Abieos
