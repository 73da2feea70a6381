import Verif.Model.Basic
import Verif.Model.JsonInt
/-
Symbols and assets: texts (include/eosio/chain_conversions.hpp:336-448) and arithmetic (include/eosio/symbol.hpp,
include/eosio/asset.hpp). Raw symbol values are `uint64_t`: natural numbers below 2^64.
-/
namespace Abieos

/-- `*pos >= 'A' && *pos <= 'Z'`. -/
def isLetter (c : UInt8) : Bool := 65 ≤ c && c ≤ 90

/-- `*pos >= '0' && *pos <= '9'`. -/
def isDigitC (c : UInt8) : Bool := 48 ≤ c && c ≤ 57

/-- `while (pos != end && *pos == ' ') ++pos` (include/eosio/chain_conversions.hpp:337, 393). -/
def skipBlanks : Bytes → Bytes
  | [] => []
  | c :: s => if c = 32 then skipBlanks s else c :: s

/-- The letter loop of `string_to_symbol_code` (include/eosio/chain_conversions.hpp:340-344): the value, the number of
letters, the unread text. -/
def symbolCodeLoop (result i : Nat) : Bytes → Option (Nat × Nat × Bytes)
  | [] => some (result, i, [])
  | c :: s =>
    if isLetter c then
      if i ≥ 7 then none else symbolCodeLoop (result ||| (c.toNat <<< (8 * i))) (i + 1) s
    else some (result, i, c :: s)

/-- `string_to_symbol_code` with `require_end` (include/eosio/chain_conversions.hpp:336-350). -/
def stringToSymbolCode (s : Bytes) : Option Nat := do
  let (result, i, s) ← symbolCodeLoop 0 0 (skipBlanks s)
  if i ≠ 0 ∧ s = [] then some result else none

/-- `symbol_code_to_string` (include/eosio/chain_conversions.hpp:352-359). -/
def symbolCodeToString (v : Nat) : Bytes :=
  if _h : v > 0 then UInt8.ofNat (v &&& 0xff) :: symbolCodeToString (v >>> 8) else []
termination_by v
decreasing_by rw [Nat.shiftRight_eq_div_pow]; omega

/-- A `uint8_t` accumulator for decimal digits. (Irreducible only to keep unification fast.) -/
@[irreducible] def precStep (p : Nat) (c : UInt8) : Nat := (p * 10 + (c.toNat - 48)) % 256

/-- The digit loop of `string_to_symbol` (include/eosio/chain_conversions.hpp:369-376): `precision` is a `uint8_t`. -/
def precisionLoop (precision : Nat) (found : Bool) : Bytes → Nat × Bool × Bytes
  | [] => (precision, found, [])
  | c :: s => if isDigitC c then precisionLoop (precStep precision c) true s else (precision, found, c :: s)

/-- `string_to_symbol` with `require_end` (include/eosio/chain_conversions.hpp:361-384). -/
def stringToSymbol (s : Bytes) : Option Nat :=
  match precisionLoop 0 false s with
  | (precision, found, s) =>
    if !found then none
    else match s with
      | [] => none
      | c :: s =>
        if c ≠ 44 then none
        else (stringToSymbolCode s).map fun code => ((code <<< 8) ||| precision) % 2 ^ 64

/-- `symbol_to_string` (include/eosio/chain_conversions.hpp:386-388). -/
def symbolToString (v : Nat) : Bytes := (decRev (v &&& 0xff)).reverse ++ 44 :: symbolCodeToString (v >>> 8)

/-! ### symbol_code and symbol -/

/-- The inner loop of `symbol_code::is_valid` (include/eosio/symbol.hpp:80-85), run `k` times. -/
def restIsZero (sym : Nat) : Nat → Bool
  | 0 => true
  | k + 1 => if (sym >>> 8) &&& 0xff ≠ 0 then false else restIsZero (sym >>> 8) k

/-- The outer loop of `symbol_code::is_valid` (include/eosio/symbol.hpp:75-89) with `k = 7 - i` rounds left. The inner
`do … while (i < 7)` runs `7 - i` times and ends the outer loop. -/
def isValidLoop (sym : Nat) : Nat → Bool
  | 0 => true
  | k + 1 =>
    if !isLetter (UInt8.ofNat (sym &&& 0xff)) then false
    else if (sym >>> 8) &&& 0xff = 0 then restIsZero (sym >>> 8) (k + 1)
    else isValidLoop (sym >>> 8) k

/-- `symbol_code::is_valid` (include/eosio/symbol.hpp:73-90). -/
def symbolCodeIsValid (value : Nat) : Bool := isValidLoop value 7

/-- `symbol::is_valid` (include/eosio/symbol.hpp:217). -/
def symbolIsValid (value : Nat) : Bool := symbolCodeIsValid (value >>> 8)

/-- The loop of `symbol_code::length` (include/eosio/symbol.hpp:97-105) with `k` rounds left (at most 8). -/
def symbolLengthLoop (sym len : Nat) : Nat → Nat
  | 0 => len
  | k + 1 => if sym &&& 0xff ≠ 0 then symbolLengthLoop (sym >>> 8) (len + 1) k else len

/-- `symbol_code::length` (include/eosio/symbol.hpp:97-105). -/
def symbolCodeLength (value : Nat) : Nat := symbolLengthLoop value 0 8

/-- The loop of the `symbol_code` constructor (include/eosio/symbol.hpp:60-66), over the reversed text. -/
def symbolCodeCtorLoop (value : Nat) : Bytes → Res Nat
  | [] => .ok value
  | c :: s => if isLetter c then symbolCodeCtorLoop ((value <<< 8) ||| c.toNat) s
      else .error (.text .onlyUppercaseLettersAllowedInSymbolCodeString)

/-- `symbol_code(std::string_view)` (include/eosio/symbol.hpp:56-67). -/
def symbolCodeCtor (s : Bytes) : Res Nat :=
  if s.length > 7 then .error (.text .stringIsTooLongToBeAValidSymbolCode) else symbolCodeCtorLoop 0 s.reverse

/-! ### asset texts -/

/-- A `uint64_t` accumulator for decimal digits. (Irreducible only to keep unification fast.) -/
@[irreducible] def amountStep (u : Nat) (c : UInt8) : Nat := (u * 10 + (c.toNat - 48)) % 2 ^ 64

/-- The digit loops of `string_to_asset` (include/eosio/chain_conversions.hpp:402-410): the amount, the number of digits,
the unread text. -/
def amountLoop (u n : Nat) : Bytes → Nat × Nat × Bytes
  | [] => (u, n, [])
  | c :: s => if isDigitC c then amountLoop (amountStep u c) (n + 1) s else (u, n, c :: s)

/-- An `int64_t` from a `uint64_t`. -/
def toI64 (u : Nat) : Int := if u < 2 ^ 63 then u else (u : Int) - 2 ^ 64

/-- The optional minus sign of `string_to_asset` (include/eosio/chain_conversions.hpp:398-401). -/
def assetSign : Bytes → Bool × Bytes
  | [] => (false, [])
  | c :: s => if c = 45 then (true, s) else (false, c :: s)

/-- The optional fraction of `string_to_asset` (include/eosio/chain_conversions.hpp:404-410). -/
def assetFraction (u : Nat) : Bytes → Nat × Nat × Bytes
  | [] => (u, 0, [])
  | c :: s => if c = 46 then amountLoop u 0 s else (u, 0, c :: s)

/-- `string_to_asset` with `expect_end` (include/eosio/chain_conversions.hpp:390-423): amount and symbol. `uamount` is a
`uint64_t`, `precision` a `uint8_t`. -/
def stringToAsset (s : Bytes) : Option (Int × Nat) :=
  match assetSign (skipBlanks s) with
  | (negative, s) =>
    match amountLoop 0 0 s with
    | (u, _, s) =>
      match assetFraction u s with
      | (u, n, s) =>
        match stringToSymbolCode s with
        | none => none
        | some code => some (toI64 (if negative then (2 ^ 64 - u) % 2 ^ 64 else u), ((code <<< 8) ||| (n % 256)) % 2 ^ 64)

/-- The first loop of `asset_to_string` (include/eosio/chain_conversions.hpp:434-437): the digits in the order they are
pushed, and the remaining amount. -/
def fractionDigits (u : Nat) : Nat → Bytes × Nat
  | 0 => ([], u)
  | p + 1 => let r := fractionDigits (u / 10) p; (UInt8.ofNat (48 + u % 10) :: r.1, r.2)

/-- `asset_to_string` (include/eosio/chain_conversions.hpp:425-448). `-amount` overflows for the smallest `int64_t`. -/
def assetToString (amount : Int) (symbol : Nat) : Res Bytes :=
  if amount = -2 ^ 63 then .error .ub
  else
    let u := amount.natAbs
    let p := symbol % 256
    let (digits, u) := fractionDigits u p
    let result := (if p ≠ 0 then digits ++ [46] else []) ++ decRev u ++ (if amount < 0 then [45] else [])
    .ok (result.reverse ++ 32 :: symbolCodeToString (symbol >>> 8))

/-! ### asset arithmetic -/

/-- `asset` (include/eosio/asset.hpp:26-35). -/
structure Asset where
  amount : Int
  symbol : Nat
  deriving DecidableEq, Repr

/-- `asset::max_amount` (include/eosio/asset.hpp:40). -/
def maxAmount : Int := 2 ^ 62 - 1

/-- An `int64_t` operation: signed overflow is undefined. -/
def int64 (x : Int) : Res Int := if -2 ^ 63 ≤ x ∧ x < 2 ^ 63 then .ok x else .error .ub

/-- An `__int128` operation. -/
def int128 (x : Int) : Res Int := if -2 ^ 127 ≤ x ∧ x < 2 ^ 127 then .ok x else .error .ub

/-- `asset(int64_t, symbol)` (include/eosio/asset.hpp:50-53). -/
def assetCtor (a : Int) (s : Nat) : Res Asset := do
  check (decide (-maxAmount ≤ a ∧ a ≤ maxAmount)) (.text .magnitudeOfAssetAmountMustBeLessThan262)
  check (symbolIsValid s) (.text .invalidSymbolName)
  .ok ⟨a, s⟩

/-- `asset::operator-()` (include/eosio/asset.hpp:88-92). -/
def assetNeg (x : Asset) : Res Asset := do
  let a ← int64 (-x.amount)
  .ok ⟨a, x.symbol⟩

/-- `asset::operator-=` (include/eosio/asset.hpp:101-107) as a function on values: what `a - b` returns
(include/eosio/asset.hpp:144-148). When a check fails after the subtraction the exception leaves the changed amount in the
object; this is modelled by `assetSubState`. -/
def assetSub (x a : Asset) : Res Asset := do
  check (a.symbol == x.symbol) (.text .attemptToSubtractAssetWithDifferentSymbol)
  let r ← int64 (x.amount - a.amount)
  check (decide (-maxAmount ≤ r)) (.text .subtractionUnderflow)
  check (decide (r ≤ maxAmount)) (.text .subtractionOverflow)
  .ok ⟨r, x.symbol⟩

/-- `asset::operator+=` (include/eosio/asset.hpp:116-122) and `a + b` (include/eosio/asset.hpp:131-135). -/
def assetAdd (x a : Asset) : Res Asset := do
  check (a.symbol == x.symbol) (.text .attemptToAddAssetWithDifferentSymbol)
  let r ← int64 (x.amount + a.amount)
  check (decide (-maxAmount ≤ r)) (.text .additionUnderflow)
  check (decide (r ≤ maxAmount)) (.text .additionOverflow)
  .ok ⟨r, x.symbol⟩

/-- `asset::operator*=` (include/eosio/asset.hpp:160-166), with `__int128`. -/
def assetMul (x : Asset) (a : Int) : Res Asset := do
  let tmp ← int128 (x.amount * a)
  check (decide (tmp ≤ maxAmount)) (.text .multiplicationOverflow)
  check (decide (-maxAmount ≤ tmp)) (.text .multiplicationUnderflow)
  .ok ⟨tmp, x.symbol⟩

/-- `asset::operator/=` (include/eosio/asset.hpp:209-214). C++ division truncates toward zero. -/
def assetDiv (x : Asset) (a : Int) : Res Asset := do
  check (decide (a ≠ 0)) (.text .divideByZero)
  check (!decide (x.amount = -2 ^ 63 ∧ a = -1)) (.text .signedDivisionOverflow)
  let r ← int64 (x.amount.tdiv a)
  .ok ⟨r, x.symbol⟩

/-- `operator/(asset, asset)` (include/eosio/asset.hpp:237-241). -/
def assetDivAsset (a b : Asset) : Res Int := do
  check (decide (b.amount ≠ 0)) (.text .divideByZero)
  check (a.symbol == b.symbol) (.text .comparisonOfAssetsWithDifferentSymbolsIsNotAllowed)
  int64 (a.amount.tdiv b.amount)

/-- `operator<` and the other comparisons (include/eosio/asset.hpp:252-322), by the comparison of the amounts. -/
def assetCompare (f : Int → Int → Bool) (a b : Asset) : Res Bool := do
  check (a.symbol == b.symbol) (.text .comparisonOfAssetsWithDifferentSymbolsIsNotAllowed)
  .ok (f a.amount b.amount)

/-- What the object holds after `x += a`, also when it throws (include/eosio/asset.hpp:116-122). -/
def assetAddState (x a : Asset) : Asset := if a.symbol == x.symbol then ⟨x.amount + a.amount, x.symbol⟩ else x

/-- What the object holds after `x -= a`, also when it throws (include/eosio/asset.hpp:101-107). -/
def assetSubState (x a : Asset) : Asset := if a.symbol == x.symbol then ⟨x.amount - a.amount, x.symbol⟩ else x

/-- The operations on an asset, as they may follow each other. -/
inductive AssetOp
  | add (a : Asset) | sub (a : Asset) | mul (a : Int) | div (a : Int) | neg
  deriving Repr

/-- One operation. -/
def AssetOp.run (x : Asset) : AssetOp → Res Asset
  | .add a => assetAdd x a
  | .sub a => assetSub x a
  | .mul a => assetMul x a
  | .div a => assetDiv x a
  | .neg => assetNeg x

/-- A sequence of operations, ended by the first exception. -/
def AssetOp.runAll (x : Asset) : List AssetOp → Res Asset
  | [] => .ok x
  | o :: os => do
    let y ← o.run x
    AssetOp.runAll y os

/-- `extended_asset` (include/eosio/asset.hpp:362-380). -/
structure ExtAsset where
  quantity : Asset
  contract : Nat
  deriving DecidableEq, Repr

/-- `operator+(extended_asset, extended_asset)` (include/eosio/asset.hpp:406-409). -/
def extAdd (a b : ExtAsset) : Res ExtAsset := do
  check (a.contract == b.contract) (.text .typeMismatch)
  let q ← assetAdd a.quantity b.quantity
  .ok ⟨q, a.contract⟩

/-- `operator-(extended_asset, extended_asset)` (include/eosio/asset.hpp:400-403). -/
def extSub (a b : ExtAsset) : Res ExtAsset := do
  check (a.contract == b.contract) (.text .typeMismatch)
  let q ← assetSub a.quantity b.quantity
  .ok ⟨q, a.contract⟩

/-- `operator<` and `<=`, `>=` on extended assets (include/eosio/asset.hpp:426-451). -/
def extCompare (f : Int → Int → Bool) (a b : ExtAsset) : Res Bool := do
  check (a.contract == b.contract) (.text .typeMismatch)
  assetCompare f a.quantity b.quantity

/-- `operator-()` on an extended asset (include/eosio/asset.hpp:397). -/
def extNeg (a : ExtAsset) : Res ExtAsset := do
  let q ← assetNeg a.quantity
  .ok ⟨q, a.contract⟩

/-- `operator==` on extended assets (include/eosio/asset.hpp:432-434): first the quantities, by the comparison that throws for
different symbols, then the contracts. `operator!=` (include/eosio/asset.hpp:437-439) is its negation. -/
def extEqual (a b : ExtAsset) : Res Bool := do
  let q ← assetCompare (· == ·) a.quantity b.quantity
  .ok (q && a.contract == b.contract)

end Abieos
