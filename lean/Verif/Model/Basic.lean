/-
Common vocabulary of the model: byte strings, error codes, input streams.
-/
namespace Abieos

/-- A `std::vector<char>` / `std::string` / `char*` range: a finite sequence of octets. -/
abbrev Bytes := List UInt8

/-- Texts passed to `eosio::check` directly (include/eosio/asset.hpp, symbol.hpp, time.hpp, src/abieos.hpp). -/
inductive Msg
  | blockTimestampOverflow
  | onlyUppercaseLettersAllowedInSymbolCodeString
  | stringIsTooLongToBeAValidSymbolCode
  | magnitudeOfAssetAmountMustBeLessThan262
  | invalidSymbolName
  | attemptToSubtractAssetWithDifferentSymbol
  | subtractionUnderflow
  | subtractionOverflow
  | attemptToAddAssetWithDifferentSymbol
  | additionUnderflow
  | additionOverflow
  | multiplicationOverflow
  | multiplicationUnderflow
  | divideByZero
  | signedDivisionOverflow
  | comparisonOfAssetsWithDifferentSymbolsIsNotAllowed
  | typeMismatch
  | extraData
  | recursionLimitReached
  deriving DecidableEq, Repr, Inhabited

/-- The text itself. -/
def Msg.str : Msg → String
  | .blockTimestampOverflow => "block timestamp overflow"
  | .onlyUppercaseLettersAllowedInSymbolCodeString => "only uppercase letters allowed in symbol_code string"
  | .stringIsTooLongToBeAValidSymbolCode => "string is too long to be a valid symbol_code"
  | .magnitudeOfAssetAmountMustBeLessThan262 => "magnitude of asset amount must be less than 2^62"
  | .invalidSymbolName => "invalid symbol name"
  | .attemptToSubtractAssetWithDifferentSymbol => "attempt to subtract asset with different symbol"
  | .subtractionUnderflow => "subtraction underflow"
  | .subtractionOverflow => "subtraction overflow"
  | .attemptToAddAssetWithDifferentSymbol => "attempt to add asset with different symbol"
  | .additionUnderflow => "addition underflow"
  | .additionOverflow => "addition overflow"
  | .multiplicationOverflow => "multiplication overflow"
  | .multiplicationUnderflow => "multiplication underflow"
  | .divideByZero => "divide by zero"
  | .signedDivisionOverflow => "signed division overflow"
  | .comparisonOfAssetsWithDifferentSymbolsIsNotAllowed => "comparison of assets with different symbols is not allowed"
  | .typeMismatch => "type mismatch"
  | .extraData => "extra data"
  | .recursionLimitReached => "recursion limit reached"

/-- Error codes. `stream_error` (include/eosio/stream.hpp:14-29), `from_json_error`
(include/eosio/from_json.hpp), `abi_error` (include/eosio/abi.hpp) and a few texts thrown by `eosio::check`.
`ub` marks a point where the C++ would have undefined behaviour; `alloc` marks `std::length_error` /
`std::bad_alloc` from a container resize. -/
inductive Err
  -- stream_error
  | overrun | underrun | float_error | varuint_too_big | invalid_varuint_encoding | bad_variant_index
  | invalid_asset_format | array_size_mismatch | invalid_name_char | invalid_name_char13 | name_too_long
  | json_writer_error
  -- from_json_error
  | expected_end | expected_null | expected_start_object | expected_key | expected_end_object
  | expected_start_array | expected_end_array | expected_positive_uint | expected_field | unexpected_field
  | number_out_of_range | expected_bool | expected_string | expected_hex_string | invalid_type_for_variant
  | expected_variant | expected_int | expected_number | expected_symbol_code | expected_symbol
  | expected_asset | expected_time_point | expected_public_key | expected_private_key | expected_signature
  | invalid_signature | invalid_name | unspecific_syntax_error | hex_string_incorrect_length
  | from_json_no_pair
  -- abi_error
  | recursion_limit_reached | invalid_nesting | unknown_type | missing_name | redefined_type
  | base_not_a_struct | extension_typedef | bad_abi
  -- other
  | text (m : Msg) | alloc | ub
  deriving DecidableEq, Repr, Inhabited

/-- Result of an operation that may throw. -/
abbrev Res (α : Type) := Except Err α

instance {α : Type} [DecidableEq α] : DecidableEq (Res α) := fun a b =>
  match a, b with
  | .ok x, .ok y => if h : x = y then isTrue (h ▸ rfl) else isFalse (fun e => h (Except.ok.inj e))
  | .error x, .error y => if h : x = y then isTrue (h ▸ rfl) else isFalse (fun e => h (Except.error.inj e))
  | .ok _, .error _ => isFalse (fun e => nomatch e)
  | .error _, .ok _ => isFalse (fun e => nomatch e)

/-- `eosio::check(cond, msg)` (include/eosio/check.hpp): throw `e` unless `c`. -/
def check (c : Bool) (e : Err) : Res Unit := if c then .ok () else .error e

/-- A reader: consumes a prefix of an `input_stream` (include/eosio/stream.hpp:187-229).
The stream `{pos, end}` is modelled by the bytes in `[pos, end)`. -/
abbrev Reader (α : Type) := Bytes → Res (α × Bytes)

/-- `input_stream::read` / `read_reuse_storage` (include/eosio/stream.hpp:208-228):
fail with `overrun` if fewer than `n` bytes remain, else return them and advance. -/
def readBytes (n : Nat) : Reader Bytes := fun s =>
  if n ≤ s.length then .ok (s.take n, s.drop n) else .error .overrun

/-- `from_bin(uint8_t&)` (include/eosio/from_bin.hpp:236-239 with sizeof 1): one octet. -/
def readU8 : Reader UInt8
  | [] => .error .overrun
  | b :: s => .ok (b, s)

/-- The object representation of an `n`-byte unsigned integer on a little-endian machine: its bytes, least significant first.
This is what `write_raw` / `read_raw` copy (include/eosio/stream.hpp:107-111, 202-206). -/
def leBytes : Nat → Nat → Bytes
  | 0, _ => []
  | n + 1, v => UInt8.ofNat (v % 256) :: leBytes n (v / 256)

@[simp] theorem bind_ok {α β : Type} (a : α) (f : α → Res β) : (Except.ok a >>= f) = f a := rfl
@[simp] theorem bind_error {α β : Type} (e : Err) (f : α → Res β) : ((Except.error e : Res α) >>= f) = Except.error e := rfl
@[simp] theorem check_true (e : Err) : check true e = .ok () := rfl
@[simp] theorem check_false (e : Err) : check false e = .error e := rfl

/-- inversion of a successful bind -/
theorem bind_eq_ok {α β : Type} {x : Res α} {f : α → Res β} {b : β} :
    (x >>= f) = .ok b ↔ ∃ a, x = .ok a ∧ f a = .ok b := by
  cases x <;> simp

theorem check_eq_ok {c : Bool} {e : Err} {u : Unit} : check c e = .ok u ↔ c = true := by
  cases c <;> simp [check]

theorem readBytes_append (n : Nat) (a b : Bytes) (h : a.length = n) : readBytes n (a ++ b) = .ok (a, b) := by
  subst h; simp [readBytes]

theorem readBytes_ok {n : Nat} {s a r : Bytes} (h : readBytes n s = .ok (a, r)) :
    s = a ++ r ∧ a.length = n := by
  unfold readBytes at h
  split at h
  · simp only [Except.ok.injEq, Prod.mk.injEq] at h
    obtain ⟨rfl, rfl⟩ := h
    simp; omega
  · simp at h

theorem readU8_ok {s r : Bytes} {b : UInt8} (h : readU8 s = .ok (b, r)) : s = b :: r := by
  cases s with
  | nil => simp [readU8] at h
  | cons x xs => simp [readU8] at h; simp [h]

end Abieos
