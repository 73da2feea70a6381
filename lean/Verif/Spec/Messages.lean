import Verif.Model.Hex
/-
Generated by tools/messages.py from the headers in /repo: the texts of the error codes, as `convert_stream_error`, `convert_json_error` and
`convert_abi_error` give them, and the texts passed to `eosio::check` directly. `no_error`, which is never thrown, is left out.
-/
namespace Abieos.Spec

/-- `convert_stream_error` (include/eosio/stream.hpp:35-46). -/
def streamMessages : List (Err × String) :=
  [(.overrun, "Stream overrun"),
   (.underrun, "Stream underrun"),
   (.float_error, "Float error"),
   (.varuint_too_big, "Varuint too big"),
   (.invalid_varuint_encoding, "Invalid varuint encoding"),
   (.bad_variant_index, "Bad variant index"),
   (.invalid_asset_format, "Invalid asset format"),
   (.array_size_mismatch, "T[] size and unpacked size don't match"),
   (.invalid_name_char, "character is not in allowed character set for names"),
   (.invalid_name_char13, "thirteenth character in name cannot be a letter that comes after j"),
   (.name_too_long, "string is too long to be a valid name"),
   (.json_writer_error, "Error writing json")]

/-- `convert_json_error` (include/eosio/from_json.hpp:72-118), the codes the library itself throws. -/
def jsonMessages : List (Err × String) :=
  [(.expected_end, "Expected end of json"),
   (.expected_null, "Expected null"),
   (.expected_bool, "Expected true or false"),
   (.expected_string, "Expected string"),
   (.expected_hex_string, "Expected string containing hex"),
   (.hex_string_incorrect_length, "Hex string has incorrect length"),
   (.invalid_signature, "Invalid signature format"),
   (.invalid_name, "Invalid name"),
   (.expected_start_object, "Expected {"),
   (.expected_key, "Expected key"),
   (.expected_end_object, "Expected }"),
   (.expected_start_array, "Expected ["),
   (.expected_end_array, "Expected ]"),
   (.expected_positive_uint, "Expected positive integer"),
   (.expected_field, "Expected field"),
   (.expected_variant, "Expected variant: [\"type\", value]"),
   (.expected_public_key, "Expected public key"),
   (.expected_private_key, "Expected private key"),
   (.expected_signature, "Expected signature"),
   (.expected_number, "Expected number or boolean"),
   (.expected_int, "Expected integer"),
   (.expected_time_point, "Expected time point"),
   (.expected_symbol_code, "Expected symbol code"),
   (.expected_symbol, "Expected symbol"),
   (.expected_asset, "Expected asset"),
   (.invalid_type_for_variant, "Invalid type for variant"),
   (.unexpected_field, "Unexpected field"),
   (.number_out_of_range, "number is out of range"),
   (.from_json_no_pair, "from_json does not support std::pair"),
   (.unspecific_syntax_error, "Unspecific syntax error")]

/-- `convert_abi_error` (include/eosio/abi.hpp:29-36). -/
def abiMessages : List (Err × String) :=
  [(.recursion_limit_reached, "Recursion limit reached"),
   (.invalid_nesting, "Invalid nesting"),
   (.unknown_type, "Unknown type"),
   (.missing_name, "Missing name"),
   (.redefined_type, "Redefined type"),
   (.base_not_a_struct, "Base not a struct"),
   (.extension_typedef, "Extension typedef"),
   (.bad_abi, "Bad ABI")]

/-- Texts passed to `eosio::check` (include/eosio/asset.hpp, symbol.hpp, time.hpp) and set while reading JSON (src/abieos.hpp). -/
def checkMessages : List (Err × String) :=
  [(.text .magnitudeOfAssetAmountMustBeLessThan262, "magnitude of asset amount must be less than 2^62"),
   (.text .invalidSymbolName, "invalid symbol name"),
   (.text .attemptToSubtractAssetWithDifferentSymbol, "attempt to subtract asset with different symbol"),
   (.text .subtractionUnderflow, "subtraction underflow"),
   (.text .subtractionOverflow, "subtraction overflow"),
   (.text .attemptToAddAssetWithDifferentSymbol, "attempt to add asset with different symbol"),
   (.text .additionUnderflow, "addition underflow"),
   (.text .additionOverflow, "addition overflow"),
   (.text .multiplicationOverflow, "multiplication overflow"),
   (.text .multiplicationUnderflow, "multiplication underflow"),
   (.text .divideByZero, "divide by zero"),
   (.text .signedDivisionOverflow, "signed division overflow"),
   (.text .comparisonOfAssetsWithDifferentSymbolsIsNotAllowed, "comparison of assets with different symbols is not allowed"),
   (.text .typeMismatch, "type mismatch"),
   (.text .stringIsTooLongToBeAValidSymbolCode, "string is too long to be a valid symbol_code"),
   (.text .onlyUppercaseLettersAllowedInSymbolCodeString, "only uppercase letters allowed in symbol_code string"),
   (.text .blockTimestampOverflow, "block timestamp overflow"),
   (.text .extraData, "extra data"),
   (.text .recursionLimitReached, "recursion limit reached")]

/-- The texts of the codes of the JSON reader: rapidjson's errors, in the order of the enumeration. -/
def readerMessages : List String :=
  ["The document is empty",
   "The document root must not follow by other values",
   "Invalid value",
   "Missing a name for object member",
   "Missing a colon after a name of object member",
   "Missing a comma or '}' after an object member",
   "Missing a comma or ']' after an array element",
   "Incorrect hex digit after \\u escape in string",
   "The surrogate pair in string is invalid",
   "Invalid escape character in string",
   "Missing a closing quotation mark in string",
   "Invalid encoding in string",
   "Number too big to be stored in double",
   "Miss fraction part in number",
   "Miss exponent in number",
   "Parsing was terminated",
   "Unspecific syntax error"]

/-- The text `w` is that of the error code `e`. -/
def MessageOf (e : Err) (w : Bytes) : Prop :=
  ∃ s : String, (e, s) ∈ streamMessages ++ jsonMessages ++ abiMessages ++ checkMessages ∧ w = str s

end Abieos.Spec
