import Verif.Model.AbiDefBin
import Verif.Model.AbiDefJson
import Verif.Model.Loader
import Verif.Model.Ordered
import Verif.Model.Reorder
import Verif.Model.Decode
import Verif.Model.Hex
import Verif.Model.Name
/-
The C interface (src/abieos.cpp, include/eosio/abieos.h): a context and the calls on it.
-/
namespace Abieos

/-! ## Texts of errors -/

/-- `e.what()` of the exception (include/eosio/stream.hpp:31-48, include/eosio/from_json.hpp:67-123, include/eosio/abi.hpp:28-39,
include/eosio/check.hpp:40-69). The text of an allocation failure is up to the C++ library. `ub` is not an exception; its text is
never used. -/
def Err.what : Err → String
  | .overrun => "Stream overrun" | .underrun => "Stream underrun" | .float_error => "Float error"
  | .varuint_too_big => "Varuint too big" | .invalid_varuint_encoding => "Invalid varuint encoding"
  | .bad_variant_index => "Bad variant index" | .invalid_asset_format => "Invalid asset format"
  | .array_size_mismatch => "T[] size and unpacked size don't match"
  | .invalid_name_char => "character is not in allowed character set for names"
  | .invalid_name_char13 => "thirteenth character in name cannot be a letter that comes after j"
  | .name_too_long => "string is too long to be a valid name" | .json_writer_error => "Error writing json"
  | .expected_end => "Expected end of json" | .expected_null => "Expected null" | .expected_bool => "Expected true or false"
  | .expected_string => "Expected string" | .expected_hex_string => "Expected string containing hex"
  | .hex_string_incorrect_length => "Hex string has incorrect length" | .invalid_signature => "Invalid signature format"
  | .invalid_name => "Invalid name" | .expected_start_object => "Expected {" | .expected_key => "Expected key"
  | .expected_end_object => "Expected }" | .expected_start_array => "Expected [" | .expected_end_array => "Expected ]"
  | .expected_positive_uint => "Expected positive integer" | .expected_field => "Expected field"
  | .expected_variant => "Expected variant: [\"type\", value]" | .expected_public_key => "Expected public key"
  | .expected_private_key => "Expected private key" | .expected_signature => "Expected signature"
  | .expected_number => "Expected number or boolean" | .expected_int => "Expected integer"
  | .expected_time_point => "Expected time point" | .expected_symbol_code => "Expected symbol code"
  | .expected_symbol => "Expected symbol" | .expected_asset => "Expected asset"
  | .invalid_type_for_variant => "Invalid type for variant" | .unexpected_field => "Unexpected field"
  | .number_out_of_range => "number is out of range" | .from_json_no_pair => "from_json does not support std::pair"
  | .unspecific_syntax_error => "Unspecific syntax error"
  | .recursion_limit_reached => "Recursion limit reached" | .invalid_nesting => "Invalid nesting"
  | .unknown_type => "Unknown type" | .missing_name => "Missing name" | .redefined_type => "Redefined type"
  | .base_not_a_struct => "Base not a struct" | .extension_typedef => "Extension typedef" | .bad_abi => "Bad ABI"
  | .text m => m.str | .alloc => "std::bad_alloc" | .ub => "undefined behaviour"

/-- The further texts with which a JSON text can be refused (include/eosio/from_json.hpp:102-118, 129-153). -/
def syntaxErrors : List String :=
  ["The document is empty", "The document root must not follow by other values", "Invalid value",
   "Missing a name for object member", "Missing a colon after a name of object member",
   "Missing a comma or '}' after an object member", "Missing a comma or ']' after an array element",
   "Incorrect hex digit after \\u escape in string", "The surrogate pair in string is invalid",
   "Invalid escape character in string", "Missing a closing quotation mark in string", "Invalid encoding in string",
   "Number too big to be stored in double", "Miss fraction part in number", "Miss exponent in number",
   "Parsing was terminated", "Unspecific syntax error"]

/-! ## The context -/

/-- `eosio::abi` (include/eosio/abi.hpp:197-210): types of actions and tables by name, and the map of types. The latest assignment to
`action_types[name]` comes first in the list, so that `List.lookup` finds it. -/
structure Abi where
  actions : List (Nat × Bytes)
  tables : List (Nat × Bytes)
  types : Table

/-- `abieos_context_s` (src/abieos.cpp:12-19). `lastError` is the text `last_error` points to. -/
structure Ctx where
  lastError : Bytes
  resultStr : Bytes
  resultBin : Bytes
  contracts : List (Nat × Abi)

/-- `new abieos_context{}` (src/abieos.cpp:51-59) -/
def Ctx.init : Ctx := ⟨[], [], [], []⟩

/-- `set_error(context, error)` (src/abieos.cpp:26-30) -/
def Ctx.setError (c : Ctx) (e : Bytes) : Ctx := { c with lastError := e }

/-- `context->contracts.insert({name{contract}, std::move(c)})`: no effect if the key is there. -/
def Ctx.insert (c : Ctx) (k : Nat) (a : Abi) : Ctx :=
  match c.contracts.lookup k with
  | some _ => c
  | none => { c with contracts := (k, a) :: c.contracts }

/-- The type table of a loaded contract becomes `T`: `get_type` may add to it. -/
def Ctx.setTypes (c : Ctx) (k : Nat) (T : Table) : Ctx :=
  { c with contracts := c.contracts.map fun e => if e.1 = k then (e.1, { e.2 with types := T }) else e }

/-! ## Calls -/

/-- A call, without the context. Texts are C strings: `none` is a null pointer. A `uint64_t` is a number. Data is a pointer with a
length. -/
inductive Call
  | getError | getBinSize | getBinData | getBinHex
  | stringToName (s : Option Bytes)
  | nameToString (n : Nat)
  | setAbi (contract : Nat) (abi : Option Bytes)
  | setAbiBin (contract : Nat) (data : Option Bytes)
  | setAbiHex (contract : Nat) (hex : Option Bytes)
  | typeForAction (contract action : Nat)
  | typeForTable (contract table : Nat)
  | jsonToBin (contract : Nat) (type json : Option Bytes)
  | jsonToBinReorderable (contract : Nat) (type json : Option Bytes)
  | binToJson (contract : Nat) (type data : Option Bytes)
  | hexToJson (contract : Nat) (type hex : Option Bytes)

/-- A returned value. `str none` and `data none` are null pointers. -/
inductive Ret
  | bool (b : Bool)
  | str (s : Option Bytes)
  | data (b : Option Bytes)
  | int (i : Int)
  | word (n : Nat)
  deriving DecidableEq

/-- How the function passed to `handle_exceptions` ends: it returns, throws, or the behaviour is undefined. -/
inductive Out
  | returns (c : Ctx) (r : Ret)
  | throws (c : Ctx) (what : Bytes)
  | undefined

/-- How a call ends. -/
inductive Outcome
  | done (c : Option Ctx) (r : Ret)
  | undefined

/-- The text of a C string: it ends at its first NUL. -/
def cut (s : Bytes) : Bytes := s.takeWhile (· ≠ 0)

/-- `fix_null_str` (src/abieos.cpp:21-24), and reading the argument as a C string. -/
def cstr : Option Bytes → Bytes
  | none => []
  | some s => cut s

/-- What is not part of the repository or is modelled elsewhere: the JSON reader, which yields the document if the text is well-formed,
and otherwise reports the beginning of the events of a document; and the conversions of builtin types. -/
structure Env where
  read : Bytes → Option JVal
  upTo : Bytes → List Tok
  leaves : Leaves
  cuts : ∀ text, read text = none → ∃ (v : JVal) (rest : List Tok), rest ≠ [] ∧ v.toks = upTo text ++ rest

/-- an exception with the error `e` -/
def failed (c : Ctx) (e : Err) : Out := if e = .ub then .undefined else .throws c (str e.what)

/-- What can happen when the JSON text is malformed. `e` is the error found in the events that come before the malformed place, if there
is one; otherwise `peek_token` throws with rapidjson's error (include/eosio/from_json.hpp:32-93, 199). Which of rapidjson's errors it is
is not modelled. -/
def Malformed (c : Ctx) (e : Option Err) (o : Out) : Prop :=
  match e with
  | some e => o = failed c e
  | none => ∃ m, m ∈ syntaxErrors ∧ o = .throws c (str m)

/-- The error of something that has only the events before the malformed place: `noToken` is the reader's. -/
def foundIn (e : Err) : Option Err := if e = noToken then none else some e

/-- `handle_exceptions` (src/abieos.cpp:32-49); `e.what()` ends up in `last_error`. -/
def Handled (errval : Ret) (c : Option Ctx) (f : Ctx → Out → Prop) (o : Outcome) : Prop :=
  match c with
  | none => o = .done none errval
  | some c => ∃ x, f c x ∧ o = match x with
    | .returns c' r => .done (some c') r
    | .throws c' w => .done (some (c'.setError w)) errval
    | .undefined => .undefined

/-! ## Loading -/

/-- `check_abi_version` (src/abieos.hpp:459-463) -/
def versionOk (v : Bytes) : Bool := v.take 13 == str "eosio::abi/1."

/-- `"contract \"" + name_to_string(contract) + "\" is not loaded"` -/
def notLoaded (k : Nat) : Bytes := str "contract \"" ++ nameToString k ++ str "\" is not loaded"

/-- `action_types` after the loop (src/abi.cpp:187-188) -/
def AbiDef.actionTypes (D : AbiDef) : List (Nat × Bytes) := (D.actions.map fun a => (a.name, a.type)).reverse

/-- `table_types` after the loop (src/abi.cpp:189-190) -/
def AbiDef.tableTypes (D : AbiDef) : List (Nat × Bytes) := (D.tables.map fun t => (t.name, t.type)).reverse

/-- `abi c; convert(def, c); contracts.insert(...); return true` (src/abieos.cpp:112-115, 133-136) -/
def Install (c : Ctx) (k : Nat) (D : AbiDef) (o : Out) : Prop :=
  ∃ r, LoadTypes D r ∧ o = match r with
    | .error e => failed c e
    | .ok T => .returns (c.insert k ⟨D.actionTypes, D.tableTypes, T⟩) (.bool true)

/-- body of `abieos_set_abi` (src/abieos.cpp:101-117). The reader refuses a text with anything but white space after the document, also
when it is read token by token. -/
def SetAbi (env : Env) (k : Nat) (text : Bytes) (c : Ctx) (o : Out) : Prop :=
  let c := c.setError (str "abi parse error")
  match env.read text with
  | none =>
    match abiDefFromJson (env.upTo text) with
    | .error e => Malformed c (foundIn e) o
    | .ok D =>
      if versionOk D.version then Install c k D o
      else o = .returns (c.setError (str "unsupported abi version")) (.bool false)
  | some v =>
    match abiDefFromJson v.toks with
    | .error e => o = failed c e
    | .ok D =>
      if versionOk D.version then Install c k D o
      else o = .returns (c.setError (str "unsupported abi version")) (.bool false)

/-- body of `abieos_set_abi_bin` (src/abieos.cpp:119-138). Bytes after the definition are ignored. -/
def SetAbiBin (k : Nat) (data : Bytes) (c : Ctx) (o : Out) : Prop :=
  let c := c.setError (str "abi parse error")
  if data = [] then o = .returns (c.setError (str "no data")) (.bool false)
  else
    match textFromBin data with
    | .error e => o = failed c e
    | .ok (version, _) =>
      if versionOk version then
        match abiDefFromBin data with
        | .error e => o = failed c e
        | .ok (D, _) => Install c k D o
      else o = .returns (c.setError (str "unsupported abi version")) (.bool false)

/-- `abieos_set_abi_bin` -/
def CallSetAbiBin (k : Nat) (data : Option Bytes) (c : Option Ctx) (o : Outcome) : Prop :=
  Handled (.bool false) c (SetAbiBin k (data.getD [])) o

/-- A call inside the function passed to `handle_exceptions`: it throws nothing. -/
def nested (o : Outcome) : Out :=
  match o with
  | .done (some c) r => .returns c r
  | _ => .undefined

/-- body of `abieos_set_abi_hex` (src/abieos.cpp:140-152) -/
def SetAbiHex (k : Nat) (hex : Bytes) (c : Ctx) (o : Out) : Prop :=
  match unhexLoop hex with
  | none => o = .returns (c.setError (str "expected hex string")) (.bool false)
  | some data => ∃ x, CallSetAbiBin k (some data) (some c) x ∧ o = nested x

/-! ## Queries and conversions -/

/-- `"contract \"" + name_to_string(contract) + "\" does not have action \"" + ... + "\""` -/
def noSuch (what : String) (k n : Nat) : Bytes :=
  str "contract \"" ++ nameToString k ++ str ("\" does not have " ++ what ++ " \"") ++ nameToString n ++ str "\""

/-- body of `abieos_get_type_for_action` (src/abieos.cpp:154-167) -/
def TypeForAction (k n : Nat) (c : Ctx) (o : Out) : Prop :=
  o = match c.contracts.lookup k with
    | none => .throws c (notLoaded k)
    | some a =>
      match a.actions.lookup n with
      | none => .throws c (noSuch "action" k n)
      | some t => .returns c (.str (some (cut t)))

/-- body of `abieos_get_type_for_table` (src/abieos.cpp:169-182) -/
def TypeForTable (k n : Nat) (c : Ctx) (o : Out) : Prop :=
  o = match c.contracts.lookup k with
    | none => .throws c (notLoaded k)
    | some a =>
      match a.tables.lookup n with
      | none => .throws c (noSuch "table" k n)
      | some t => .returns c (.str (some (cut t)))

/-- `json_to_bin` (src/abieos.hpp:739-768) with a malformed text: it reads the events as they come. If it ends before the malformed place,
`check(stream.complete(), ...)` (src/abieos.hpp:763) fails. -/
def OrderedBroken (T : Table) (L : Leaves) (ty : Ptr) (ts : List Tok) (e : Option Err) : Prop :=
  ∃ r, TokensToBin T L ty ts r ∧ e = match r with
    | .ok _ => some .expected_end
    | .error e => foundIn e

/-- `json_to_bin_reorderable` with a malformed text: `json_to_jvalue` (src/abieos.hpp:508-522) parses the text first and reports any failure
as `unspecific_syntax_error`. -/
def ReorderableBroken (_ : Table) (_ : Leaves) (_ : Ptr) (_ : List Tok) (e : Option Err) : Prop := e = some .unspecific_syntax_error

/-- body of `abieos_json_to_bin` (src/abieos.cpp:184-199) and `abieos_json_to_bin_reorderable` (src/abieos.cpp:201-216), which differ in
the conversion they call. -/
def ConvertJson (env : Env) (conv : Table → Leaves → Ptr → JVal → Res Bytes → Prop)
    (broken : Table → Leaves → Ptr → List Tok → Option Err → Prop) (k : Nat) (type json : Bytes) (c : Ctx) (o : Out) : Prop :=
  let c := c.setError (str "json parse error")
  match c.contracts.lookup k with
  | none => o = .returns (c.setError (notLoaded k)) (.bool false)
  | some a =>
    match lookupType type a.types with
    | (.error e, T) => o = failed (c.setTypes k T) e
    | (.ok p, T) =>
      let c := { c.setTypes k T with resultBin := [] }
      match env.read json with
      | none => ∃ e, broken T env.leaves p (env.upTo json) e ∧ Malformed c e o
      | some v => ∃ r, conv T env.leaves p v r ∧ o = match r with
        | .error e => failed c e
        | .ok b => .returns { c with resultBin := b } (.bool true)

/-- body of `abieos_bin_to_json` (src/abieos.cpp:218-238). For a contract that is not loaded the message goes to a local variable. -/
def ConvertBin (env : Env) (k : Nat) (type data : Bytes) (c : Ctx) (o : Out) : Prop :=
  let c := c.setError (str "binary decode error")
  match c.contracts.lookup k with
  | none => o = .returns c (.str none)
  | some a =>
    match lookupType type a.types with
    | (.error e, T) => o = failed (c.setTypes k T) e
    | (.ok p, T) =>
      let c := c.setTypes k T
      ∃ r, BinToJson T env.leaves p data r ∧ o = match r with
        | .error e => failed c e
        | .ok (t, rest) =>
          let c := { c with resultStr := t }
          if rest = [] then .returns c (.str (some (cut t))) else .throws c (str "Extra data")

/-- `abieos_bin_to_json` -/
def CallConvertBin (env : Env) (k : Nat) (type : Option Bytes) (data : Option Bytes) (c : Option Ctx) (o : Outcome) : Prop :=
  Handled (.str none) c (ConvertBin env k (cstr type) (data.getD [])) o

/-- body of `abieos_hex_to_json` (src/abieos.cpp:240-253) -/
def ConvertHex (env : Env) (k : Nat) (type : Option Bytes) (hex : Bytes) (c : Ctx) (o : Out) : Prop :=
  match unhexLoop hex with
  | none => o = .returns (c.setError (str "expected hex string")) (.str none)
  | some data => ∃ x, CallConvertBin env k type (some data) (some c) x ∧ o = nested x

/-- A `size_t` converted to `int` (modulo 2^32, as compilers define it). -/
def toInt32 (n : Nat) : Int := if n % 2 ^ 32 < 2 ^ 31 then (n % 2 ^ 32 : Nat) else (n % 2 ^ 32 : Nat) - 2 ^ 32

/-- One call (src/abieos.cpp:63-253). -/
def Step (env : Env) (c : Option Ctx) (call : Call) (o : Outcome) : Prop :=
  match call with
  | .getError => o = .done c (.str (some (match c with | none => str "context is null" | some c => c.lastError)))
  | .getBinSize => o = .done c (.int (match c with | none => 0 | some c => toInt32 c.resultBin.length))
  | .getBinData => o = .done c (.data (c.map (·.resultBin)))
  | .getBinHex => Handled (.str none) c (fun c x =>
      x = .returns { c with resultStr := hexEncode c.resultBin } (.str (some (hexEncode c.resultBin)))) o
  | .stringToName s => o = .done c (.word (stringToName (cstr s)))
  | .nameToString n => Handled (.str none) c (fun c x =>
      x = .returns { c with resultStr := nameToString n } (.str (some (nameToString n)))) o
  | .setAbi k s => Handled (.bool false) c (SetAbi env k (cstr s)) o
  | .setAbiBin k d => CallSetAbiBin k d c o
  | .setAbiHex k s => Handled (.bool false) c (SetAbiHex k (cstr s)) o
  | .typeForAction k n => Handled (.str none) c (TypeForAction k n) o
  | .typeForTable k n => Handled (.str none) c (TypeForTable k n) o
  | .jsonToBin k t j => Handled (.bool false) c (ConvertJson env JsonToBin OrderedBroken k (cstr t) (cstr j)) o
  | .jsonToBinReorderable k t j => Handled (.bool false) c (ConvertJson env JsonToBinReorderable ReorderableBroken k (cstr t) (cstr j)) o
  | .binToJson k t d => CallConvertBin env k t d c o
  | .hexToJson k t s => Handled (.str none) c (ConvertHex env k t (cstr s)) o

/-- A sequence of calls on one context, all with defined behaviour: the context before, the calls with what they returned, the
context after. -/
inductive Calls (env : Env) : Option Ctx → List (Call × Ret) → Option Ctx → Prop
  | nil {c : Option Ctx} : Calls env c [] c
  | cons {c c' c'' : Option Ctx} {q : Call} {r : Ret} {l : List (Call × Ret)} :
      Step env c q (.done c' r) → Calls env c' l c'' → Calls env c ((q, r) :: l) c''

end Abieos
