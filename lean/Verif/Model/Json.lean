import Verif.Model.Basic
/-
JSON documents and tokens, as the code sees them.
-/
namespace Abieos

/-- A JSON document. This is `jvalue` (src/abieos.hpp:187-195: `variant<nullptr_t, bool, string, jobject, jarray>`)
except that the members of an object keep the order and the repetitions of the text. Numbers are strings: both
readers run rapidjson with `kParseNumbersAsStringsFlag` and forward `RawNumber` to `String`
(src/abieos.hpp:152, include/eosio/from_json.hpp:307). -/
inductive JVal
  | null
  | bool (b : Bool)
  | str (s : Bytes)
  | arr (l : List JVal)
  | obj (l : List (Bytes × JVal))
  deriving Repr, Inhabited

/-- Tokens of a document: `json_token_type` (include/eosio/from_json.hpp:160-178) and `event_type`
(src/abieos.hpp:117-126). -/
inductive Tok
  | null | bool (b : Bool) | str (s : Bytes) | startObj | key (k : Bytes) | endObj | startArr | endArr
  deriving DecidableEq, Repr, Inhabited

/-- The SAX events rapidjson reports for a document, in order. -/
def JVal.toks : JVal → List Tok
  | .null => [.null]
  | .bool b => [.bool b]
  | .str s => [.str s]
  | .arr l => .startArr :: (go l ++ [.endArr])
  | .obj l => .startObj :: (goM l ++ [.endObj])
where
  go : List JVal → List Tok
    | [] => []
    | v :: l => v.toks ++ go l
  goM : List (Bytes × JVal) → List Tok
    | [] => []
    | (k, v) :: l => .key k :: (v.toks ++ goM l)

/-- Is the document `null`? `get_null_pred` (src/abieos.hpp:257-259). -/
def JVal.isNull : JVal → Bool
  | .null => true
  | _ => false

end Abieos
