import Verif.Model.Ship
import Verif.Model.ShipStatus
/-!
`convert_to_json` and `format_json` of the types of the state-history protocol (include/eosio/ship_protocol.hpp): those of any reflected struct
(include/eosio/to_json.hpp:149-236), but that a `transaction_status` is written as the string `to_string` makes of it
(ship_protocol.hpp:78-82). An `input_stream` is written as `bytes` are (ship_protocol.hpp:16-19), a `recurse_transaction_trace` as the
`transaction_trace` in it (348-351). `opaque` has no `to_json`: `get_blocks_result_v1`, and with it `result`, has none either.
-/
namespace Abieos
namespace Ship

/-- What is thrown: an error of the library, or the `std::runtime_error` of `report_error` (ship_protocol.hpp:33) with its message. -/
inductive Thrown
  | coded (e : Err)
  | message (m : Bytes)
  deriving DecidableEq

/-- The members of type `transaction_status`: of `transaction_trace_v0` (ship_protocol.hpp:316), of `transaction_receipt_header` (369) and of the
structs derived from it (395, 403), which have the members of the base. In the other structs no member is called `status`. -/
def isStatus (struct member : Bytes) : Bool :=
  member = str "status" &&
    (struct = str "transaction_trace_v0" || struct = str "transaction_receipt_header" || struct = str "transaction_receipt_v0" ||
      struct = str "transaction_receipt")

/-- The members of a struct, with `transaction_status` as what is written of it. -/
def jsonFields (struct : Bytes) : List (Bytes × CTy) → List (Bytes × CTy)
  | [] => []
  | (f, t) :: fs => (f, if isStatus struct f then .leaf .string else t) :: jsonFields struct fs

/-- The structs, with `transaction_status` as what is written of it. -/
def jsonProg : Prog := prog.map fun s => (s.1, jsonFields s.1 s.2)

/-- `to_string(status)` as a `std::string` (ship_protocol.hpp:80-81). The strings are short: their size is one byte. -/
def statusString : SVal → Except Thrown SVal
  | .leaf [n] =>
    match statusToString n with
    | .ok s => .ok (.leaf (UInt8.ofNat s.length :: s))
    | .error m => .error (.message m)
  | _ => .error (.coded .ub)

mutual
/-- The value with each `transaction_status` replaced by its string. Simplified: the code does this where it writes the member, so that an
error of a member before it comes first. -/
def named : CTy → SVal → Except Thrown SVal
  | .vec t, .vec l => do
    let l ← namedAll t l
    .ok (.vec l)
  | .opt t, .present v => do
    let v ← named t v
    .ok (.present v)
  | .variant ts, .alt i v =>
    match ts[i]? with
    | none => .error (.coded .ub)
    | some t => do
      let v ← named t v
      .ok (.alt i v)
  | .struct n, .struct l => do
    let l ← namedFields n (prog.fields n) l
    .ok (.struct l)
  | _, v => .ok v

/-- The elements of a vector. -/
def namedAll (t : CTy) : List SVal → Except Thrown (List SVal)
  | [] => .ok []
  | v :: l => do
    let v ← named t v
    let l ← namedAll t l
    .ok (v :: l)

/-- The members of a struct. -/
def namedFields (n : Bytes) : List (Bytes × CTy) → List SVal → Except Thrown (List SVal)
  | (f, t) :: fs, v :: l => do
    let v ← if isStatus n f then statusString v else named t v
    let l ← namedFields n fs l
    .ok (v :: l)
  | _, l => .ok l
end

/-- A result of the library. -/
def Thrown.lift : Res Bytes → Except Thrown Bytes
  | .ok s => .ok s
  | .error e => .error (.coded e)

/-- `eosio::convert_to_json(x)` of a type of the protocol. -/
def shipToJson (t : CTy) (v : SVal) : Except Thrown Bytes := do
  let w ← named t v
  Thrown.lift (convertToJson jsonProg t w)

/-- `eosio::format_json(x)` of a type of the protocol. -/
def shipFormatJson (t : CTy) (v : SVal) : Except Thrown Bytes := do
  let w ← named t v
  Thrown.lift (formatJson jsonProg t w)

end Ship
end Abieos
