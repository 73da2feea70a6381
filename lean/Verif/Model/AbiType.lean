import Verif.Model.Json
import Verif.Model.Varint
import Verif.Model.Hex
/-
The type table of a loaded ABI.
-/
namespace Abieos

/-- The builtin types, in the order of `for_each_abi_type` (src/abi.cpp:39-76). -/
inductive Builtin
  | bool | int8 | uint8 | int16 | uint16 | int32 | uint32 | int64 | uint64 | int128 | uint128
  | varuint32 | varint32 | float32 | float64 | float128 | time_point | time_point_sec | block_timestamp
  | name | bytes | string | checksum160 | checksum256 | checksum512 | public_key | private_key | signature
  | symbol | symbol_code | asset
  deriving DecidableEq, Repr, Inhabited

/-- All builtins in registration order (src/abi.cpp:44-75). -/
def Builtin.all : List Builtin :=
  [.bool, .int8, .uint8, .int16, .uint16, .int32, .uint32, .int64, .uint64, .int128, .uint128, .varuint32, .varint32,
   .float32, .float64, .float128, .time_point, .time_point_sec, .block_timestamp, .name, .bytes, .string, .checksum160,
   .checksum256, .checksum512, .public_key, .private_key, .signature, .symbol, .symbol_code, .asset]

/-- `get_type_name` of each builtin (include/eosio/types.hpp:12-31 and the `EOSIO_REFLECT`s, e.g. time.hpp:250). -/
def Builtin.typeName : Builtin → Bytes
  | .bool => str "bool" | .int8 => str "int8" | .uint8 => str "uint8" | .int16 => str "int16" | .uint16 => str "uint16"
  | .int32 => str "int32" | .uint32 => str "uint32" | .int64 => str "int64" | .uint64 => str "uint64"
  | .int128 => str "int128" | .uint128 => str "uint128" | .varuint32 => str "varuint32" | .varint32 => str "varint32"
  | .float32 => str "float32" | .float64 => str "float64" | .float128 => str "float128"
  | .time_point => str "time_point" | .time_point_sec => str "time_point_sec"
  | .block_timestamp => str "block_timestamp_type" | .name => str "name" | .bytes => str "bytes"
  | .string => str "string" | .checksum160 => str "checksum160" | .checksum256 => str "checksum256"
  | .checksum512 => str "checksum512" | .public_key => str "public_key" | .private_key => str "private_key"
  | .signature => str "signature" | .symbol => str "symbol" | .symbol_code => str "symbol_code" | .asset => str "asset"

/-- An `abi_type*`. The map `abi_types` (include/eosio/abi.hpp:195) never erases and `std::map` nodes do not move, so a
pointer is identified by the key of the node it points to (which is also its `name`). -/
abbrev Ptr := Bytes

/-- `field_def` (include/eosio/abi.hpp:74-77): name and type text. -/
structure FieldDef where
  name : Bytes
  type : Bytes
  deriving DecidableEq, Repr, Inhabited

/-- `struct_def` (include/eosio/abi.hpp:81-85). -/
structure StructDef where
  name : Bytes
  base : Bytes
  fields : List FieldDef
  deriving DecidableEq, Repr, Inhabited

/-- `type_def` (include/eosio/abi.hpp:67-70). -/
structure TypeDef where
  newName : Bytes
  type : Bytes
  deriving DecidableEq, Repr, Inhabited

/-- `variant_def` (include/eosio/abi.hpp:120-123). -/
structure VariantDef where
  name : Bytes
  types : List Bytes
  deriving DecidableEq, Repr, Inhabited

/-- `abi_field` (include/eosio/abi.hpp:143-146). -/
structure Field where
  name : Bytes
  type : Ptr
  deriving DecidableEq, Repr, Inhabited

/-- `abi_type::_data` (include/eosio/abi.hpp:151-163). The serializer pointer `ser` is determined by the alternative
(src/abi.cpp:87, 93, 99, 196, 200, 208, 214, 220): null for aliases, the builtin's for `builtin`, and so on. The member
`struct_::base` is never set by the loader (src/abi.cpp:121, 140) and is left out. -/
inductive TData
  | builtin (b : Builtin)
  | aliasDef (target : Bytes)
  | structDef (d : StructDef)
  | variantDef (d : VariantDef)
  | alias (p : Ptr)
  | optional (p : Ptr)
  | extension (p : Ptr)
  | array (p : Ptr)
  | struct (fields : List Field)
  | variant (alts : List Field)
  deriving DecidableEq, Repr, Inhabited

/-- `extension_of() != nullptr` (include/eosio/abi.hpp:176-179). -/
def TData.isExt : TData → Bool
  | .extension _ => true
  | _ => false

/-- `std::map<std::string, abi_type>` (include/eosio/abi.hpp:195), as the list of its nodes in key order. -/
abbrev Table := List (Bytes × TData)

/-- `abi_types.find(name)` / dereferencing an `abi_type*`. -/
def Table.get (T : Table) (k : Bytes) : Option TData := T.lookup k

/-- What a builtin serializer reads from a JSON value: `get_bool` or `get_string`. -/
inductive Scalar
  | bool (b : Bool)
  | str (s : Bytes)
  deriving DecidableEq, Repr, Inhabited

/-- The scalar serializers: for each builtin type, `from_json` then `to_bin` (src/abieos.hpp:718-733, 350-360), and
`from_bin` then `to_json` (src/abieos.hpp:1002-1008, 362-368). The machines are defined over any such pair; the
builtins of the code are given in `Model/Builtins.lean`. -/
structure Leaves where
  /-- JSON scalar to binary -/
  toBin : Builtin → Scalar → Res Bytes
  /-- binary to JSON text, with the unread input -/
  fromBin : Builtin → Bytes → Res (Bytes × Bytes)

/-- Error of `get_bool` / `get_string` on a token of another kind (src/abieos.hpp:241-251,
include/eosio/from_json.hpp:219-233). -/
def leafMismatch : Builtin → Err
  | .bool => .expected_bool
  | _ => .expected_string

/-- Generic `json_to_bin(T*)` for builtins (src/abieos.hpp:718-733) on a JSON value. -/
def leafEnc (L : Leaves) (b : Builtin) : JVal → Res Bytes
  | .bool x => L.toBin b (.bool x)
  | .str s => L.toBin b (.str s)
  | _ => .error (leafMismatch b)

/-- `++position` on an `int`: incrementing `INT_MAX` is undefined. -/
def incInt (p : Int) : Res Int := if p = 2147483647 then .error .ub else .ok (p + 1)

/-- `max_stack_size` (src/abieos.hpp:57). -/
def maxStack : Nat := 128

/-- Run a transition function until it stops. `none`: not finished within the budget. -/
def iter {σ : Type} (step : σ → Res (Option σ)) : Nat → σ → Option (Res σ)
  | 0, _ => none
  | n + 1, s =>
    match step s with
    | .error e => some (.error e)
    | .ok none => some (.ok s)
    | .ok (some s') => iter step n s'

/-- The loop started in `s` ends with `r`. -/
def Ends {σ : Type} (step : σ → Res (Option σ)) (s : σ) (r : Res σ) : Prop := ∃ n, iter step n s = some r

/-- `std::find_if(fields, name == typeName)` (src/abieos.hpp:706-707, 862-863): index and alternative. -/
def findAlt (name : Bytes) : List Field → Nat → Option (Nat × Field)
  | [], _ => none
  | f :: fs, i => if f.name = name then some (i, f) else findAlt name fs (i + 1)

end Abieos
