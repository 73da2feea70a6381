import Verif.Model.AbiType
/-!
# The names of the builtin types, as ABIs are written with them
-/
namespace Abieos.Spec

/-- The builtin types by name. (`extended_asset` is a struct of `quantity` and `contract`.) -/
def builtinNames : List (Bytes × Builtin) :=
  [(str "asset", .asset), (str "block_timestamp_type", .block_timestamp), (str "bool", .bool), (str "bytes", .bytes),
   (str "checksum160", .checksum160), (str "checksum256", .checksum256), (str "checksum512", .checksum512),
   (str "float128", .float128), (str "float32", .float32), (str "float64", .float64),
   (str "int128", .int128), (str "int16", .int16), (str "int32", .int32), (str "int64", .int64), (str "int8", .int8),
   (str "name", .name), (str "private_key", .private_key), (str "public_key", .public_key), (str "signature", .signature),
   (str "string", .string), (str "symbol", .symbol), (str "symbol_code", .symbol_code),
   (str "time_point", .time_point), (str "time_point_sec", .time_point_sec),
   (str "uint128", .uint128), (str "uint16", .uint16), (str "uint32", .uint32), (str "uint64", .uint64), (str "uint8", .uint8),
   (str "varint32", .varint32), (str "varuint32", .varuint32)]

end Abieos.Spec
