import Verif.Model.StaticJson
import Verif.Model.Keys
/-
The binary templates for C++ types: `to_bin`, `convert_to_bin` and `from_bin` (include/eosio/to_bin.hpp, include/eosio/from_bin.hpp), over the
same types and values as the JSON templates of `Verif.Model.StaticJson`.
-/
namespace Abieos

/-- What a builtin type is serialized as: an integer or float as its bytes; a reflected struct of one field (`name`, `symbol`, `time_point`,
...) as that field; an `asset` as its amount and symbol (include/eosio/asset.hpp:334); a `fixed_bytes<n>` as an array of bytes
(include/eosio/fixed_bytes.hpp:212-227); `bytes` as its vector (include/eosio/bytes.hpp:10-14); keys and signatures as variants
(include/eosio/crypto.hpp:27-108). -/
def leafTy : Builtin → BTy
  | .bool => .bool
  | .int8 | .uint8 => .raw 1
  | .int16 | .uint16 => .raw 2
  | .int32 | .uint32 | .float32 => .raw 4
  | .int64 | .uint64 | .float64 => .raw 8
  | .int128 | .uint128 => .raw 16
  | .varuint32 => .varuint32
  | .varint32 => .varint32
  | .float128 => .raw 16
  | .time_point => .raw 8
  | .time_point_sec => .raw 4
  | .block_timestamp => .raw 4
  | .name => .raw 8
  | .bytes => .rawVec 1
  | .string => .str
  | .checksum160 => .raw 20
  | .checksum256 => .raw 32
  | .checksum512 => .raw 64
  | .public_key => publicKeyTy
  | .private_key => privateKeyTy
  | .signature => signatureTy
  | .symbol => .raw 8
  | .symbol_code => .raw 8
  | .asset => .struct [.raw 8, .raw 8]

/-- `has_bitwise_serialization<T>()` and then `sizeof(T)` (include/eosio/stream.hpp:53-63), for element types of vectors. There is no
`from_bin` for `std::vector<bool>`. -/
def CTy.bitwise : CTy → Option Nat
  | .leaf .int8 | .leaf .uint8 => some 1
  | .leaf .int16 | .leaf .uint16 => some 2
  | .leaf .int32 | .leaf .uint32 | .leaf .float32 => some 4
  | .leaf .int64 | .leaf .uint64 | .leaf .float64 => some 8
  | .leaf .int128 | .leaf .uint128 => some 16
  | _ => none

/-! ## Writing -/

/-- `to_bin` of a `might_not_exist<T>` is that of its value (include/eosio/abi.hpp:54-57). -/
def CTy.strip : CTy → CTy
  | .ext t => t.strip
  | t => t

mutual
/-- `to_bin` (include/eosio/to_bin.hpp:51-168, include/eosio/abi.hpp:54-57), to any stream. The bytes of a builtin value are written at
once, and those of a vector of bitwise elements one element at a time. A value that is not of the type gives `ub`. -/
def toBinS {σ : Type} (P : Prog) (w : Writer σ) : CTy → SVal → σ → Res σ
  | t, .leaf b, s =>
    match t.strip with
    | .leaf _ => w b s
    | _ => .error .ub
  | t, .vec l, s =>
    match t.strip with
    | .vec u => do
      let s ← varuint32Write w l.length s
      toBinElems P w u l s
    | _ => .error .ub
  | t, .absent, s =>
    match t.strip with
    | .opt _ => w [0] s
    | _ => .error .ub
  | t, .present v, s =>
    match t.strip with
    | .opt u => do
      let s ← w [1] s
      toBinS P w u v s
    | _ => .error .ub
  | t, .alt i v, s =>
    match t.strip with
    | .variant ts =>
      match ts[i]? with
      | none => .error .ub
      | some u => do
        let s ← varuint32Write w i s
        toBinS P w u v s
    | _ => .error .ub
  | t, .struct l, s =>
    match t.strip with
    | .struct n => toBinMembers P w (P.fields n) l s
    | _ => .error .ub
  | _, .unset, _ => .error .ub

/-- The elements of a vector (include/eosio/to_bin.hpp:85-92). -/
def toBinElems {σ : Type} (P : Prog) (w : Writer σ) (t : CTy) : List SVal → σ → Res σ
  | [], s => .ok s
  | v :: l, s => do
    let s ← toBinS P w t v s
    toBinElems P w t l s

/-- The fields of a struct (include/eosio/to_bin.hpp:163-167). -/
def toBinMembers {σ : Type} (P : Prog) (w : Writer σ) : List (Bytes × CTy) → List SVal → σ → Res σ
  | [], [], s => .ok s
  | f :: fs, v :: l, s => do
    let s ← toBinS P w f.2 v s
    toBinMembers P w fs l s
  | _, _, _ => .error .ub
end

/-- `convert_to_bin` (include/eosio/to_bin.hpp:170-186): appends to `bin`. -/
def convertToBinS (P : Prog) (t : CTy) (v : SVal) (bin : Bytes) : Res Bytes := do
  let size ← toBinS P sizeWrite t v 0
  let fbs ← toBinS P fixedWrite t v ⟨[], size⟩
  check (fbs.room == 0) .underrun
  .ok (bin ++ fbs.written)

/-! ## Reading -/

/-- `from_bin` of a builtin type. The value is represented by the bytes of its `to_bin`; a value that has none (a byte string of 2^32 bytes or
more) is not represented: `ub`. -/
def leafFromBin (k : Builtin) : Reader SVal := fun s => do
  let (v, s) ← fromBin (leafTy k) s
  match toBinG vectorWrite (leafTy k) v [] with
  | .ok b => .ok (.leaf b, s)
  | .error _ => .error .ub

/-- The elements of a vector whose elements have `z` bytes each. -/
def cutLeaves (z : Nat) : Nat → Bytes → List SVal
  | 0, _ => []
  | k + 1, b => .leaf (b.take z) :: cutLeaves z k (b.drop z)

/-- `for (...) from_bin(v[i], stream);` (include/eosio/from_bin.hpp:110-112). -/
def readElems (f : Reader SVal) : Nat → Reader (List SVal)
  | 0, s => .ok ([], s)
  | n + 1, s => do
    let (v, s) ← f s
    let (l, s) ← readElems f n s
    .ok (v :: l, s)

/-- `for_each_field(obj, ...)` (include/eosio/from_bin.hpp:240-243). -/
def readMembers (f : CTy → Reader SVal) : List (Bytes × CTy) → Reader (List SVal)
  | [], s => .ok ([], s)
  | m :: fs, s => do
    let (v, s) ← f m.2 s
    let (l, s) ← readMembers f fs s
    .ok (v :: l, s)

/-- `from_bin` (include/eosio/from_bin.hpp:91-115, 178-212, 236-250, include/eosio/abi.hpp:48-52). The first argument bounds the nesting of
the calls; running out of it is not an outcome of the code. Memory is taken to suffice for a vector that is resized before its elements are
read. Every non-zero byte is read as the presence of an optional. 64-bit platform. -/
def fromBinS (P : Prog) : Nat → CTy → Reader SVal
  | 0, _ => fun _ => .error .ub
  | _ + 1, .leaf k => leafFromBin k
  | n + 1, .vec t =>
    match t.bitwise with
    | some z => fun s => do
      let (k, s) ← varuint64FromBin s
      check (decide (k * z % 2 ^ 64 ≤ s.length)) .overrun
      check (decide (k ≤ vectorMax z)) .alloc
      let (b, s) ← readBytes (k * z % 2 ^ 64) s
      .ok (.vec (cutLeaves z k b), s)
    | none => fun s => do
      let (c, s) ← varuint32FromBin s
      let (l, s) ← readElems (fromBinS P n t) c s
      .ok (.vec l, s)
  | n + 1, .opt t => fun s => do
    let (present, s) ← readU8 s
    if present = 0 then .ok (.absent, s)
    else do
      let (v, s) ← fromBinS P n t s
      .ok (.present v, s)
  | n + 1, .variant ts => fun s => do
    let (u, s) ← varuint32FromBin s
    match ts[u]? with
    | none => .error .bad_variant_index
    | some t => do
      let (v, s) ← fromBinS P n t s
      .ok (.alt u v, s)
  | n + 1, .struct m => fun s => do
    let (l, s) ← readMembers (fromBinS P n) (P.fields m) s
    .ok (.struct l, s)
  | n + 1, .ext t => fun s => if s = [] then .ok (.unset, s) else fromBinS P n t s

/-- `from_bin<T>(stream)` on the input `s` gives the value `v` and leaves `rest` (include/eosio/from_bin.hpp:252-257). -/
def FromBin (P : Prog) (t : CTy) (s : Bytes) (v : SVal) (rest : Bytes) : Prop := ∃ n, fromBinS P n t s = .ok (v, rest)

end Abieos
