import Verif.Model.AbiType
import Verif.Model.JsonString
import Verif.Model.JsonInt
import Verif.Model.Time
import Verif.Model.Symbol
import Verif.Model.Murmur
import Verif.Model.Fpconv
import Verif.Model.Keys
import Verif.Model.Ripemd160
import Verif.Spec.LittleEndian
/-
The serializers of the builtin ABI types: `from_json` followed by `to_bin`, and `from_bin` followed by `to_json`.
-/
namespace Abieos

/-- `strtof` and `strtod` of the C library, which are external and are parameters of the model: the bits of the number, if the whole
text is a number and `errno` is not set (include/eosio/from_json.hpp:484-488, 496-499). -/
structure Floats where
  strtof : Bytes → Option Nat
  strtod : Bytes → Option Nat

/-- `to_bin` of an integer: its object representation (include/eosio/to_bin.hpp:151-155), two's complement. -/
def intToBin (t : IntTy) (v : Int) : Bytes := leBytes (t.bits / 8) (v % 2 ^ t.bits).toNat

/-- `from_bin` of an integer (include/eosio/from_bin.hpp:236-239). -/
def intFromBin (t : IntTy) : Reader Int := fun bin => do
  let (a, rest) ← readBytes (t.bits / 8) bin
  .ok (t.wrap (Spec.leVal a), rest)

/-- `from_json` and `to_bin` of an integer type. -/
def encInt (t : IntTy) (s : Bytes) : Res Bytes := do
  let v ← fromJsonInt t s
  .ok (intToBin t v)

/-- `from_bin` and `to_json` of an integer type. -/
def decInt (t : IntTy) (bin : Bytes) : Res (Bytes × Bytes) := do
  let (v, rest) ← intFromBin t bin
  .ok (intToJson t v, rest)

/-- Types that hold one unsigned integer of `n` bytes and have a text: `from_json` reads the text, `to_bin` writes the integer. -/
def encWord (n : Nat) (parse : Bytes → Option Nat) (e : Err) (s : Bytes) : Res Bytes :=
  match parse s with
  | some v => .ok (leBytes n v)
  | none => .error e

/-- `from_bin` of the integer, `to_json` of the text. -/
def decWord (n : Nat) (print : Nat → Bytes) (bin : Bytes) : Res (Bytes × Bytes) := do
  let (a, rest) ← readBytes n bin
  .ok (jsonString (print (Spec.leVal a)), rest)

/-- `from_json(varuint32)`, `to_bin(varuint32)` (include/eosio/varint.hpp:217-225). -/
def encVaruint (s : Bytes) : Res Bytes := do
  let v ← fromJsonInt ⟨false, 32⟩ s
  varuint32ToBin v.toNat

/-- `from_bin(varuint32)`, `to_json(varuint32)` (include/eosio/varint.hpp:212-230). -/
def decVaruint (bin : Bytes) : Res (Bytes × Bytes) := do
  let (v, rest) ← varuint32FromBin bin
  .ok (intToJson ⟨false, 32⟩ v, rest)

/-- `from_json(varint32)`, `to_bin(varint32)` (include/eosio/varint.hpp:432-440). -/
def encVarint (s : Bytes) : Res Bytes := do
  let v ← fromJsonInt ⟨true, 32⟩ s
  varint32ToBin (BitVec.ofInt 32 v)

/-- `from_bin(varint32)`, `to_json(varint32)` (include/eosio/varint.hpp:427-445). -/
def decVarint (bin : Bytes) : Res (Bytes × Bytes) := do
  let (v, rest) ← varint32FromBin bin
  .ok (intToJson ⟨true, 32⟩ v.toInt, rest)

/-- `from_json(float&)` / `from_json(double&)` (include/eosio/from_json.hpp:479-501) and `to_bin`. -/
def encFloat (strto : Bytes → Option Nat) (n : Nat) (s : Bytes) : Res Bytes :=
  if s = [] then .error .expected_number
  else match strto s with
    | some bits => .ok (leBytes n bits)
    | none => .error .expected_number

/-- `from_bin` of a `float` or `double` and `to_json` (include/eosio/to_json.hpp:139-140); `toDouble` is the conversion to `double`. -/
def decFloat (n : Nat) (toDouble : Nat → Nat) (bin : Bytes) : Res (Bytes × Bytes) := do
  let (a, rest) ← readBytes n bin
  let t ← fpToJson (toDouble (Spec.leVal a))
  .ok (t, rest)

/-- `fixed_bytes<n>`: `from_json` and `to_bin` (include/eosio/fixed_bytes.hpp:220-238). The words the bytes are kept in are
modelled in `Verif.Model.FixedBytes`; bytes to words to bytes is the identity there. -/
def encFixed (n : Nat) (s : Bytes) : Res Bytes := do
  let v ← fromJsonHex s
  check (v.length == n) .hex_string_incorrect_length
  .ok v

/-- `fixed_bytes<n>`: `from_bin` and `to_json` (include/eosio/fixed_bytes.hpp:212-217, 240-244); `to_json_hex` puts quotes around
the digits (include/eosio/to_json.hpp:238-247). -/
def decFixed (n : Nat) (bin : Bytes) : Res (Bytes × Bytes) := do
  let (a, rest) ← readBytes n bin
  .ok (34 :: (hexEncode a ++ [34]), rest)

/-- `json_to_bin(bytes*)` (src/abieos.hpp:350-360). -/
def encBytes (s : Bytes) : Res Bytes := do
  check (s.length &&& 1 == 0) .expected_hex_string
  let n ← varuint32ToBin (s.length / 2)
  match unhexLoop s with
  | some v => .ok (n ++ v)
  | none => .error .expected_hex_string

/-- `bin_to_json(bytes*)` (src/abieos.hpp:362-368). -/
def decBytes (bin : Bytes) : Res (Bytes × Bytes) := do
  let (n, rest) ← varuint64FromBin bin
  let (a, rest) ← readBytes n rest
  .ok (34 :: (hexEncode a ++ [34]), rest)

/-- `json_to_bin(std::string*)` (src/abieos.hpp:725-733). -/
def encString (s : Bytes) : Res Bytes := do
  let n ← varuint32ToBin s.length
  .ok (n ++ s)

/-- `from_bin(std::string)` (include/eosio/from_bin.hpp:134-140) and `to_json`. -/
def decString (bin : Bytes) : Res (Bytes × Bytes) := do
  let (n, rest) ← varuint32FromBin bin
  let (a, rest) ← readBytes n rest
  .ok (jsonString a, rest)

/-- `from_json(asset)` (include/eosio/asset.hpp:350-355) and `to_bin`: the amount, then the symbol. -/
def encAsset (s : Bytes) : Res Bytes :=
  match stringToAsset s with
  | some (amount, symbol) => .ok (intToBin ⟨true, 64⟩ amount ++ leBytes 8 symbol)
  | none => .error .expected_symbol_code

/-- `from_bin(asset)` and `to_json(asset)` (include/eosio/asset.hpp:345-348). -/
def decAsset (bin : Bytes) : Res (Bytes × Bytes) := do
  let (amount, rest) ← intFromBin ⟨true, 64⟩ bin
  let (sym, rest) ← readBytes 8 rest
  let t ← assetToString amount (Spec.leVal sym)
  .ok (jsonString t, rest)

/-- `from_json` of a key or signature (include/eosio/crypto.hpp:123-143) and `to_bin`. -/
def encKey (t : BTy) (fromString : Bytes → Res BVal) (s : Bytes) : Res Bytes := do
  let v ← fromString s
  toBinG vectorWrite t v []

/-- `from_bin` of a key or signature and `to_json` (include/eosio/crypto.hpp:119-139). -/
def decKey (t : BTy) (toString : BVal → Res Bytes) (bin : Bytes) : Res (Bytes × Bytes) := do
  let (v, rest) ← fromBin t bin
  let s ← toString v
  .ok (jsonString s, rest)

/-- `from_json(T&)` then `to_bin`, for a builtin type other than `bool`, on a string token. 128-bit integers are the native ones. -/
def strToBin (F : Floats) : Builtin → Bytes → Res Bytes
  | .bool, _ => .error .expected_bool
  | .int8, s => encInt ⟨true, 8⟩ s
  | .uint8, s => encInt ⟨false, 8⟩ s
  | .int16, s => encInt ⟨true, 16⟩ s
  | .uint16, s => encInt ⟨false, 16⟩ s
  | .int32, s => encInt ⟨true, 32⟩ s
  | .uint32, s => encInt ⟨false, 32⟩ s
  | .int64, s => encInt ⟨true, 64⟩ s
  | .uint64, s => encInt ⟨false, 64⟩ s
  | .int128, s => encInt ⟨true, 128⟩ s
  | .uint128, s => encInt ⟨false, 128⟩ s
  | .varuint32, s => encVaruint s
  | .varint32, s => encVarint s
  | .float32, s => encFloat F.strtof 4 s
  | .float64, s => encFloat F.strtod 8 s
  | .float128, s => encFixed 16 s
  | .time_point, s => encWord 8 stringToUtcMicroseconds .expected_time_point s
  | .time_point_sec, s => encWord 4 timePointSecFromText .expected_time_point s
  | .block_timestamp, s => encWord 4 slotFromText .expected_time_point s
  | .name, s => encWord 8 (fun s => some (hashName s)) .invalid_name s
  | .bytes, s => encBytes s
  | .string, s => encString s
  | .checksum160, s => encFixed 20 s
  | .checksum256, s => encFixed 32 s
  | .checksum512, s => encFixed 64 s
  | .public_key, s => encKey publicKeyTy (publicKeyFromString keyDigest) s
  | .private_key, s => encKey privateKeyTy (privateKeyFromString keyDigest) s
  | .signature, s => encKey signatureTy (signatureFromString keyDigest) s
  | .symbol, s => encWord 8 stringToSymbol .expected_symbol s
  | .symbol_code, s => encWord 8 stringToSymbolCode .expected_symbol_code s
  | .asset, s => encAsset s

/-- `from_bin` then `to_json` for a builtin type. A `time_point` holds a signed number of microseconds. -/
def builtinFromBin : Builtin → Bytes → Res (Bytes × Bytes)
  | .bool, bin => do
    let (b, rest) ← readU8 bin
    .ok (if b ≠ 0 then str "true" else str "false", rest)
  | .int8, bin => decInt ⟨true, 8⟩ bin
  | .uint8, bin => decInt ⟨false, 8⟩ bin
  | .int16, bin => decInt ⟨true, 16⟩ bin
  | .uint16, bin => decInt ⟨false, 16⟩ bin
  | .int32, bin => decInt ⟨true, 32⟩ bin
  | .uint32, bin => decInt ⟨false, 32⟩ bin
  | .int64, bin => decInt ⟨true, 64⟩ bin
  | .uint64, bin => decInt ⟨false, 64⟩ bin
  | .int128, bin => decInt ⟨true, 128⟩ bin
  | .uint128, bin => decInt ⟨false, 128⟩ bin
  | .varuint32, bin => decVaruint bin
  | .varint32, bin => decVarint bin
  | .float32, bin => decFloat 4 widenFloat bin
  | .float64, bin => decFloat 8 id bin
  | .float128, bin => decFixed 16 bin
  | .time_point, bin => decWord 8 (fun v => microsecondsToStr (toI64 v)) bin
  | .time_point_sec, bin => decWord 4 timePointSecToText bin
  | .block_timestamp, bin => decWord 4 slotToText bin
  | .name, bin => decWord 8 nameToString bin
  | .bytes, bin => decBytes bin
  | .string, bin => decString bin
  | .checksum160, bin => decFixed 20 bin
  | .checksum256, bin => decFixed 32 bin
  | .checksum512, bin => decFixed 64 bin
  | .public_key, bin => decKey publicKeyTy (publicKeyToString keyDigest) bin
  | .private_key, bin => decKey privateKeyTy (privateKeyToString keyDigest) bin
  | .signature, bin => decKey signatureTy (signatureToString keyDigest) bin
  | .symbol, bin => decWord 8 symbolToString bin
  | .symbol_code, bin => decWord 8 symbolCodeToString bin
  | .asset, bin => decAsset bin

/-- `from_json` of a builtin type on a scalar token, then `to_bin`. `bool` wants a bool token
(include/eosio/from_json.hpp, `get_bool`), every other type a string token. -/
def builtinToBin (F : Floats) : Builtin → Scalar → Res Bytes
  | .bool, .bool b => .ok [if b then 1 else 0]
  | .bool, .str _ => .error .expected_bool
  | k, .str s => strToBin F k s
  | _, .bool _ => .error .expected_string

/-- The serializers the loader puts into the table (src/abi.cpp:195-201). -/
def builtins (F : Floats) : Leaves := ⟨builtinToBin F, builtinFromBin⟩

end Abieos
