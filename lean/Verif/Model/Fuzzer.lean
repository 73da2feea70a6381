import Verif.Model.CApi
/-
The fuzzer's entry point (src/fuzzer.cpp, src/fuzzer.hpp): one input is one session with the C interface.
-/
namespace Abieos

/-- `fuzzer_header` (src/fuzzer.hpp:11-17), as laid out by the usual 64-bit C++ ABIs: 24 bytes, six of padding before `contract`. -/
structure FuzzHeader where
  abiIsBin : UInt8
  operation : UInt8
  contract : Nat
  abiSize : Nat
  typeSize : Nat
  deriving DecidableEq

/-- `memcpy(&header, pos, sizeof(header))` (src/fuzzer.cpp:10-14), little-endian -/
def fuzzHeader (s : Bytes) : FuzzHeader where
  abiIsBin := s.getD 0 0
  operation := s.getD 1 0
  contract := Spec.leVal ((s.drop 8).take 8)
  abiSize := Spec.leVal ((s.drop 16).take 4)
  typeSize := Spec.leVal ((s.drop 20).take 4)

/-- `get_zero_terminated(size)` (src/fuzzer.cpp:16-24): the piece, or a null pointer, and the bytes after `pos`. -/
def getZeroTerminated (n : Nat) (s : Bytes) : Option Bytes × Bytes :=
  if s.length < n then (none, s)
  else if n = 0 ∨ s.getD (n - 1) 0 ≠ 0 then (none, s.drop n)
  else (some (s.take n), s.drop n)

/-- The pieces of an input (src/fuzzer.cpp:10-30); `none` if the function returns at once. -/
def fuzzPieces (input : Bytes) : Option (FuzzHeader × Bytes × Bytes × Bytes) :=
  if input.length < 24 then none
  else
    let h := fuzzHeader input
    let (abi, s) := getZeroTerminated h.abiSize (input.drop 24)
    let (type, s) := getZeroTerminated h.typeSize s
    let (data, _) := getZeroTerminated s.length s
    match abi, type, data with
    | some abi, some type, some data => some (h, abi, type, data)
    | _, _, _ => none

/-- `abieos_set_abi_bin` or `abieos_set_abi` (src/fuzzer.cpp:34-37); `abi` as a C string for the latter. -/
def fuzzLoad (h : FuzzHeader) (abi : Bytes) : Call :=
  if h.abiIsBin ≠ 0 then .setAbiBin h.contract (some abi) else .setAbi h.contract (some abi)

/-- The calls that follow if the definition was loaded (src/fuzzer.cpp:39-47); `fuzzer_json_to_bin` is 0. The data of `abieos_bin_to_json`, up to `end`, has the
final zero. -/
def fuzzConversions (h : FuzzHeader) (type data : Bytes) : List Call :=
  if h.operation = 0 then [.jsonToBin h.contract (some type) (some data), .jsonToBinReorderable h.contract (some type) (some data)]
  else [.binToJson h.contract (some type) (some data)]

/-- The calls one after the other: `none` if the behaviour of one is undefined, otherwise what they returned. -/
def FuzzCalls (env : Env) : Option Ctx → List Call → Option (List (Call × Ret)) → Prop
  | _, [], o => o = some []
  | c, q :: l, o => ∃ x, Step env c q x ∧ match x with
    | .undefined => o = none
    | .done c' r => ∃ o', FuzzCalls env c' l o' ∧ o = o'.map ((q, r) :: ·)

/-- `LLVMFuzzerTestOneInput` (src/fuzzer.cpp:6-51): `none` if its behaviour is undefined, otherwise the calls it made and what they returned; it then returns 0. -/
def FuzzOne (env : Env) (input : Bytes) (o : Option (List (Call × Ret))) : Prop :=
  match fuzzPieces input with
  | none => o = some []
  | some (h, abi, type, data) => ∃ x, Step env (some Ctx.init) (fuzzLoad h abi) x ∧ match x with
    | .undefined => o = none
    | .done c r =>
      if r = .bool true then ∃ o', FuzzCalls env c (fuzzConversions h type data) o' ∧ o = o'.map ((fuzzLoad h abi, r) :: ·)
      else o = some [(fuzzLoad h abi, r)]

/-- The file `write_corpus` of the tests writes (src/test.cpp:323-343); `pad` is whatever is in the padding of the header. -/
def corpusFile (pad : Bytes) (bin operation : UInt8) (contract : Nat) (abi type data : Bytes) : Bytes :=
  [bin, operation] ++ pad ++ leBytes 8 contract ++ leBytes 4 abi.length ++ leBytes 4 type.length ++ abi ++ type ++ data

end Abieos
