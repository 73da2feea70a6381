import Verif.Model.Basic
import Verif.Model.Hex
import Verif.Model.StaticBin
/-
`fixed_bytes<Size, Word>` (include/eosio/fixed_bytes.hpp). A word type is given by its size in bytes `w`: it is an unsigned integer type
with `numeric_limits::digits = 8 * w`. A word is a number below `256 ^ w`.
-/
namespace Abieos

/-- `count_words<T>()` (include/eosio/fixed_bytes.hpp:32-35) -/
def countWords (size w : Nat) : Nat := (size + w - 1) / w

/-- `write_be(ptr, end, t)` (include/eosio/fixed_bytes.hpp:41-48); `room` is `end - ptr`. The elements written. -/
def writeBe (wT wU t room : Nat) : List Nat :=
  ((List.range (wT / wU)).take room).map fun i => (t >>> (8 * wU * (wT / wU - i - 1))) % 256 ^ wU

/-- the loop of `read_be`: `n` is `words - i`. -/
def readBeLoop (wT wU : Nat) : Nat → List Nat → Nat → Nat × List Nat
  | 0, src, result => (result, src)
  | _, [], result => (result, [])
  | n + 1, x :: src, result => readBeLoop wT wU n src (result ||| (x <<< (8 * wU * n)) % 256 ^ wT)

/-- `read_be(ptr, end, out)` (include/eosio/fixed_bytes.hpp:51-60): `out` and the elements not read. -/
def readBe (wT wU : Nat) (src : List Nat) : Nat × List Nat := readBeLoop wT wU (wT / wU) src 0

/-- `for (i = 0; i < t_elems; ++i) u = write_be(u, end, t[i]);` -/
def splitWords (wT wU : Nat) : List Nat → Nat → List Nat
  | [], _ => []
  | t :: ts, room =>
    let l := writeBe wT wU t room
    l ++ splitWords wT wU ts (room - l.length)

/-- `for (i = 0; i < u_elems; ++i) t = read_be(t, end, u[i]);` -/
def joinWords (wT wU : Nat) : Nat → List Nat → List Nat
  | 0, _ => []
  | n + 1, ts =>
    let (u, ts) := readBe wU wT ts
    u :: joinWords wT wU n ts

/-- `convert_array(t, u)` (include/eosio/fixed_bytes.hpp:65-76): `t` holds `count_words<T>()` elements; the elements of `u`. -/
def convertArray (size wT wU : Nat) (t : List Nat) : List Nat :=
  if wT > wU then splitWords wT wU t (countWords size wU) else joinWords wT wU (countWords size wU) t

/-- `convert_array<T>(u, end)` (include/eosio/fixed_bytes.hpp:85-91): the elements go to an array filled with zeros first. -/
def convertRange (size wU wT : Nat) (u : List Nat) : List Nat :=
  let n := countWords size wU
  convertArray size wU wT (u.take n ++ List.replicate (n - u.length) 0)

/-- A `fixed_bytes<Size, Word>` from an array of elements of `wT` bytes (include/eosio/fixed_bytes.hpp:118-143). -/
def fixedFromArray (size word wT : Nat) (arr : List Nat) : List Nat := convertRange size wT word arr

/-- `extract_as_word_array<T>()` (include/eosio/fixed_bytes.hpp:163-166); `v` is `value`. -/
def fixedToArray (size word wT : Nat) (v : List Nat) : List Nat := convertArray size word wT v

/-- `extract_as_byte_array()` (include/eosio/fixed_bytes.hpp:172-174) -/
def fixedToBytes (size word : Nat) (v : List Nat) : Bytes := (fixedToArray size word 1 v).map UInt8.ofNat

/-- A `fixed_bytes<Size, Word>` from `std::array<uint8_t, Size>` -/
def fixedFromBytes (size word : Nat) (b : Bytes) : List Nat := fixedFromArray size word 1 (b.map UInt8.toNat)

/-- The elements of a `std::array<uint8_t, N>` as values for `to_bin` and `from_bin`. -/
def byteVals (b : Bytes) : BVal := .list (b.map fun x => .raw [x])

def ofByteVals : BVal → Bytes
  | .list l => l.flatMap fun | .raw b => b | _ => []
  | _ => []

/-- `to_bin` (include/eosio/fixed_bytes.hpp:219-222), to any stream; `to_key` (225-228) is the same. -/
def fixedToBin {σ : Type} (w : Writer σ) (size word : Nat) (v : List Nat) (s : σ) : Res σ :=
  toBinG w (.arr size (.raw 1)) (byteVals (fixedToBytes size word v)) s

/-- `from_bin` (include/eosio/fixed_bytes.hpp:212-217) -/
def fixedFromBin (size word : Nat) : Reader (List Nat) := fun s => do
  let (l, s) ← fromBin (.arr size (.raw 1)) s
  .ok (fixedFromBytes size word (ofByteVals l), s)

/-- `from_json` (include/eosio/fixed_bytes.hpp:230-238) of a string token -/
def fixedFromJson (size word : Nat) (text : Bytes) : Res (List Nat) := do
  let v ← fromJsonHex text
  check (v.length == size) .hex_string_incorrect_length
  .ok (fixedFromBytes size word v)

/-- `to_json` (include/eosio/fixed_bytes.hpp:240-244) -/
def fixedToJson (size word : Nat) (v : List Nat) : Bytes := 34 :: hexEncode (fixedToBytes size word v) ++ [34]

/-! `operator==` and `operator<` of `std::array<Word, N>`, to which EOSIO_COMPARE (include/eosio/fixed_bytes.hpp:203) leads: the
only reflected member is `value` -/

/-- `std::lexicographical_compare` -/
def lexCompare {α : Type} (lt : α → α → Bool) : List α → List α → Bool
  | _, [] => false
  | [], _ :: _ => true
  | x :: a, y :: b => if lt x y then true else if lt y x then false else lexCompare lt a b

/-- `operator<` -/
def fixedLt (a b : List Nat) : Bool := lexCompare (fun x y => decide (x < y)) a b

/-- `operator==` -/
def fixedEq (a b : List Nat) : Bool := a == b

end Abieos
