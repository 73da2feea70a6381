import Verif.Model.Basic
/-
Variable length integers.
-/
namespace Abieos

/-- Loop of `varuint32_to_bin` (include/eosio/to_bin.hpp:38-43):
`do { b = val & 0x7f; val >>= 7; b |= (val > 0) << 7; write(b); } while (val);` -/
def varuintLoop (val : Nat) : Bytes :=
  let b := val &&& 0x7f
  let val' := val >>> 7
  if _h : val' = 0 then [UInt8.ofNat b]
  else UInt8.ofNat (b ||| (1 <<< 7)) :: varuintLoop val'
termination_by val
decreasing_by
  simp only [Nat.shiftRight_eq_div_pow] at _h ⊢
  omega

/-- `varuint32_to_bin` (include/eosio/to_bin.hpp:35-44). `val` is a `uint64_t`. -/
def varuint32ToBin (val : Nat) : Res Bytes :=
  if val >>> 32 ≠ 0 then .error .varuint_too_big else .ok (varuintLoop val)

/-- The loop shared by `varuint32_from_bin` and `varuint64_from_bin`
(include/eosio/from_bin.hpp:21-32 and 34-45). `width` is 32 or 64, `lim` is 35 or 70:
`check(shift < lim); from_bin(b); dest |= uintW(b & 0x7f) << shift; shift += 7; while (b & 0x80)`. -/
def varuintFromBinLoop (width lim : Nat) : (shift dest : Nat) → Reader Nat
  | shift, dest, s =>
    if _h : shift < lim then
      match s with
      | [] => .error .overrun
      | b :: s' =>
        let dest' := dest ||| (((b.toNat &&& 0x7f) <<< shift) % 2 ^ width)
        if b.toNat &&& 0x80 ≠ 0 then varuintFromBinLoop width lim (shift + 7) dest' s'
        else .ok (dest', s')
    else .error .invalid_varuint_encoding
termination_by shift => lim - shift

/-- `varuint32_from_bin` (include/eosio/from_bin.hpp:21-32). -/
def varuint32FromBin : Reader Nat := varuintFromBinLoop 32 35 0 0

/-- `varuint64_from_bin` (include/eosio/from_bin.hpp:34-45). -/
def varuint64FromBin : Reader Nat := varuintFromBinLoop 64 70 0 0

/-- Zig-zag image used by `to_bin(varint32)` (include/eosio/varint.hpp:433-435):
`(uint32_t(v) << 1) ^ uint32_t(v >> 31)`; `v` is the two's complement pattern, `>>` on `int32_t` is arithmetic. -/
def zigzag (v : BitVec 32) : BitVec 32 := (v <<< 1) ^^^ (v.sshiftRight 31)

/-- Inverse used by `varint32_from_bin` (include/eosio/from_bin.hpp:47-55). -/
def unzigzag (v : BitVec 32) : BitVec 32 :=
  if v &&& 1#32 ≠ 0#32 then ((~~~v) >>> 1) ||| 0x80000000#32 else v >>> 1

/-- `to_bin(varint32)` (include/eosio/varint.hpp:433-435). -/
def varint32ToBin (v : BitVec 32) : Res Bytes := varuint32ToBin (zigzag v).toNat

/-- `varint32_from_bin` (include/eosio/from_bin.hpp:47-55). -/
def varint32FromBin : Reader (BitVec 32) := fun s => do
  let (v, s') ← varuint32FromBin s
  return (unzigzag (BitVec.ofNat 32 v), s')

end Abieos
