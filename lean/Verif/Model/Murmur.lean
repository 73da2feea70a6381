import Verif.Model.Name
namespace Abieos

/-- `r |= p[i]` where `p[i]` is a (signed, as on x86) `char`: conversion to `uint64_t` sign-extends. -/
def signExtend8 (b : UInt8) : UInt64 := if b.toNat < 128 then UInt64.ofNat b.toNat else UInt64.ofNat (2 ^ 64 - 256 + b.toNat)

/-- `unaligned_load` (include/eosio/murmur.hpp:4-12, 8 bytes at `p`): `r |= p[i]; r <<= 8`, eight times. -/
def unalignedLoad (p : Bytes) : UInt64 := (p.take 8).foldl (fun r b => (r ||| signExtend8 b) <<< 8) 0

/-- `load_bytes` (include/eosio/murmur.hpp:14-23): little-endian load of the `1 ≤ n < 8` remaining bytes. -/
def loadBytes (p : Bytes) : UInt64 := p.reverse.foldl (fun r b => (r <<< 8) + UInt64.ofNat b.toNat) 0

/-- `shift_mix` (include/eosio/murmur.hpp:25-26). -/
def shiftMix (v : UInt64) : UInt64 := v ^^^ (v >>> 47)

/-- the multiplier (include/eosio/murmur.hpp:32-33) -/
def murmurMul : UInt64 := 0xc6a4a7935bd1e995

/-- main loop of `murmur64` over `n` 8-byte blocks (include/eosio/murmur.hpp:41-45), returning the tail too -/
def murmurLoop : (n : Nat) → UInt64 → Bytes → UInt64 × Bytes
  | 0, h, p => (h, p)
  | n + 1, h, p =>
    let data := shiftMix (unalignedLoad p * murmurMul) * murmurMul
    murmurLoop n ((h ^^^ data) * murmurMul) (p.drop 8)

/-- `murmur64(ptr, len, seed = 0xbadd00d00)` (include/eosio/murmur.hpp:30-55). -/
def murmur64 (p : Bytes) : UInt64 :=
  let len := UInt64.ofNat p.length
  let h0 : UInt64 := 0xbadd00d00 ^^^ (len * murmurMul)
  let (h1, rest) := murmurLoop (p.length / 8) h0 p
  let h2 := if p.length % 8 ≠ 0 then (h1 ^^^ loadBytes rest) * murmurMul else h1
  shiftMix (shiftMix h2 * murmurMul)

/-- `hash_name` (include/eosio/name.hpp:144-148). -/
def hashName (s : Bytes) : Nat :=
  match stringToNameStrict s with
  | .ok v => v
  | .error _ => (murmur64 s).toNat

end Abieos
