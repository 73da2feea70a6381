import Verif.Spec.LittleEndian
/-
The 64-bit Murmur hash (MurmurHash64A, by Austin Appleby), on natural numbers below `2 ^ 64`. How a block of eight bytes
becomes a number is a parameter: the published hash reads it little-endian.
-/
namespace Abieos.Spec

/-- The multiplier of MurmurHash64A. -/
def hashMul : Nat := 14313749767032793493

/-- `v ^ (v >> 47)`. -/
def hashMix (v : Nat) : Nat := v ^^^ (v / 2 ^ 47)

/-- `h ^= k; h *= m`. -/
def hashStep (h k : Nat) : Nat := (h ^^^ k) * hashMul % 2 ^ 64

/-- The whole blocks, then the (up to seven) bytes that are left, little-endian. -/
def hashRounds (load : List UInt8 → Nat) (h : Nat) (s : List UInt8) : Nat :=
  if 8 ≤ s.length then
    hashRounds load (hashStep h (hashMix (load (s.take 8) * hashMul % 2 ^ 64) * hashMul % 2 ^ 64)) (s.drop 8)
  else if s = [] then h else hashStep h (leVal s)
termination_by s.length
decreasing_by simp; omega

/-- MurmurHash64A, given the seed and the way to load blocks. -/
def murmurHash (load : List UInt8 → Nat) (seed : Nat) (s : List UInt8) : Nat :=
  hashMix (hashMix (hashRounds load (seed ^^^ (s.length * hashMul % 2 ^ 64)) s) * hashMul % 2 ^ 64)

/-- How the code loads a block: the first byte counts for nothing, the other seven are put big-endian into the upper
seven bytes of the word; a byte of 128 or more (a negative `char`) also sets all bits above it. -/
def codeLoad : List UInt8 → Nat
  | [] => 0
  | c :: s => ((if c.toNat < 128 then c.toNat else 2 ^ 64 - 256 + c.toNat) * 256 ^ (s.length + 1) % 2 ^ 64) ||| codeLoad s

end Abieos.Spec
