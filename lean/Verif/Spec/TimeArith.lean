/-
Ranges of times.
-/
namespace Abieos.Spec

/-- a 64-bit signed integer -/
def Is64 (x : Int) : Prop := -2 ^ 63 ≤ x ∧ x < 2 ^ 63

/-- `t` is `x` modulo 2^32 -/
def SameSec (t : Nat) (x : Int) : Prop := t < 2 ^ 32 ∧ ∃ k : Int, x = t + k * 2 ^ 32

end Abieos.Spec
