import Verif.Spec.BigEndian
/-
What the words of a `fixed_bytes` mean.
-/
namespace Abieos.Spec

/-- The words of `w` bytes hold the `size` bytes `b`: written most significant byte first they are these bytes and less than a word of
zeros after them. -/
def Holds (size w : Nat) (v : List Nat) (b : List UInt8) : Prop :=
  b.length = size ∧ ∃ n, n < w ∧ WordsAre w v (b ++ List.replicate n 0)

/-- The sizes of two unsigned integer types: one is a multiple of the other. -/
def WordSizes (a b : Nat) : Prop := 0 < a ∧ 0 < b ∧ (a ∣ b ∨ b ∣ a)

end Abieos.Spec
