import Verif.Spec.LittleEndian
/-
Numbers as bytes, most significant first.
-/
namespace Abieos.Spec

/-- The number whose bytes, most significant first, are the list. -/
def beVal (b : List UInt8) : Nat := leVal b.reverse

/-- The list has `w` bytes for each of the words, each word with its most significant byte first. -/
def WordsAre (w : Nat) : List Nat → List UInt8 → Prop
  | [], b => b = []
  | x :: ws, b => ∃ c d, b = c ++ d ∧ c.length = w ∧ beVal c = x ∧ WordsAre w ws d

end Abieos.Spec
