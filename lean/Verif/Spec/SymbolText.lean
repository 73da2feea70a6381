import Verif.Spec.Decimal
import Verif.Spec.LittleEndian
/-
Symbol codes, independently of the code: 1 to 7 upper-case letters, packed little-endian.
-/
namespace Abieos.Spec

/-- An upper-case letter. -/
def IsUpper (c : UInt8) : Prop := 65 ≤ c.toNat ∧ c.toNat ≤ 90
instance (c : UInt8) : Decidable (IsUpper c) := by unfold IsUpper; infer_instance

/-- The text of a symbol code: 1 to 7 upper-case letters. -/
def CodeText (s : List UInt8) : Prop := 1 ≤ s.length ∧ s.length ≤ 7 ∧ ∀ c ∈ s, IsUpper c
instance (s : List UInt8) : Decidable (CodeText s) := by unfold CodeText; infer_instance

/-- A text of blanks. -/
def Blank (s : List UInt8) : Prop := ∀ c ∈ s, c = 32

end Abieos.Spec
