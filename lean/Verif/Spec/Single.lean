import Verif.Spec.Double
/-
IEEE 754 binary32 numbers.
-/
namespace Abieos.Spec

/-- Magnitude of the float whose low 31 bits are `b`: exponent field `b / 2^23`, fraction field `b % 2^23`. -/
def magnitude32 (b : Nat) : ℚ :=
  if b / 2 ^ 23 = 0 then (b % 2 ^ 23 : Nat) * 2 ^ (-149 : Int)
  else (2 ^ 23 + b % 2 ^ 23 : Nat) * 2 ^ ((b / 2 ^ 23 : Nat) - 150 : Int)

/-- The float with these bits is finite: its exponent field is not all ones. -/
def Finite32 (bits : Nat) : Prop := bits / 2 ^ 23 % 2 ^ 8 ≠ 255

/-- The value of a finite float. -/
def floatValue (bits : Nat) : ℚ := (if bits / 2 ^ 31 % 2 = 1 then -1 else 1) * magnitude32 (bits % 2 ^ 31)

end Abieos.Spec
