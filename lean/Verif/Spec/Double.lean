import Verif.Spec.JsonNumber
import Mathlib.Algebra.Order.Field.Rat
import Mathlib.Algebra.Order.Field.Power
/-
The value of a JSON number text, and IEEE 754 binary64 numbers, independently of the printer.
-/
namespace Abieos.Spec

/-- The JSON number text `t` denotes `x`: the digits before and after the point as one integer, times ten to the exponent less the
number of digits after the point. -/
def NumberValue (t : List UInt8) (x : ℚ) : Prop :=
  ∃ (neg : Bool) (int fd frac exp : List UInt8) (e : Int),
    t = (if neg then [45] else []) ++ (int ++ (frac ++ exp)) ∧ Digits int ∧ (int.head? = some 48 → int.length = 1) ∧
    ((fd = [] ∧ frac = []) ∨ (Digits fd ∧ frac = 46 :: fd)) ∧
    ((exp = [] ∧ e = 0) ∨ ∃ E sg d, (E = 101 ∨ E = 69) ∧ (sg = [] ∨ sg = [43] ∨ sg = [45]) ∧ Digits d ∧ exp = E :: (sg ++ d) ∧
      e = if sg = [45] then -(decVal d : Int) else decVal d) ∧
    x = (if neg then -1 else 1) * (decVal (int ++ fd) * 10 ^ (e - fd.length))

/-- Magnitude of the double whose low 63 bits are `b`: exponent field `b / 2^52`, fraction field `b % 2^52`. -/
def magnitude (b : Nat) : ℚ :=
  if b / 2 ^ 52 = 0 then (b % 2 ^ 52 : Nat) * 2 ^ (-1074 : Int)
  else (2 ^ 52 + b % 2 ^ 52 : Nat) * 2 ^ ((b / 2 ^ 52 : Nat) - 1075 : Int)

/-- The double with these bits is finite: its exponent field is not all ones. -/
def Finite (bits : Nat) : Prop := bits / 2 ^ 52 % 2 ^ 11 ≠ 2047

/-- The value of a finite double. -/
def doubleValue (bits : Nat) : ℚ := (if bits / 2 ^ 63 % 2 = 1 then -1 else 1) * magnitude (bits % 2 ^ 63)

/-- The double `bits` is nearer to `x` than every finite double of another value. -/
def Nearest (bits : Nat) (x : ℚ) : Prop :=
  ∀ b, b < 2 ^ 64 → Finite b → doubleValue b ≠ doubleValue bits → |x - doubleValue bits| < |x - doubleValue b|

end Abieos.Spec
