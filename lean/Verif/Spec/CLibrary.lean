import Verif.Spec.Single
import Verif.Spec.Lossless
import Verif.Spec.Defined
/-
What is asked of `strtod` and `strtof` of the C library (ISO C 7.22.1.3 with IEEE 754 arithmetic, rounding to nearest, "C" locale).
Nothing is asked about texts between two numbers at equal distance, about overflow, nor about results that are subnormal: for those
an implementation may set `errno`, and the library then refuses the text (include/eosio/from_json.hpp:488, 500).
-/
namespace Abieos.Spec

/-- The float `bits` is nearer to `x` than every finite float of another value. -/
def Nearest32 (bits : Nat) (x : ℚ) : Prop :=
  ∀ b, b < 2 ^ 32 → Finite32 b → floatValue b ≠ floatValue bits → |x - floatValue bits| < |x - floatValue b|

/-- `strtod`: a decimal number in the range of normal doubles that is nearest to one finite double gives that double; zero gives zero with
the sign of the text; the names of infinity and of "not a number" give these. -/
structure RoundsDouble (strtod : List UInt8 → Option Nat) : Prop where
  zero : ∀ t, NumberValue t 0 → strtod t = some (if t.head? = some 45 then 2 ^ 63 else 0)
  normal : ∀ t x bits, NumberValue t x → 2 ^ (-1022 : Int) ≤ |x| → |x| < 2 ^ 1024 - 2 ^ 970 → bits < 2 ^ 64 → Finite bits →
    (t.head? = some 45 ↔ bits / 2 ^ 63 % 2 = 1) → Nearest bits x → strtod t = some bits
  infinity : strtod (str "Infinity") = some (2047 * 2 ^ 52)
  minusInfinity : strtod (str "-Infinity") = some (2 ^ 63 + 2047 * 2 ^ 52)
  nan : strtod (str "NaN") = some (2047 * 2 ^ 52 + 2 ^ 51)

/-- `strtof`, likewise. -/
structure RoundsFloat (strtof : List UInt8 → Option Nat) : Prop where
  zero : ∀ t, NumberValue t 0 → strtof t = some (if t.head? = some 45 then 2 ^ 31 else 0)
  normal : ∀ t x bits, NumberValue t x → 2 ^ (-126 : Int) ≤ |x| → |x| < 2 ^ 128 - 2 ^ 103 → bits < 2 ^ 32 → Finite32 bits →
    (t.head? = some 45 ↔ bits / 2 ^ 31 % 2 = 1) → Nearest32 bits x → strtof t = some bits
  infinity : strtof (str "Infinity") = some (255 * 2 ^ 23)
  minusInfinity : strtof (str "-Infinity") = some (2 ^ 31 + 255 * 2 ^ 23)
  nan : strtof (str "NaN") = some (255 * 2 ^ 23 + 2 ^ 22)

/-- The C library reads numbers that way, and returns 32 and 64 bits. -/
structure RoundsCorrectly (F : Floats) : Prop where
  bits : FloatBits F
  float : RoundsFloat F.strtof
  double : RoundsDouble F.strtod

/-- A double that survives being printed and read: zero, a normal number, an infinity, or the usual "not a number". Left out: subnormal
numbers and "not a number" with a sign or another payload. -/
def KeptDouble (bits : Nat) : Prop :=
  bits % 2 ^ 63 = 0 ∨ (Finite bits ∧ 2 ^ (-1022 : Int) ≤ |doubleValue bits|) ∨ bits % 2 ^ 63 = 2047 * 2 ^ 52 ∨ bits = 2047 * 2 ^ 52 + 2 ^ 51

/-- A float that survives. The smallest normal float is left out: as a double it is printed as 1.1754943508222875e-38, which is less than
2^-126, so that `strtof` may report underflow. -/
def KeptFloat (bits : Nat) : Prop :=
  bits % 2 ^ 31 = 0 ∨ (Finite32 bits ∧ 2 ^ (-126 : Int) < |floatValue bits|) ∨ bits % 2 ^ 31 = 255 * 2 ^ 23 ∨ bits = 255 * 2 ^ 23 + 2 ^ 22

/-- `b` is the encoding of a scalar of type `k`: what is lost through the text, as in `Lossless`, but with what can be said about
floating point numbers if the C library rounds correctly. A double with a text of 25 characters overruns a buffer when printed (C49). -/
def KeptScalar : Builtin → List UInt8 → Prop
  | .time_point, b => leVal b % 1000 = 0
  | .asset, b => leVal (b.take 8) ≠ 2 ^ 63
  | .float32, b => KeptFloat (leVal b) ∧ ¬ ∃ bits, floatValue (leVal b) = doubleValue bits ∧ LongDouble bits
  | .float64, b => KeptDouble (leVal b) ∧ ¬ LongDouble (leVal b)
  | _, _ => True

end Abieos.Spec
