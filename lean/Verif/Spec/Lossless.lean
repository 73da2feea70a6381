import Verif.Spec.Occurs
import Verif.Spec.SymbolText
import Verif.Model.Builtins
/-
Which scalars of a document keep their value on the way through binary and JSON, by builtin type.
-/
namespace Abieos.Spec

/-- `strtof` and `strtod` return 32 and 64 bits. -/
structure FloatBits (F : Floats) : Prop where
  strtof : ∀ s v, F.strtof s = some v → v < 2 ^ 32
  strtod : ∀ s v, F.strtod s = some v → v < 2 ^ 64

/-- The number with these `bits` (`dbl` as a double) is printed, the C library reads what is printed, and the number it gets has
the bits `bits'`. -/
def PrintsTo (strto : Bytes → Option Nat) (dbl bits' : Nat) : Prop :=
  ∃ t s, fpToJson dbl = .ok t ∧ Reads t (.str s) ∧ s ≠ [] ∧ strto s = some bits'

/-- `b` is the encoding of a scalar of type `k`. The types that do not keep every value they can encode:
a `time_point` is printed to the millisecond; the amount -2^63 of an asset cannot be printed; for floating point numbers it
depends on the C library. -/
def Lossless (F : Floats) : Builtin → Bytes → Prop
  | .time_point, b => leVal b % 1000 = 0
  | .asset, b => leVal (b.take 8) ≠ 2 ^ 63
  | .float32, b => PrintsTo F.strtof (widenFloat (leVal b)) (leVal b)
  | .float64, b => PrintsTo F.strtod (leVal b) (leVal b)
  | _, _ => True

/-- Every scalar of the document, read as a value of type `ty`, is encoded without loss. -/
def LosslessDoc (T : Table) (F : Floats) (ty : Ptr) (v : JVal) : Prop :=
  ∀ a ty' k s b, Occurs T true ty v a ty' (ofScalar s) → T.get ty' = some (.builtin k) → (builtins F).toBin k s = .ok b → Lossless F k b

/-- `s` is a text of type `k` that was printed by the library, and that it takes back. Types that print values they do not take
back, or take back differently: a `time_point` outside the years 1970 to 2106; symbols whose code is not one to seven upper-case
letters; byte strings of 2^32 bytes or more; and floating point numbers, depending on the C library. -/
def TakesBack (F : Floats) : Builtin → Scalar → Prop
  | .time_point, s => ∃ us : Nat, us < 2 ^ 32 * 1000000 ∧ s = .str (microsecondsToStr us)
  | .symbol_code, s => ∃ l, CodeText l ∧ s = .str l
  | .symbol, s => ∃ (p : Nat) (l : Bytes), p < 256 ∧ CodeText l ∧ s = .str (symbolToString (p + 256 * leVal l))
  | .asset, s => ∃ (a : Int) (p : Nat) (l t : Bytes), -2 ^ 63 < a ∧ a < 2 ^ 63 ∧ p < 256 ∧ CodeText l ∧
      assetToString a (p + 256 * leVal l) = .ok t ∧ s = .str t
  | .bytes, .str s => s.length < 2 ^ 33
  | .float32, .str s => ∃ bits t, F.strtof s = some bits ∧ fpToJson (widenFloat bits) = .ok t ∧ Reads t (.str s)
  | .float64, .str s => ∃ bits t, F.strtod s = some bits ∧ fpToJson bits = .ok t ∧ Reads t (.str s)
  | _, _ => True

/-- Every scalar of the document, read as a value of type `ty`, is taken back. -/
def TakesBackDoc (T : Table) (F : Floats) (ty : Ptr) (v : JVal) : Prop :=
  ∀ a ty' k s, Occurs T true ty v a ty' (ofScalar s) → T.get ty' = some (.builtin k) → TakesBack F k s

end Abieos.Spec
