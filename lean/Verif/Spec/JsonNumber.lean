import Verif.Spec.Decimal
/-
The grammar of JSON numbers (RFC 8259, section 6), independently of the reader.
-/
namespace Abieos.Spec

/-- A non-empty string of decimal digits. -/
def Digits (s : List UInt8) : Prop := s ≠ [] ∧ ∀ c ∈ s, IsDigit c

/-- `number = [ minus ] int [ frac ] [ exp ]`; `int` has no leading zero unless it is `0`. -/
def JsonNumber (t : List UInt8) : Prop :=
  ∃ sign int frac exp, t = sign ++ (int ++ (frac ++ exp)) ∧ (sign = [] ∨ sign = [45]) ∧ Digits int ∧ (int.head? = some 48 → int.length = 1) ∧
    (frac = [] ∨ ∃ d, Digits d ∧ frac = 46 :: d) ∧
    (exp = [] ∨ ∃ e sg d, (e = 101 ∨ e = 69) ∧ (sg = [] ∨ sg = [43] ∨ sg = [45]) ∧ Digits d ∧ exp = e :: (sg ++ d))

end Abieos.Spec
