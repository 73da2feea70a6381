import Verif.Spec.StaticValue
import Verif.Spec.Defined
/-!
The scalars inside a C++ value, and which of them have no text.
-/
namespace Abieos.Spec

mutual
/-- `ScalarIn P t v k b`: inside the value `v` of type `t` is a value of the builtin type `k`, with bytes `b`. -/
inductive ScalarIn (P : Prog) : CTy → SVal → Builtin → List UInt8 → Prop
  | self {k : Builtin} {b : List UInt8} : ScalarIn P (.leaf k) (.leaf b) k b
  | vec {t : CTy} {l : List SVal} {v : SVal} {k : Builtin} {b : List UInt8} : v ∈ l → ScalarIn P t v k b → ScalarIn P (.vec t) (.vec l) k b
  | present {t : CTy} {v : SVal} {k : Builtin} {b : List UInt8} : ScalarIn P t v k b → ScalarIn P (.opt t) (.present v) k b
  | alt {ts : List CTy} {i : Nat} {t : CTy} {v : SVal} {k : Builtin} {b : List UInt8} : ts[i]? = some t → ScalarIn P t v k b →
      ScalarIn P (.variant ts) (.alt i v) k b
  | struct {n : List UInt8} {l : List SVal} {k : Builtin} {b : List UInt8} : ScalarInFields P (P.fields n) l k b → ScalarIn P (.struct n) (.struct l) k b

inductive ScalarInFields (P : Prog) : List (List UInt8 × CTy) → List SVal → Builtin → List UInt8 → Prop
  | here {n : List UInt8} {t : CTy} {fs : List (List UInt8 × CTy)} {v : SVal} {l : List SVal} {k : Builtin} {b : List UInt8} : ScalarIn P t v k b →
      ScalarInFields P ((n, t) :: fs) (v :: l) k b
  | later {n : List UInt8} {t : CTy} {fs : List (List UInt8 × CTy)} {v : SVal} {l : List SVal} {k : Builtin} {b : List UInt8} :
      ScalarInFields P fs l k b → ScalarInFields P ((n, t) :: fs) (v :: l) k b
end

/-- The scalars without a text: the smallest amount of an asset, and floats that are negative with 24 digits. -/
def NoText : Builtin → List UInt8 → Prop
  | .asset, b => SmallestAmount b
  | .float64, b => LongFloat64 b
  | .float32, b => LongFloat32 b
  | _, _ => False

end Abieos.Spec
