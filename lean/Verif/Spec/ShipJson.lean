import Verif.Spec.Ship
import Verif.Spec.Shown
import Verif.Spec.StaticJson
import Verif.Spec.Defined
import Verif.Model.Ship
/-!
The JSON of a message, trace or row of the state-history protocol. The names and types of the members are those of `Ship.prog`.
-/
namespace Abieos.Spec.Ship
open Abieos.Ship (prog)

/-- The types with a conversion to JSON: those of messages, traces and rows, and the structs, but `get_blocks_result_v1` and what it is in
(`result`). -/
def HasJson (t : CTy) : Prop := (t ∈ Abieos.Ship.variants ∨ ∃ n, t = .struct n) ∧ ¬ Uses prog t (.struct (str "get_blocks_result_v1"))

/-- The structs with a state of a transaction: their member `status`. -/
def withStatus : List (List UInt8) := [str "transaction_trace_v0", str "transaction_receipt_header", str "transaction_receipt_v0",
  str "transaction_receipt"]

/-- The member of the struct is the state of a transaction. -/
def StatusMember (struct member : List UInt8) : Prop := struct ∈ withStatus ∧ member = str "status"

mutual
/-- `Displays F t v x`: `x` is the JSON of the value `v` of type `t`. A number, name, time, key … is its text, as in any other conversion
(`F` is how a double is printed); a vector is an array, an optional is `null` or what is in it, a variant is an array of the name of the type
and the value, and a struct an object with its members in order. The state of a transaction is its name, not the number it is stored as. -/
inductive Displays (F : Nat → List UInt8 → Prop) : CTy → SVal → Tree → Prop
  | scalar {k : Builtin} {b t : List UInt8} : ShownScalar F k b t → Displays F (.leaf k) (.leaf b) (.atom t)
  | vec {t : CTy} {l : List SVal} {x : List Tree} : DisplaysAll F t l x → Displays F (.vec t) (.vec l) (.arr x)
  | absent {t : CTy} : Displays F (.opt t) .absent (.atom (str "null"))
  | present {t : CTy} {v : SVal} {x : Tree} : Displays F t v x → Displays F (.opt t) (.present v) x
  | alt {ts : List CTy} {i : Nat} {t : CTy} {v : SVal} {x : Tree} {n : List UInt8} : ts[i]? = some t → JsonStr t.name n → Displays F t v x →
      Displays F (.variant ts) (.alt i v) (.arr [.atom n, x])
  | struct {n : List UInt8} {l : List SVal} {x : List (List UInt8 × Tree)} : DisplaysFields F n (prog.fields n) l x →
      Displays F (.struct n) (.struct l) (.obj x)

inductive DisplaysAll (F : Nat → List UInt8 → Prop) : CTy → List SVal → List Tree → Prop
  | nil {t : CTy} : DisplaysAll F t [] []
  | cons {t : CTy} {v : SVal} {l : List SVal} {x : Tree} {r : List Tree} : Displays F t v x → DisplaysAll F t l r → DisplaysAll F t (v :: l) (x :: r)

inductive DisplaysFields (F : Nat → List UInt8 → Prop) : List UInt8 → List (List UInt8 × CTy) → List SVal → List (List UInt8 × Tree) → Prop
  | nil {n : List UInt8} : DisplaysFields F n [] [] []
  | status {n f : List UInt8} {t : CTy} {fs : List (List UInt8 × CTy)} {c : UInt8} {s q : List UInt8} {l : List SVal} {r : List (List UInt8 × Tree)} :
      StatusMember n f → (c, s) ∈ states → JsonStr f q → DisplaysFields F n fs l r →
      DisplaysFields F n ((f, t) :: fs) (.leaf [c] :: l) ((q, .atom (str "\"" ++ s ++ str "\"")) :: r)
  | member {n f : List UInt8} {t : CTy} {fs : List (List UInt8 × CTy)} {v : SVal} {l : List SVal} {x : Tree} {q : List UInt8} {r : List (List UInt8 × Tree)} :
      ¬ StatusMember n f → JsonStr f q → Displays F t v x → DisplaysFields F n fs l r → DisplaysFields F n ((f, t) :: fs) (v :: l) ((q, x) :: r)
end

mutual
/-- `Contains t v Q`: somewhere in the value `v` of type `t` is a scalar, of type `k` and with bytes `b`, for which `Q k b` holds; for the
state of a transaction the type is `none`. -/
inductive Contains (Q : Option Builtin → List UInt8 → Prop) : CTy → SVal → Prop
  | scalar {k : Builtin} {b : List UInt8} : Q (some k) b → Contains Q (.leaf k) (.leaf b)
  | vec {t : CTy} {l : List SVal} {v : SVal} : v ∈ l → Contains Q t v → Contains Q (.vec t) (.vec l)
  | present {t : CTy} {v : SVal} : Contains Q t v → Contains Q (.opt t) (.present v)
  | alt {ts : List CTy} {i : Nat} {t : CTy} {v : SVal} : ts[i]? = some t → Contains Q t v → Contains Q (.variant ts) (.alt i v)
  | struct {n : List UInt8} {l : List SVal} : ContainsField Q n (prog.fields n) l → Contains Q (.struct n) (.struct l)

inductive ContainsField (Q : Option Builtin → List UInt8 → Prop) : List UInt8 → List (List UInt8 × CTy) → List SVal → Prop
  | status {n f : List UInt8} {t : CTy} {fs : List (List UInt8 × CTy)} {b : List UInt8} {l : List SVal} : StatusMember n f → Q none b →
      ContainsField Q n ((f, t) :: fs) (.leaf b :: l)
  | member {n f : List UInt8} {t : CTy} {fs : List (List UInt8 × CTy)} {v : SVal} {l : List SVal} : ¬ StatusMember n f → Contains Q t v →
      ContainsField Q n ((f, t) :: fs) (v :: l)
  | later {n f : List UInt8} {t : CTy} {fs : List (List UInt8 × CTy)} {v : SVal} {l : List SVal} : ContainsField Q n fs l →
      ContainsField Q n ((f, t) :: fs) (v :: l)
end

/-- A state of a transaction that has no name. -/
def NoName : Option Builtin → List UInt8 → Prop
  | none, b => ∀ s, ∀ c, b = [c] → (c, s) ∉ states
  | some _, _ => False

/-- A double that cannot be printed (see `LongFloat64`). -/
def LongText : Option Builtin → List UInt8 → Prop
  | some .float64, b => LongFloat64 b
  | _, _ => False

end Abieos.Spec.Ship
