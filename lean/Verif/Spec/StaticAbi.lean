import Verif.Spec.SameType
import Verif.Spec.StaticValue
/-!
ABI types and C++ types with the same structure.
-/
namespace Abieos.Spec

/-- The same names in the same order, with corresponding types. -/
inductive SameMembers (R : List UInt8 → CTy → Prop) : List Field → List (List UInt8 × CTy) → Prop
  | nil : SameMembers R [] []
  | cons {f : Field} {m : List UInt8 × CTy} {fs : List Field} {ms : List (List UInt8 × CTy)} :
      f.name = m.1 → R f.type m.2 → SameMembers R fs ms → SameMembers R (f :: fs) (m :: ms)

/-- What an ABI type is made of is what the C++ type is made of: the same builtin type, an array (optional, extension) and a `std::vector` (`std::optional`,
`might_not_exist`) of corresponding types, structs with the same members of corresponding types, variants with corresponding alternatives; these
alternatives are called as the C++ types are. -/
inductive MadeLike (P : Prog) (R : List UInt8 → CTy → Prop) : TData → CTy → Prop
  | builtin {k : Builtin} : MadeLike P R (.builtin k) (.leaf k)
  | optional {p : List UInt8} {t : CTy} : R p t → MadeLike P R (.optional p) (.opt t)
  | extension {p : List UInt8} {t : CTy} : R p t → MadeLike P R (.extension p) (.ext t)
  | array {p : List UInt8} {t : CTy} : R p t → MadeLike P R (.array p) (.vec t)
  | struct {fs : List Field} {n : List UInt8} : SameMembers R fs (P.fields n) → MadeLike P R (.struct fs) (.struct n)
  | variant {fs : List Field} {ts : List CTy} : SameMembers R fs (ts.map fun t => (typeText t, t)) → MadeLike P R (.variant fs) (.variant ts)

/-- The text `type` in the definition `D` denotes a type of the same structure as the C++ type `t`: types can be made to correspond, these two among them, such that
corresponding types are made alike. (The names of structs and variants, typedefs and bases do not matter, except for the names of alternatives.) -/
def LikeCpp (D : AbiDef) (P : Prog) (type : List UInt8) (t : CTy) : Prop :=
  ∃ R : List UInt8 → CTy → Prop, (∃ p, Denotes D type p ∧ R p t) ∧ ∀ p u, R p u → ∃ d, Meaning D p d ∧ MadeLike P R d u

/-- A C++ type as it should be: different types that it uses have different names, and names of builtin types are only used for these; members of a struct have
different names, and there are less than 2^31 of them; nothing is a `might_not_exist`. -/
structure PlainType (P : Prog) (t : CTy) : Prop where
  names : NamesDiffer P t
  reserved : ∀ u k, Uses P t u → typeText u = Builtin.typeName k → u = .leaf k
  members : MembersDiffer P t
  size : ∀ n, Uses P t (.struct n) → (P.fields n).length < 2 ^ 31
  noExt : NoExt P t

end Abieos.Spec
