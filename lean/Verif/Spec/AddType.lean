import Verif.Model.AddType
import Verif.Spec.StaticJson
/-!
What a type table says about a C++ type.
-/
namespace Abieos.Spec

/-- The ABI name of a C++ type: `T[]`, `T?`, `T$`, and `variant_` with the names of the alternatives, separated by underscores. -/
def typeText : CTy → List UInt8
  | .leaf k => k.typeName
  | .struct n => n
  | .vec t => typeText t ++ str "[]"
  | .opt t => typeText t ++ str "?"
  | .ext t => typeText t ++ str "$"
  | .variant ts => joinWith (str "_") (str "variant" :: go ts)
where
  go : List CTy → List (List UInt8)
    | [] => []
    | t :: ts => typeText t :: go ts

/-- `Uses P t u`: `u` is `t`, or the type of an element, alternative or field, of an element, ..., of `t`. -/
inductive Uses (P : Prog) : CTy → CTy → Prop
  | self {t : CTy} : Uses P t t
  | vec {t u : CTy} : Uses P t u → Uses P (.vec t) u
  | opt {t u : CTy} : Uses P t u → Uses P (.opt t) u
  | ext {t u : CTy} : Uses P t u → Uses P (.ext t) u
  | alt {ts : List CTy} {t u : CTy} : t ∈ ts → Uses P t u → Uses P (.variant ts) u
  | field {n m : List UInt8} {t u : CTy} : (m, t) ∈ P.fields n → Uses P t u → Uses P (.struct n) u

/-- What the table has to have under the name of a type. -/
def shape (P : Prog) : CTy → TData
  | .leaf k => .builtin k
  | .struct n => .struct ((P.fields n).map fun f => ⟨f.1, typeText f.2⟩)
  | .vec t => .array (typeText t)
  | .opt t => .optional (typeText t)
  | .ext t => .extension (typeText t)
  | .variant ts => .variant (ts.map fun t => ⟨typeText t, typeText t⟩)

/-- The table describes the type, down to the builtin types. -/
def Described (P : Prog) (T : Table) (t : CTy) : Prop := ∀ u, Uses P t u → T.get (typeText u) = some (shape P u)

/-- ABIs have no arrays or optionals of arrays, optionals or extensions, and no extensions of extensions. -/
def Nests : CTy → Prop
  | .vec (.vec _) | .vec (.opt _) | .vec (.ext _) => False
  | .opt (.vec _) | .opt (.opt _) | .opt (.ext _) => False
  | .ext (.ext _) => False
  | _ => True

/-- The types that `t` uses have different names. -/
def NamesDiffer (P : Prog) (t : CTy) : Prop := ∀ u w, Uses P t u → Uses P t w → typeText u = typeText w → u = w

/-- Where the table has an entry under the name of a type that `t` uses, it describes that type. -/
def Agrees (P : Prog) (T : Table) (t : CTy) : Prop := ∀ u, Uses P t u → T.get (typeText u) ≠ none → Described P T u

/-- What was in the table stays as it is. -/
def Keeps (T T' : Table) : Prop := ∀ k d, T.get k = some d → T'.get k = some d

end Abieos.Spec
