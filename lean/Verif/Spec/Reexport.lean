import Verif.Props.Lookup
import Verif.Spec.AddType
/-!
ABIs made in a program.
-/
namespace Abieos.Spec

/-- An `abi` as a program can make it: from a definition, by looking up texts and then adding C++ types. The types added have different names that no other type of the
ABI has, unless it is the same type; structs have names. -/
inductive Built : Table → Prop
  | loaded {D : AbiDef} {T : Table} {names : List Bytes} : LoadTypes D (.ok T) → Built (lookups names T)
  | added {T T' : Table} {P : Prog} {t : CTy} {p : Ptr} : Built T → NamesDiffer P t → Agrees P T t → (∀ n, Uses P t (.struct n) → n ≠ []) → AddType P t T (.ok p) T' → Built T'

end Abieos.Spec
