import Verif.Spec.Wire
import Verif.Spec.Shown
/-
How large a definition makes the texts of its values.
-/
namespace Abieos.Spec

/-- The number of characters of the names, written as members of a JSON object in the longest way. -/
def namesSize : List Field → Nat
  | [] => 0
  | f :: fs => 6 * f.name.length + 4 + namesSize fs

/-- Written in the longest way, the names of the fields of a struct, or of the alternatives of a variant, take up at most `w` characters. -/
def NamesWithin (D : AbiDef) (w : Nat) : Prop := ∀ k fs, Meaning D k (.struct fs) ∨ Meaning D k (.variant fs) → namesSize fs ≤ w

/-- Every struct has a field that is not a binary extension. -/
def NoEmptyStruct (D : AbiDef) : Prop := ∀ k fs, Meaning D k (.struct fs) → ∃ f ∈ fs, ¬ ∃ q, Meaning D f.type (.extension q)

end Abieos.Spec
