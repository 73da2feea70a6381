import Verif.Spec.AbiMeaning
import Verif.Spec.CallMessages
/-
What is wrong with an ABI definition that is refused, read off the definition alone.
-/
namespace Abieos.Spec

/-- The type text `k` has no meaning in `D`, for the reason `e`. -/
inductive TypeFault (D : AbiDef) : Bytes → Err → Prop
  /-- it is not declared and ends with none of the suffixes -/
  | unknown {k : Bytes} : Undeclared D k → NoSuffix k → TypeFault D k .unknown_type
  /-- what it is made of, or what it is a typedef of, has no meaning -/
  | inside {a b : Bytes} {e : Err} : Needs D a b → TypeFault D b e → TypeFault D a e
  /-- an optional, array or extension made optional or an array -/
  | optional {b : Bytes} {p : Ptr} : Undeclared D (b ++ str "?") → Denotes D b p → Undeclared D p → TypeFault D (b ++ str "?") .invalid_nesting
  | array {b : Bytes} {p : Ptr} : Undeclared D (b ++ str "[]") → Denotes D b p → Undeclared D p → TypeFault D (b ++ str "[]") .invalid_nesting
  /-- an extension of an extension -/
  | extension {b : Bytes} {p : Ptr} : Undeclared D (b ++ str "$") → Denotes D b p → IsExtText D p → TypeFault D (b ++ str "$") .invalid_nesting
  /-- a typedef of an extension -/
  | typedef {k t : Bytes} {p : Ptr} : Declares D k (.aliasDef t) → Denotes D t p → IsExtText D p → TypeFault D k .extension_typedef

/-- The first of the texts that has no meaning has none for the reason `e`. -/
inductive TypesFault (D : AbiDef) : List Bytes → Err → Prop
  | here {t : Bytes} {ts : List Bytes} {e : Err} : TypeFault D t e → TypesFault D (t :: ts) e
  | later {t : Bytes} {p : Ptr} {ts : List Bytes} {e : Err} : Denotes D t p → TypesFault D ts e → TypesFault D (t :: ts) e

/-- The struct has no meaning in `D`, for the reason `e`. Its base counts first, then its fields in order. -/
inductive StructFault (D : AbiDef) : StructDef → Err → Prop
  | base {s : StructDef} {e : Err} : s.base ≠ [] → TypeFault D s.base e → StructFault D s e
  | noStruct {s : StructDef} {p : Ptr} : s.base ≠ [] → Denotes D s.base p → (∀ b, ¬ Declares D p (.structDef b)) → (∀ fs, ¬ Declares D p (.struct fs)) →
      StructFault D s .base_not_a_struct
  | inherited {s b : StructDef} {p : Ptr} {e : Err} : s.base ≠ [] → Denotes D s.base p → Declares D p (.structDef b) → StructFault D b e → StructFault D s e
  | root {s : StructDef} {e : Err} : s.base = [] → TypesFault D (s.fields.map (·.type)) e → StructFault D s e
  | own {s b : StructDef} {p : Ptr} {fs : List Field} {e : Err} : s.base ≠ [] → Denotes D s.base p → Declares D p (.structDef b) → StructFields D b fs →
      TypesFault D (s.fields.map (·.type)) e → StructFault D s e
  | ownBuiltin {s : StructDef} {p : Ptr} {fs : List Field} {e : Err} : s.base ≠ [] → Denotes D s.base p → Declares D p (.struct fs) →
      TypesFault D (s.fields.map (·.type)) e → StructFault D s e

/-- What is declared under the name `k` has no meaning, for the reason `e`. -/
inductive DeclFault (D : AbiDef) : Bytes → Err → Prop
  | typedef {t : TypeDef} {e : Err} : t ∈ D.types → TypeFault D t.newName e → DeclFault D t.newName e
  | struct {s : StructDef} {e : Err} : s ∈ D.structs → StructFault D s e → DeclFault D s.name e
  | variant {v : VariantDef} {e : Err} : v ∈ D.variants → TypesFault D v.types e → DeclFault D v.name e

/-- The first declaration without a meaning, in the order of the names (as byte strings), has none for the reason `e`. -/
def FirstFault (D : AbiDef) (e : Err) : Prop := ∃ k, DeclFault D k e ∧ ∀ k' e', k' < k → ¬ DeclFault D k' e'

/-- There are `n` steps from the text to what it is made of or a typedef of. -/
inductive DeepText (D : AbiDef) : Nat → Bytes → Prop
  | zero (k : Bytes) : DeepText D 0 k
  | step {n : Nat} {a b : Bytes} : Needs D a b → DeepText D n b → DeepText D (n + 1) a

/-- There are `n` steps from the struct to its bases, and then perhaps to the texts of a base or field. -/
inductive DeepStruct (D : AbiDef) : Nat → StructDef → Prop
  | zero (s : StructDef) : DeepStruct D 0 s
  | base {n : Nat} {s : StructDef} : s.base ≠ [] → DeepText D n s.base → DeepStruct D (n + 1) s
  | inherited {n : Nat} {s b : StructDef} {p : Ptr} : s.base ≠ [] → Denotes D s.base p → Declares D p (.structDef b) → DeepStruct D n b → DeepStruct D (n + 1) s
  | field {n : Nat} {s : StructDef} {f : FieldDef} : f ∈ s.fields → DeepText D n f.type → DeepStruct D (n + 1) s

/-- There are 32 steps from something declared. -/
def TooDeep (D : AbiDef) : Prop :=
  (∃ t ∈ D.types, DeepText D 31 t.type) ∨ (∃ s ∈ D.structs, DeepStruct D 32 s) ∨ ∃ v ∈ D.variants, ∃ t ∈ v.types, DeepText D 31 t

end Abieos.Spec
