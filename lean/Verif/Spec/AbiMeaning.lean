import Verif.Model.Loader
/-
What an ABI definition means, independently of how it is loaded.
-/
namespace Abieos.Spec

/-- `k` is declared in `D` (or is a builtin type, or `extended_asset`), as what `d` says. -/
inductive Declares (D : AbiDef) : Bytes → TData → Prop
  | builtin (b : Builtin) : Declares D b.typeName (.builtin b)
  | extendedAsset : Declares D (str "extended_asset") (.struct [⟨str "quantity", str "asset"⟩, ⟨str "contract", str "name"⟩])
  | typedef {t : TypeDef} : t ∈ D.types → Declares D t.newName (.aliasDef t.type)
  | struct {s : StructDef} : s ∈ D.structs → Declares D s.name (.structDef s)
  | variant {v : VariantDef} : v ∈ D.variants → Declares D v.name (.variantDef v)

/-- The name is not declared. -/
def Undeclared (D : AbiDef) (k : Bytes) : Prop := ∀ d, ¬ Declares D k d

/-- The type is a binary extension: its text ends with `$` and it is not declared. -/
def IsExtText (D : AbiDef) (k : Bytes) : Prop := Undeclared D k ∧ ∃ b, k = b ++ str "$"

/-- The type text `k` denotes the type with the text `p`: follow typedefs; `b?`, `b[]` and `b$` are types of their own if they
are not declared and `b` denotes a type that may be wrapped so. -/
inductive Denotes (D : AbiDef) : Bytes → Ptr → Prop
  | declared {k : Bytes} {d : TData} : Declares D k d → (∀ t, d ≠ .aliasDef t) → Denotes D k k
  | typedef {k t : Bytes} {p : Ptr} : Declares D k (.aliasDef t) → Denotes D t p → ¬ IsExtText D p → Denotes D k p
  | optional {b : Bytes} {p : Ptr} : Undeclared D (b ++ str "?") → Denotes D b p → ¬ Undeclared D p → Denotes D (b ++ str "?") (b ++ str "?")
  | array {b : Bytes} {p : Ptr} : Undeclared D (b ++ str "[]") → Denotes D b p → ¬ Undeclared D p → Denotes D (b ++ str "[]") (b ++ str "[]")
  | extension {b : Bytes} {p : Ptr} : Undeclared D (b ++ str "$") → Denotes D b p → ¬ IsExtText D p → Denotes D (b ++ str "$") (b ++ str "$")

/-- Fields with the given names, of the types their texts denote, in the same order. -/
inductive FieldsOf (D : AbiDef) : List FieldDef → List Field → Prop
  | nil : FieldsOf D [] []
  | cons {f : FieldDef} {p : Ptr} {fs : List FieldDef} {l : List Field} : Denotes D f.type p → FieldsOf D fs l → FieldsOf D (f :: fs) (⟨f.name, p⟩ :: l)

/-- The fields of a struct: those of its base, if it has one, then its own. -/
inductive StructFields (D : AbiDef) : StructDef → List Field → Prop
  | root {s : StructDef} {own : List Field} : s.base = [] → FieldsOf D s.fields own → StructFields D s own
  | derived {s b : StructDef} {p : Ptr} {inherited own : List Field} : s.base ≠ [] → Denotes D s.base p → Declares D p (.structDef b) →
      StructFields D b inherited → FieldsOf D s.fields own → StructFields D s (inherited ++ own)
  | fromBuiltin {s : StructDef} {p : Ptr} {inherited own : List Field} : s.base ≠ [] → Denotes D s.base p → Declares D p (.struct inherited) →
      FieldsOf D s.fields own → StructFields D s (inherited ++ own)

/-- The type with the text `k` is built as `d` says. -/
inductive Meaning (D : AbiDef) : Bytes → TData → Prop
  | builtin {k : Bytes} {b : Builtin} : Declares D k (.builtin b) → Meaning D k (.builtin b)
  | extendedAsset {k : Bytes} {fs : List Field} : Declares D k (.struct fs) → Meaning D k (.struct fs)
  | struct {k : Bytes} {s : StructDef} {fs : List Field} : Declares D k (.structDef s) → StructFields D s fs → Meaning D k (.struct fs)
  | variant {k : Bytes} {v : VariantDef} {alts : List Field} : Declares D k (.variantDef v) → FieldsOf D (v.types.map fun t => ⟨t, t⟩) alts →
      Meaning D k (.variant alts)
  | typedef {k t : Bytes} {p : Ptr} : Declares D k (.aliasDef t) → Denotes D k p → Meaning D k (.alias p)
  | optional {b : Bytes} {p : Ptr} : Undeclared D (b ++ str "?") → Denotes D b p → ¬ Undeclared D p → Meaning D (b ++ str "?") (.optional p)
  | array {b : Bytes} {p : Ptr} : Undeclared D (b ++ str "[]") → Denotes D b p → ¬ Undeclared D p → Meaning D (b ++ str "[]") (.array p)
  | extension {b : Bytes} {p : Ptr} : Undeclared D (b ++ str "$") → Denotes D b p → ¬ IsExtText D p → Meaning D (b ++ str "$") (.extension p)

/-- No name is declared twice, or declared although it is builtin, or empty. -/
structure NamesOk (D : AbiDef) : Prop where
  nodup : (D.types.map (·.newName) ++ D.structs.map (·.name) ++ D.variants.map (·.name)).Nodup
  new : ∀ k ∈ D.types.map (·.newName) ++ D.structs.map (·.name) ++ D.variants.map (·.name), k ≠ [] ∧ k ≠ str "extended_asset" ∧ ∀ b : Builtin, k ≠ b.typeName

/-- To know what the text `a` denotes one must know what `b` denotes: `a` is a typedef of `b`, or `a` is `b?`, `b[]` or `b$` and
not declared. -/
inductive Needs (D : AbiDef) : Bytes → Bytes → Prop
  | typedef {a b : Bytes} : Declares D a (.aliasDef b) → Needs D a b
  | optional {b : Bytes} : Undeclared D (b ++ str "?") → Needs D (b ++ str "?") b
  | array {b : Bytes} : Undeclared D (b ++ str "[]") → Needs D (b ++ str "[]") b
  | extension {b : Bytes} : Undeclared D (b ++ str "$") → Needs D (b ++ str "$") b

/-- The struct `a` has the struct `b` as its base. -/
inductive Inherits (D : AbiDef) : Bytes → Bytes → Prop
  | base {a p : Bytes} {s : StructDef} {d : TData} : Declares D a (.structDef s) → s.base ≠ [] → Denotes D s.base p → Declares D p d → Inherits D a p

/-- `Denotes`, in at most `n` steps. -/
inductive DenotesIn (D : AbiDef) : Nat → Bytes → Ptr → Prop
  | declared {n : Nat} {k : Bytes} {d : TData} : Declares D k d → (∀ t, d ≠ .aliasDef t) → DenotesIn D (n + 1) k k
  | typedef {n : Nat} {k t : Bytes} {p : Ptr} : Declares D k (.aliasDef t) → DenotesIn D n t p → ¬ IsExtText D p → DenotesIn D (n + 1) k p
  | optional {n : Nat} {b : Bytes} {p : Ptr} : Undeclared D (b ++ str "?") → DenotesIn D n b p → ¬ Undeclared D p →
      DenotesIn D (n + 1) (b ++ str "?") (b ++ str "?")
  | array {n : Nat} {b : Bytes} {p : Ptr} : Undeclared D (b ++ str "[]") → DenotesIn D n b p → ¬ Undeclared D p →
      DenotesIn D (n + 1) (b ++ str "[]") (b ++ str "[]")
  | extension {n : Nat} {b : Bytes} {p : Ptr} : Undeclared D (b ++ str "$") → DenotesIn D n b p → ¬ IsExtText D p →
      DenotesIn D (n + 1) (b ++ str "$") (b ++ str "$")

/-- The base and the field types of the struct can be found, in at most `n` steps, counting inherited bases. -/
inductive StructIn (D : AbiDef) : Nat → StructDef → Prop
  | root {n : Nat} {s : StructDef} : s.base = [] → (∀ f ∈ s.fields, ∃ p, DenotesIn D n f.type p) → StructIn D (n + 1) s
  | derived {n : Nat} {s b : StructDef} {p : Ptr} : s.base ≠ [] → DenotesIn D n s.base p → Declares D p (.structDef b) → StructIn D n b →
      (∀ f ∈ s.fields, ∃ p, DenotesIn D n f.type p) → StructIn D (n + 1) s
  | fromBuiltin {n : Nat} {s : StructDef} {p : Ptr} {fs : List Field} : s.base ≠ [] → DenotesIn D n s.base p → Declares D p (.struct fs) →
      (∀ f ∈ s.fields, ∃ p, DenotesIn D n f.type p) → StructIn D (n + 1) s

/-- Everything the definition refers to can be found within the loader's limit of 32 steps. -/
structure Resolvable (D : AbiDef) : Prop where
  types : ∀ t ∈ D.types, ∃ p, DenotesIn D 31 t.type p ∧ ¬ IsExtText D p
  structs : ∀ s ∈ D.structs, StructIn D 32 s
  variants : ∀ v ∈ D.variants, ∀ t ∈ v.types, ∃ p, DenotesIn D 31 t p

end Abieos.Spec
