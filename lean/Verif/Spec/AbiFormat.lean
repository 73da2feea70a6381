import Verif.Spec.BinLayout
import Verif.Spec.LittleEndian
import Verif.Model.Loader
/-!
The binary format of ABI definitions, stated without the code that writes or reads it.
-/
namespace Abieos.Spec

/-- One part after the other. -/
def Then (P Q : List UInt8 → Prop) (b : List UInt8) : Prop := ∃ x y, P x ∧ Q y ∧ b = x ++ y

@[inherit_doc] infixr:60 " ⨟ " => Then

/-- A string: its size, then its bytes. -/
def Str (s : List UInt8) (b : List UInt8) : Prop := ∃ h, Size s.length h ∧ b = h ++ s

/-- The parts of a list one after the other. -/
def Parts {α : Type} (R : α → List UInt8 → Prop) : List α → List UInt8 → Prop
  | [] => fun b => b = []
  | a :: l => R a ⨟ Parts R l

/-- A list: its size, then its elements. -/
def Many {α : Type} (R : α → List UInt8 → Prop) (l : List α) : List UInt8 → Prop := Size l.length ⨟ Parts R l

/-- An unsigned number of `n` bytes, little endian. -/
def Word (n v : Nat) (b : List UInt8) : Prop := v < 256 ^ n ∧ b.length = n ∧ leVal b = v

def TypeFormat (d : TypeDef) := Str d.newName ⨟ Str d.type

def FieldFormat (d : FieldDef) := Str d.name ⨟ Str d.type

def StructFormat (d : StructDef) := Str d.name ⨟ Str d.base ⨟ Many FieldFormat d.fields

def ActionFormat (d : ActionDef) := Word 8 d.name ⨟ Str d.type ⨟ Str d.ricardian

def TableFormat (d : TableDef) := Word 8 d.name ⨟ Str d.indexType ⨟ Many Str d.keyNames ⨟ Many Str d.keyTypes ⨟ Str d.type

def ClauseFormat (d : ClausePair) := Str d.id ⨟ Str d.body

def ErrorFormat (d : ErrorMessage) := Word 8 d.code ⨟ Str d.msg

def ExtensionFormat (d : Nat × Bytes) := Word 2 d.1 ⨟ Str d.2

def VariantFormat (d : VariantDef) := Str d.name ⨟ Many Str d.types

/-- The sections that are always there. -/
def HeadFormat (d : AbiDef) := Str d.version ⨟ Many TypeFormat d.types ⨟ Many StructFormat d.structs ⨟ Many ActionFormat d.actions ⨟
  Many TableFormat d.tables ⨟ Many ClauseFormat d.clauses ⨟ Many ErrorFormat d.errors ⨟ Many ExtensionFormat d.extensions

/-- An ABI definition with its trailing section. -/
def AbiFormat (d : AbiDef) := HeadFormat d ⨟ Many VariantFormat d.variants

/-- The size of a string or list fits. -/
def Fits {α : Type} (l : List α) : Prop := l.length < 2 ^ 32

/-- The definitions that have a binary form: every string and list has fewer than 2^32 elements, every number fits its field. -/
structure Storable (d : AbiDef) : Prop where
  version : Fits d.version
  types : Fits d.types ∧ ∀ t ∈ d.types, Fits t.newName ∧ Fits t.type
  structs : Fits d.structs ∧ ∀ t ∈ d.structs, Fits t.name ∧ Fits t.base ∧ Fits t.fields ∧ ∀ f ∈ t.fields, Fits f.name ∧ Fits f.type
  actions : Fits d.actions ∧ ∀ t ∈ d.actions, t.name < 2 ^ 64 ∧ Fits t.type ∧ Fits t.ricardian
  tables : Fits d.tables ∧ ∀ t ∈ d.tables, t.name < 2 ^ 64 ∧ Fits t.indexType ∧ (Fits t.keyNames ∧ ∀ k ∈ t.keyNames, Fits k) ∧
    (Fits t.keyTypes ∧ ∀ k ∈ t.keyTypes, Fits k) ∧ Fits t.type
  clauses : Fits d.clauses ∧ ∀ t ∈ d.clauses, Fits t.id ∧ Fits t.body
  errors : Fits d.errors ∧ ∀ t ∈ d.errors, t.code < 2 ^ 64 ∧ Fits t.msg
  extensions : Fits d.extensions ∧ ∀ t ∈ d.extensions, t.1 < 2 ^ 16 ∧ Fits t.2
  variants : Fits d.variants ∧ ∀ t ∈ d.variants, Fits t.name ∧ Fits t.types ∧ ∀ k ∈ t.types, Fits k

/-- Every number of the definition fits its field. -/
structure Words (d : AbiDef) : Prop where
  actions : ∀ t ∈ d.actions, t.name < 2 ^ 64
  tables : ∀ t ∈ d.tables, t.name < 2 ^ 64
  errors : ∀ t ∈ d.errors, t.code < 2 ^ 64
  extensions : ∀ t ∈ d.extensions, t.1 < 2 ^ 16

end Abieos.Spec
