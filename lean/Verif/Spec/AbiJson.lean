import Verif.Model.Json
import Verif.Model.Loader
import Verif.Model.Murmur
import Verif.Model.Hex
import Verif.Spec.Decimal
/-!
What a JSON document says as an ABI definition, stated without the code that reads it: members may come in any order, unknown members
are ignored, missing members are empty; of a repeated text or number the last counts, repeated lists are joined.
-/
namespace Abieos.Spec

/-- The values of the members with a key. -/
def valsOf (k : List UInt8) (l : List (List UInt8 × JVal)) : List JVal := (l.filter fun p => p.1 == k).map Prod.snd

/-- Element by element. -/
def Each {α β : Type} (R : α → β → Prop) : List α → List β → Prop
  | [], [] => True
  | a :: l, b :: m => R a b ∧ Each R l m
  | _, _ => False

/-- Each of the values reads as something; the last is what counts, `d` if there is none. -/
def Last {β : Type} (R : JVal → β → Prop) (d : β) (vs : List JVal) (x : β) : Prop := ∃ ys, Each R vs ys ∧ x = ys.getLast?.getD d

/-- Each of the values is a list; their elements, all together, read as `xs`. -/
def Joined {β : Type} (R : JVal → β → Prop) (vs : List JVal) (xs : List β) : Prop := ∃ ls : List (List JVal), vs = ls.map .arr ∧ Each R ls.flatten xs

/-- a text -/
def IsText (v : JVal) (s : List UInt8) : Prop := v = .str s

/-- a name: the 64-bit number the text stands for -/
def IsName (v : JVal) (n : Nat) : Prop := ∃ s, v = .str s ∧ n = hashName s

/-- an unsigned 64-bit number, as a JSON number or as a text -/
def IsNumber (v : JVal) (n : Nat) : Prop := ∃ s, v = .str s ∧ IsDecimal s n ∧ n < 2 ^ 64

def TypeDoc (v : JVal) (d : TypeDef) : Prop := ∃ l, v = .obj l ∧
  Last IsText [] (valsOf (str "new_type_name") l) d.newName ∧ Last IsText [] (valsOf (str "type") l) d.type

def FieldDoc (v : JVal) (d : FieldDef) : Prop := ∃ l, v = .obj l ∧
  Last IsText [] (valsOf (str "name") l) d.name ∧ Last IsText [] (valsOf (str "type") l) d.type

def StructDoc (v : JVal) (d : StructDef) : Prop := ∃ l, v = .obj l ∧
  Last IsText [] (valsOf (str "name") l) d.name ∧ Last IsText [] (valsOf (str "base") l) d.base ∧
  Joined FieldDoc (valsOf (str "fields") l) d.fields

def ActionDoc (v : JVal) (d : ActionDef) : Prop := ∃ l, v = .obj l ∧
  Last IsName 0 (valsOf (str "name") l) d.name ∧ Last IsText [] (valsOf (str "type") l) d.type ∧
  Last IsText [] (valsOf (str "ricardian_contract") l) d.ricardian

def TableDoc (v : JVal) (d : TableDef) : Prop := ∃ l, v = .obj l ∧
  Last IsName 0 (valsOf (str "name") l) d.name ∧ Last IsText [] (valsOf (str "index_type") l) d.indexType ∧
  Joined IsText (valsOf (str "key_names") l) d.keyNames ∧ Joined IsText (valsOf (str "key_types") l) d.keyTypes ∧
  Last IsText [] (valsOf (str "type") l) d.type

def ClauseDoc (v : JVal) (d : ClausePair) : Prop := ∃ l, v = .obj l ∧
  Last IsText [] (valsOf (str "id") l) d.id ∧ Last IsText [] (valsOf (str "body") l) d.body

def ErrorDoc (v : JVal) (d : ErrorMessage) : Prop := ∃ l, v = .obj l ∧
  Last IsNumber 0 (valsOf (str "error_code") l) d.code ∧ Last IsText [] (valsOf (str "error_msg") l) d.msg

def VariantDoc (v : JVal) (d : VariantDef) : Prop := ∃ l, v = .obj l ∧
  Last IsText [] (valsOf (str "name") l) d.name ∧ Joined IsText (valsOf (str "types") l) d.types

/-- The document describes the definition. Extensions cannot be written in JSON: their list must be empty. -/
def AbiDoc (v : JVal) (d : AbiDef) : Prop := ∃ l, v = .obj l ∧
  Last IsText [] (valsOf (str "version") l) d.version ∧
  Joined TypeDoc (valsOf (str "types") l) d.types ∧
  Joined StructDoc (valsOf (str "structs") l) d.structs ∧
  Joined ActionDoc (valsOf (str "actions") l) d.actions ∧
  Joined TableDoc (valsOf (str "tables") l) d.tables ∧
  Joined ClauseDoc (valsOf (str "ricardian_clauses") l) d.clauses ∧
  Joined ErrorDoc (valsOf (str "error_messages") l) d.errors ∧
  Joined (fun _ _ => False) (valsOf (str "abi_extensions") l) d.extensions ∧
  Joined VariantDoc (valsOf (str "variants") l) d.variants

end Abieos.Spec
