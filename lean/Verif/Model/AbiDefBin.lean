import Verif.Model.Loader
import Verif.Model.StaticBin
import Verif.Spec.LittleEndian
/-
The binary form of an ABI definition: `to_bin` / `from_bin` of `abi_def` (include/eosio/abi.hpp:64-140), that is the templates of
include/eosio/to_bin.hpp and include/eosio/from_bin.hpp instantiated at its members. The same functions over the universe `BTy` are in
Model/StaticBin.lean; Props/AbiDefBin.lean proves that they agree at `abiDefTy`.
-/
namespace Abieos
open Spec (leVal)

/-! ## Writing -/

/-- `to_bin(const std::string&)` (include/eosio/to_bin.hpp:52-61); `to_bin(const std::vector<char>&)` writes the same
(include/eosio/to_bin.hpp:83-93). -/
def textToBin (s : Bytes) : Res Bytes := do
  let h ← varuint32ToBin s.length
  .ok (h ++ s)

/-- the elements one after the other -/
def allToBin {α : Type} (w : α → Res Bytes) : List α → Res Bytes
  | [] => .ok []
  | a :: l => do
    let x ← w a
    let y ← allToBin w l
    .ok (x ++ y)

/-- `to_bin(const std::vector<T>&)` (include/eosio/to_bin.hpp:83-93) for `T` without bitwise serialization. -/
def vecToBin {α : Type} (w : α → Res Bytes) (l : List α) : Res Bytes := do
  let h ← varuint32ToBin l.length
  let e ← allToBin w l
  .ok (h ++ e)

/-- `to_bin` of an unsigned integer of `n` bytes, or of a `name`, whose only field is one (include/eosio/to_bin.hpp:160-168). -/
def wordToBin (n : Nat) (v : Nat) : Res Bytes := .ok (leBytes n v)

/-- `type_def` (include/eosio/abi.hpp:66-71) -/
def typeDefToBin (d : TypeDef) : Res Bytes := do
  let a ← textToBin d.newName
  let b ← textToBin d.type
  .ok (a ++ b)

/-- `field_def` (include/eosio/abi.hpp:73-78) -/
def fieldDefToBin (d : FieldDef) : Res Bytes := do
  let a ← textToBin d.name
  let b ← textToBin d.type
  .ok (a ++ b)

/-- `struct_def` (include/eosio/abi.hpp:80-86) -/
def structDefToBin (d : StructDef) : Res Bytes := do
  let a ← textToBin d.name
  let b ← textToBin d.base
  let c ← vecToBin fieldDefToBin d.fields
  .ok (a ++ (b ++ c))

/-- `action_def` (include/eosio/abi.hpp:88-94) -/
def actionDefToBin (d : ActionDef) : Res Bytes := do
  let a ← wordToBin 8 d.name
  let b ← textToBin d.type
  let c ← textToBin d.ricardian
  .ok (a ++ (b ++ c))

/-- `table_def` (include/eosio/abi.hpp:96-104) -/
def tableDefToBin (d : TableDef) : Res Bytes := do
  let a ← wordToBin 8 d.name
  let b ← textToBin d.indexType
  let c ← vecToBin textToBin d.keyNames
  let e ← vecToBin textToBin d.keyTypes
  let f ← textToBin d.type
  .ok (a ++ (b ++ (c ++ (e ++ f))))

/-- `clause_pair` (include/eosio/abi.hpp:106-111) -/
def clauseToBin (d : ClausePair) : Res Bytes := do
  let a ← textToBin d.id
  let b ← textToBin d.body
  .ok (a ++ b)

/-- `error_message` (include/eosio/abi.hpp:113-118) -/
def errorToBin (d : ErrorMessage) : Res Bytes := do
  let a ← wordToBin 8 d.code
  let b ← textToBin d.msg
  .ok (a ++ b)

/-- an element of `abi_extensions_type` (include/eosio/abi.hpp:64) -/
def extToBin (d : Nat × Bytes) : Res Bytes := do
  let a ← wordToBin 2 d.1
  let b ← textToBin d.2
  .ok (a ++ b)

/-- `variant_def` (include/eosio/abi.hpp:120-125) -/
def variantDefToBin (d : VariantDef) : Res Bytes := do
  let a ← textToBin d.name
  let b ← vecToBin textToBin d.types
  .ok (a ++ b)

/-- `to_bin(const abi_def&)` (include/eosio/abi.hpp:127-140); `might_not_exist` writes its value (include/eosio/abi.hpp:54-57). -/
def abiDefToBin (d : AbiDef) : Res Bytes := do
  let a ← textToBin d.version
  let b ← vecToBin typeDefToBin d.types
  let c ← vecToBin structDefToBin d.structs
  let e ← vecToBin actionDefToBin d.actions
  let f ← vecToBin tableDefToBin d.tables
  let g ← vecToBin clauseToBin d.clauses
  let h ← vecToBin errorToBin d.errors
  let i ← vecToBin extToBin d.extensions
  let j ← vecToBin variantDefToBin d.variants
  .ok (a ++ (b ++ (c ++ (e ++ (f ++ (g ++ (h ++ (i ++ j))))))))

/-! ## Reading -/

/-- `from_bin(std::string&)` (include/eosio/from_bin.hpp:167-173) -/
def textFromBin : Reader Bytes := fun s => do
  let (n, s) ← varuint32FromBin s
  readBytes n s

/-- `n` elements one after the other -/
def allFromBin {α : Type} (r : Reader α) : Nat → Reader (List α)
  | 0, s => .ok ([], s)
  | n + 1, s => do
    let (a, s) ← r s
    let (l, s) ← allFromBin r n s
    .ok (a :: l, s)

/-- `from_bin(std::vector<T>&)` (include/eosio/from_bin.hpp:92-116) for `T` without bitwise serialization. -/
def vecFromBin {α : Type} (r : Reader α) : Reader (List α) := fun s => do
  let (n, s) ← varuint32FromBin s
  allFromBin r n s

/-- `from_bin(std::vector<char>&)` (include/eosio/from_bin.hpp:92-116). -/
def charsFromBin : Reader Bytes := fun s => do
  let (k, s) ← varuint64FromBin s
  check (decide (k ≤ s.length)) .overrun
  check (decide (k ≤ vectorMax 1)) .alloc
  readBytes k s

/-- `from_bin` of an unsigned integer of `n` bytes, or of a `name`. -/
def wordFromBin (n : Nat) : Reader Nat := fun s => do
  let (b, s) ← readBytes n s
  .ok (leVal b, s)

/-- `type_def` (include/eosio/abi.hpp:66-71) -/
def typeDefFromBin : Reader TypeDef := fun s => do
  let (a, s) ← textFromBin s
  let (b, s) ← textFromBin s
  .ok (⟨a, b⟩, s)

/-- `field_def` (include/eosio/abi.hpp:73-78) -/
def fieldDefFromBin : Reader FieldDef := fun s => do
  let (a, s) ← textFromBin s
  let (b, s) ← textFromBin s
  .ok (⟨a, b⟩, s)

/-- `struct_def` (include/eosio/abi.hpp:80-86) -/
def structDefFromBin : Reader StructDef := fun s => do
  let (a, s) ← textFromBin s
  let (b, s) ← textFromBin s
  let (c, s) ← vecFromBin fieldDefFromBin s
  .ok (⟨a, b, c⟩, s)

/-- `action_def` (include/eosio/abi.hpp:88-94) -/
def actionDefFromBin : Reader ActionDef := fun s => do
  let (a, s) ← wordFromBin 8 s
  let (b, s) ← textFromBin s
  let (c, s) ← textFromBin s
  .ok (⟨a, b, c⟩, s)

/-- `table_def` (include/eosio/abi.hpp:96-104) -/
def tableDefFromBin : Reader TableDef := fun s => do
  let (a, s) ← wordFromBin 8 s
  let (b, s) ← textFromBin s
  let (c, s) ← vecFromBin textFromBin s
  let (e, s) ← vecFromBin textFromBin s
  let (f, s) ← textFromBin s
  .ok (⟨a, b, c, e, f⟩, s)

/-- `clause_pair` (include/eosio/abi.hpp:106-111) -/
def clauseFromBin : Reader ClausePair := fun s => do
  let (a, s) ← textFromBin s
  let (b, s) ← textFromBin s
  .ok (⟨a, b⟩, s)

/-- `error_message` (include/eosio/abi.hpp:113-118) -/
def errorFromBin : Reader ErrorMessage := fun s => do
  let (a, s) ← wordFromBin 8 s
  let (b, s) ← textFromBin s
  .ok (⟨a, b⟩, s)

/-- an element of `abi_extensions_type` (include/eosio/abi.hpp:64) -/
def extFromBin : Reader (Nat × Bytes) := fun s => do
  let (a, s) ← wordFromBin 2 s
  let (b, s) ← charsFromBin s
  .ok ((a, b), s)

/-- `variant_def` (include/eosio/abi.hpp:120-125) -/
def variantDefFromBin : Reader VariantDef := fun s => do
  let (a, s) ← textFromBin s
  let (b, s) ← vecFromBin textFromBin s
  .ok (⟨a, b⟩, s)

/-- `from_bin(might_not_exist<T>&)` (include/eosio/abi.hpp:48-51) -/
def maybeFromBin {α : Type} (d : α) (r : Reader α) : Reader α := fun s => if s = [] then .ok (d, s) else r s

/-- `from_bin(abi_def&)` (include/eosio/abi.hpp:127-140) -/
def abiDefFromBin : Reader AbiDef := fun s => do
  let (a, s) ← textFromBin s
  let (b, s) ← vecFromBin typeDefFromBin s
  let (c, s) ← vecFromBin structDefFromBin s
  let (e, s) ← vecFromBin actionDefFromBin s
  let (f, s) ← vecFromBin tableDefFromBin s
  let (g, s) ← vecFromBin clauseFromBin s
  let (h, s) ← vecFromBin errorFromBin s
  let (i, s) ← vecFromBin extFromBin s
  let (j, s) ← maybeFromBin [] (vecFromBin variantDefFromBin) s
  .ok (⟨a, b, c, e, f, g, h, i, j⟩, s)

end Abieos
