import Verif.Model.Loader
import Verif.Model.Json
import Verif.Model.Hex
import Verif.Model.JsonInt
import Verif.Model.Murmur
/-
The JSON form of an ABI definition: `from_json` of `abi_def`, that is the templates of include/eosio/from_json.hpp instantiated at its
members (include/eosio/abi.hpp:64-140). `from_json(T& obj, stream)` changes an object and takes tokens from a stream.
-/
namespace Abieos

/-- `from_json(T&, json_token_stream&)`: from an object and the tokens ahead to the object and the tokens left. -/
abbrev TokReader (α : Type) := α → List Tok → Res (α × List Tok)

/-- Error of `peek_token` at the end of the tokens (include/eosio/from_json.hpp:192-200). It does not happen in a document. -/
def noToken : Err := .unspecific_syntax_error

/-- `get_string` (include/eosio/from_json.hpp:227-233). -/
def getString : List Tok → Res (Bytes × List Tok)
  | .str s :: ts => .ok (s, ts)
  | [] => .error noToken
  | _ => .error .expected_string

/-- `from_json(std::string&)` (include/eosio/from_json.hpp:380-383). -/
def strFromJson : TokReader Bytes := fun _ ts => getString ts

/-- `from_json(name&)` (include/eosio/name.hpp:153-157). -/
def nameFromJson : TokReader Nat := fun _ ts => do
  let (s, ts) ← getString ts
  .ok (hashName s, ts)

/-- `from_json(uint64_t&)` (include/eosio/from_json.hpp:385-414, 434-438). -/
def uint64FromJson : TokReader Nat := fun _ ts => do
  let (s, ts) ← getString ts
  let v ← fromJsonInt ⟨false, 64⟩ s
  .ok (v.toNat, ts)

/-- The loop of `from_json(std::vector<T>&)` (include/eosio/from_json.hpp:540-551): elements are added at the end of what the vector
holds. `d` is `T{}`. The first argument bounds the number of elements. -/
def vecLoop {α : Type} (d : α) (r : TokReader α) : Nat → List α → List Tok → Res (List α × List Tok)
  | 0, _, _ => .error .ub
  | _ + 1, _, [] => .error noToken
  | _ + 1, acc, .endArr :: ts => .ok (acc, ts)
  | n + 1, acc, t :: ts => do
    let (a, ts) ← r d (t :: ts)
    vecLoop d r n (acc ++ [a]) ts

/-- `from_json(std::vector<T>&)` (include/eosio/from_json.hpp:539-551). -/
def vecFromJson {α : Type} (d : α) (r : TokReader α) : TokReader (List α) := fun acc ts =>
  match ts with
  | .startArr :: ts => vecLoop d r (ts.length + 1) acc ts
  | [] => .error noToken
  | _ => .error .expected_start_array

/-- `from_json_skip_value` (include/eosio/from_json.hpp:623-635). The depth is taken not to wrap at 2^64; a value does not begin with an
end token. -/
def skipLoop : Nat → List Tok → Res (List Tok)
  | _, [] => .error noToken
  | d, .startObj :: ts | d, .startArr :: ts => skipLoop (d + 1) ts
  | d, .endObj :: ts | d, .endArr :: ts => if d = 0 then .error .ub else if d = 1 then .ok ts else skipLoop (d - 1) ts
  | d, _ :: ts => if d = 0 then .ok ts else skipLoop d ts

/-- The loop of `from_json_object` (include/eosio/from_json.hpp:610-621); `f` reads the value of a key. The first argument bounds the
number of members. -/
def objLoop {α : Type} (f : Bytes → Option (TokReader α)) : Nat → α → List Tok → Res (α × List Tok)
  | 0, _, _ => .error .ub
  | _ + 1, _, [] => .error noToken
  | _ + 1, obj, .endObj :: ts => .ok (obj, ts)
  | n + 1, obj, .key k :: ts =>
    match f k with
    | some r => do
      let (obj, ts) ← r obj ts
      objLoop f n obj ts
    | none => do
      let ts ← skipLoop 0 ts
      objLoop f n obj ts
  | _ + 1, _, _ => .error .expected_key

/-- `from_json(T& obj)` for a reflected object (include/eosio/from_json.hpp:640-653); `f k` is the reader of the member with name `k`. -/
def objFromJson {α : Type} (f : Bytes → Option (TokReader α)) : TokReader α := fun obj ts =>
  match ts with
  | .startObj :: ts => objLoop f (ts.length + 1) obj ts
  | [] => .error noToken
  | _ => .error .expected_start_object

/-- `from_json(member(&obj), stream)`: read into a member of the object. -/
def member {α β : Type} (get : α → β) (set : α → β → α) (r : TokReader β) : TokReader α := fun obj ts => do
  let (b, ts) ← r (get obj) ts
  .ok (set obj b, ts)

/-- `from_json(std::pair&)` (include/eosio/from_json.hpp:655-658) always fails. -/
def pairFromJson : TokReader (Nat × Bytes) := fun _ _ => .error .from_json_no_pair

/-- `type_def` (include/eosio/abi.hpp:66-71) -/
def typeKey (k : Bytes) : Option (TokReader TypeDef) :=
  if k = str "new_type_name" then some (member TypeDef.newName (fun o x => { o with newName := x }) strFromJson)
  else if k = str "type" then some (member TypeDef.type (fun o x => { o with type := x }) strFromJson)
  else none

/-- `field_def` (include/eosio/abi.hpp:73-78) -/
def fieldKey (k : Bytes) : Option (TokReader FieldDef) :=
  if k = str "name" then some (member FieldDef.name (fun o x => { o with name := x }) strFromJson)
  else if k = str "type" then some (member FieldDef.type (fun o x => { o with type := x }) strFromJson)
  else none

/-- `struct_def` (include/eosio/abi.hpp:80-86) -/
def structKey (k : Bytes) : Option (TokReader StructDef) :=
  if k = str "name" then some (member StructDef.name (fun o x => { o with name := x }) strFromJson)
  else if k = str "base" then some (member StructDef.base (fun o x => { o with base := x }) strFromJson)
  else if k = str "fields" then some (member StructDef.fields (fun o x => { o with fields := x }) (vecFromJson ⟨[], []⟩ (objFromJson fieldKey)))
  else none

/-- `action_def` (include/eosio/abi.hpp:88-94) -/
def actionKey (k : Bytes) : Option (TokReader ActionDef) :=
  if k = str "name" then some (member ActionDef.name (fun o x => { o with name := x }) nameFromJson)
  else if k = str "type" then some (member ActionDef.type (fun o x => { o with type := x }) strFromJson)
  else if k = str "ricardian_contract" then some (member ActionDef.ricardian (fun o x => { o with ricardian := x }) strFromJson)
  else none

/-- `table_def` (include/eosio/abi.hpp:96-104) -/
def tableKey (k : Bytes) : Option (TokReader TableDef) :=
  if k = str "name" then some (member TableDef.name (fun o x => { o with name := x }) nameFromJson)
  else if k = str "index_type" then some (member TableDef.indexType (fun o x => { o with indexType := x }) strFromJson)
  else if k = str "key_names" then some (member TableDef.keyNames (fun o x => { o with keyNames := x }) (vecFromJson [] strFromJson))
  else if k = str "key_types" then some (member TableDef.keyTypes (fun o x => { o with keyTypes := x }) (vecFromJson [] strFromJson))
  else if k = str "type" then some (member TableDef.type (fun o x => { o with type := x }) strFromJson)
  else none

/-- `clause_pair` (include/eosio/abi.hpp:106-111) -/
def clauseKey (k : Bytes) : Option (TokReader ClausePair) :=
  if k = str "id" then some (member ClausePair.id (fun o x => { o with id := x }) strFromJson)
  else if k = str "body" then some (member ClausePair.body (fun o x => { o with body := x }) strFromJson)
  else none

/-- `error_message` (include/eosio/abi.hpp:113-118) -/
def errorKey (k : Bytes) : Option (TokReader ErrorMessage) :=
  if k = str "error_code" then some (member ErrorMessage.code (fun o x => { o with code := x }) uint64FromJson)
  else if k = str "error_msg" then some (member ErrorMessage.msg (fun o x => { o with msg := x }) strFromJson)
  else none

/-- `variant_def` (include/eosio/abi.hpp:120-125) -/
def variantKey (k : Bytes) : Option (TokReader VariantDef) :=
  if k = str "name" then some (member VariantDef.name (fun o x => { o with name := x }) strFromJson)
  else if k = str "types" then some (member VariantDef.types (fun o x => { o with types := x }) (vecFromJson [] strFromJson))
  else none

/-- `abi_def` (include/eosio/abi.hpp:127-140); `might_not_exist` reads its value (include/eosio/abi.hpp:59-62). -/
def abiKey (k : Bytes) : Option (TokReader AbiDef) :=
  if k = str "version" then some (member AbiDef.version (fun o x => { o with version := x }) strFromJson)
  else if k = str "types" then
    some (member AbiDef.types (fun o x => { o with types := x }) (vecFromJson ⟨[], []⟩ (objFromJson typeKey)))
  else if k = str "structs" then
    some (member AbiDef.structs (fun o x => { o with structs := x }) (vecFromJson ⟨[], [], []⟩ (objFromJson structKey)))
  else if k = str "actions" then
    some (member AbiDef.actions (fun o x => { o with actions := x }) (vecFromJson ⟨0, [], []⟩ (objFromJson actionKey)))
  else if k = str "tables" then
    some (member AbiDef.tables (fun o x => { o with tables := x }) (vecFromJson ⟨0, [], [], [], []⟩ (objFromJson tableKey)))
  else if k = str "ricardian_clauses" then
    some (member AbiDef.clauses (fun o x => { o with clauses := x }) (vecFromJson ⟨[], []⟩ (objFromJson clauseKey)))
  else if k = str "error_messages" then
    some (member AbiDef.errors (fun o x => { o with errors := x }) (vecFromJson ⟨0, []⟩ (objFromJson errorKey)))
  else if k = str "abi_extensions" then
    some (member AbiDef.extensions (fun o x => { o with extensions := x }) (vecFromJson (0, []) pairFromJson))
  else if k = str "variants" then
    some (member AbiDef.variants (fun o x => { o with variants := x }) (vecFromJson ⟨[], []⟩ (objFromJson variantKey)))
  else none

/-- `abi_def def{}` -/
def AbiDef.empty : AbiDef := ⟨[], [], [], [], [], [], [], [], []⟩

/-- `from_json(def, stream)` from an empty definition (src/abieos.cpp:105-109). -/
def abiDefFromJson (ts : List Tok) : Res AbiDef := do
  let (d, _) ← objFromJson abiKey AbiDef.empty ts
  .ok d

end Abieos
