import Verif.Model.AbiType
/-
Loading an ABI definition (src/abi.cpp) and looking up types.
-/
namespace Abieos

/-! ## Definitions -/

/-- `action_def` (include/eosio/abi.hpp:89-93). A `name` is its 64-bit value. -/
structure ActionDef where
  name : Nat
  type : Bytes
  ricardian : Bytes
  deriving DecidableEq, Repr, Inhabited

/-- `table_def` (include/eosio/abi.hpp:97-103). -/
structure TableDef where
  name : Nat
  indexType : Bytes
  keyNames : List Bytes
  keyTypes : List Bytes
  type : Bytes
  deriving DecidableEq, Repr, Inhabited

/-- `clause_pair` (include/eosio/abi.hpp:107-110). -/
structure ClausePair where
  id : Bytes
  body : Bytes
  deriving DecidableEq, Repr, Inhabited

/-- `error_message` (include/eosio/abi.hpp:114-117). -/
structure ErrorMessage where
  code : Nat
  msg : Bytes
  deriving DecidableEq, Repr, Inhabited

/-- `abi_def` (include/eosio/abi.hpp:128-138). `variants` is `variants.value`; `abi_extensions` are pairs of a 16-bit number and
bytes (include/eosio/abi.hpp:63). -/
structure AbiDef where
  version : Bytes
  types : List TypeDef
  structs : List StructDef
  actions : List ActionDef
  tables : List TableDef
  clauses : List ClausePair
  errors : List ErrorMessage
  extensions : List (Nat × Bytes)
  variants : List VariantDef
  deriving DecidableEq, Repr, Inhabited

/-! ## The map of types -/

/-- Insert a new key into a `std::map<std::string, _>`, which is ordered by `std::string::compare`: by unsigned bytes. -/
def Table.insertNew (k : Bytes) (d : TData) : Table → Table
  | [] => [(k, d)]
  | e :: T => if k < e.1 then (k, d) :: e :: T else e :: insertNew k d T

/-- `abi_types.try_emplace(k, k, d, ...)`: no effect if the key is there. -/
def Table.emplace (T : Table) (k : Bytes) (d : TData) : Table :=
  match T.get k with
  | some _ => T
  | none => T.insertNew k d

/-- `p->_data = d` for the node with key `k`. -/
def Table.set (k : Bytes) (d : TData) : Table → Table
  | [] => []
  | e :: T => if e.1 = k then (k, d) :: T else e :: set k d T

/-- `ends_with(s, suffix)` (src/abi.cpp:8-11). `strcmp` stops at a NUL in `s`, and then differs from the suffix, which has none;
so this is a plain comparison. -/
def endsWith (s suffix : Bytes) : Bool := decide (suffix.length ≤ s.length) && s.drop (s.length - suffix.length) == suffix

/-- `name.substr(0, name.size() - n)` -/
def chop (s : Bytes) (n : Nat) : Bytes := s.take (s.length - n)

/-- `holds_any_alternative<optional, array, extension>(p->_data)` (src/abi.cpp:35-37, 86, 92). -/
def Table.isWrapperAt (T : Table) (p : Ptr) : Bool :=
  match T.get p with
  | some (.optional _) | some (.array _) | some (.extension _) => true
  | _ => false

/-- `holds_alternative<extension>(p->_data)` (src/abi.cpp:98, 156). -/
def Table.isExtAt (T : Table) (p : Ptr) : Bool :=
  match T.get p with
  | some (.extension _) => true
  | _ => false

/-! ## Looking up types

The functions take the map and return it as it is afterwards, also if they throw. The first argument is 32 minus the C++ argument
`depth`; the check `depth < 32` (src/abi.cpp:80, 119, 144) fails when it is 0. -/

/-- `get_type` (src/abi.cpp:78-116), with `resolve` for aliases (src/abi.cpp:154-159) inlined. -/
def getType : Nat → Bytes → Table → Res Ptr × Table
  | 0, _, T => (.error .recursion_limit_reached, T)
  | n + 1, name, T =>
    match T.get name with
    | none =>
      if endsWith name (str "?") then
        match getType n (chop name 1) T with
        | (.error e, T') => (.error e, T')
        | (.ok p, T') => if T'.isWrapperAt p then (.error .invalid_nesting, T') else (.ok name, T'.emplace name (.optional p))
      else if endsWith name (str "[]") then
        match getType n (chop name 2) T with
        | (.error e, T') => (.error e, T')
        | (.ok p, T') => if T'.isWrapperAt p then (.error .invalid_nesting, T') else (.ok name, T'.emplace name (.array p))
      else if endsWith name (str "$") then
        match getType n (chop name 1) T with
        | (.error e, T') => (.error e, T')
        | (.ok p, T') => if T'.isExtAt p then (.error .invalid_nesting, T') else (.ok name, T'.emplace name (.extension p))
      else (.error .unknown_type, T)
    | some (.alias p) => (.ok p, T)
    | some (.aliasDef target) =>
      match getType n target T with
      | (.error e, T') => (.error e, T')
      | (.ok p, T') => if T'.isExtAt p then (.error .extension_typedef, T') else (.ok p, T'.set name (.alias p))
    | some _ => (.ok name, T)

/-- The loop over the fields of a struct (src/abi.cpp:134-137) and over the alternatives of a variant (src/abi.cpp:147-150). -/
def getFields (n : Nat) : List FieldDef → Table → Res (List Field) × Table
  | [], T => (.ok [], T)
  | f :: fs, T =>
    match getType n f.type T with
    | (.error e, T') => (.error e, T')
    | (.ok p, T') =>
      match getFields n fs T' with
      | (.error e, T'') => (.error e, T'')
      | (.ok l, T'') => (.ok (⟨f.name, p⟩ :: l), T'')

/-- `resolve(const struct_def*)` (src/abi.cpp:118-140). -/
def resolveStruct : Nat → StructDef → Table → Res (List Field) × Table
  | 0, _, T => (.error .recursion_limit_reached, T)
  | n + 1, d, T =>
    let own (base : List Field) (T : Table) : Res (List Field) × Table :=
      match getFields n d.fields T with
      | (.error e, T') => (.error e, T')
      | (.ok l, T') => (.ok (base ++ l), T')
    if d.base = [] then own [] T
    else
      match getType n d.base T with
      | (.error e, T1) => (.error e, T1)
      | (.ok p, T1) =>
        match T1.get p with
        | some (.structDef bd) =>
          match resolveStruct n bd T1 with
          | (.error e, T2) => (.error e, T2)
          | (.ok fs, T2) => own fs (T2.set p (.struct fs))
        | some (.struct fs) => own fs T1
        | _ => (.error .base_not_a_struct, T1)

/-- `resolve(const variant_def*)` (src/abi.cpp:143-152): the name of an alternative is its type text. -/
def resolveVariant : Nat → VariantDef → Table → Res (List Field) × Table
  | 0, _, T => (.error .recursion_limit_reached, T)
  | n + 1, d, T => getFields n (d.types.map fun t => ⟨t, t⟩) T

/-- `fill` at depth 0 (src/abi.cpp:161-177) of the node `k` with data `d`. -/
def fill (k : Bytes) (d : TData) (T : Table) : Res Unit × Table :=
  match d with
  | .aliasDef target =>
    match getType 31 target T with
    | (.error e, T') => (.error e, T')
    | (.ok p, T') => if T'.isExtAt p then (.error .extension_typedef, T') else (.ok (), T'.set k (.alias p))
  | .structDef sd =>
    match resolveStruct 32 sd T with
    | (.error e, T') => (.error e, T')
    | (.ok fs, T') => (.ok (), T'.set k (.struct fs))
  | .variantDef vd =>
    match resolveVariant 32 vd T with
    | (.error e, T') => (.error e, T')
    | (.ok fs, T') => (.ok (), T'.set k (.variant fs))
  | _ => (.ok (), T)

/-! ## Loading -/

/-- The builtin types (src/abi.cpp:191-194) and `extended_asset` (src/abi.cpp:195-200). -/
def builtinTable : Table :=
  Table.emplace (Builtin.all.foldl (fun (T : Table) b => Table.emplace T b.typeName (.builtin b)) []) (str "extended_asset")
    (.struct [⟨str "quantity", str "asset"⟩, ⟨str "contract", str "name"⟩])

/-- One of the loops that add definitions (src/abi.cpp:202-222). -/
def addDefs : List (Bytes × TData) → Table → Res Table
  | [], T => .ok T
  | (k, d) :: l, T =>
    if k = [] then .error .missing_name
    else if (T.get k).isSome then .error .redefined_type
    else addDefs l (T.emplace k d)

/-- The definitions of an ABI, in the order in which they are added: typedefs, structs, variants (src/abi.cpp:202-222). -/
def AbiDef.decls (D : AbiDef) : List (Bytes × TData) :=
  (D.types.map fun t => (t.newName, .aliasDef t.type)) ++ (D.structs.map fun s => (s.name, .structDef s)) ++
    (D.variants.map fun v => (v.name, .variantDef v))

/-- The loop `for (auto& [_, t] : c.abi_types) fill(c.abi_types, t, 0)` (src/abi.cpp:223-225): the map, and the key of the node
visited last. -/
structure FillState where
  table : Table
  last : Option Bytes

/-- The node after the one visited last. Nodes inserted meanwhile count. -/
def Table.next (T : Table) (last : Option Bytes) : Option (Bytes × TData) :=
  T.find? fun e => match last with
    | none => true
    | some k => decide (k < e.1)

/-- One iteration. -/
def stepFill (s : FillState) : Res (Option FillState) :=
  match s.table.next s.last with
  | none => .ok none
  | some (k, d) =>
    match fill k d s.table with
    | (.error e, _) => .error e
    | (.ok _, T) => .ok (some ⟨T, some k⟩)

/-- `convert(const abi_def&, abi&)` (src/abi.cpp:186-226) on an empty `abi` ends with the type table `T`, or throws. (If it throws,
the `abi` is left with a part of the types; the entry points of the C API throw it away.) -/
def LoadTypes (D : AbiDef) (r : Res Table) : Prop :=
  match addDefs D.decls builtinTable with
  | .error e => r = .error e
  | .ok T => ∃ r', Ends stepFill ⟨T, none⟩ r' ∧ r = r'.map (·.table)

/-- `abi::get_type` (src/abi.cpp:182-184). -/
def lookupType (name : Bytes) (T : Table) : Res Ptr × Table := getType 32 name T

/-! ## Exporting -/

/-- `to_abi_def` for one node (src/abi.cpp:228-264): appends to the typedefs, structs or variants. `type->name` is the key of the
node; `struct_::base` is null in every loaded ABI. `bad_abi` for what is not resolved. -/
def exportNode (k : Bytes) (d : TData) (D : AbiDef) : Res AbiDef :=
  match d with
  | .builtin _ | .optional _ | .array _ | .extension _ => .ok D
  | .aliasDef _ | .structDef _ | .variantDef _ => .error .bad_abi
  | .alias p => .ok { D with types := D.types ++ [⟨k, p⟩] }
  | .struct fs => if k = str "extended_asset" then .ok D
      else .ok { D with structs := D.structs ++ [⟨k, [], fs.map fun f => ⟨f.name, f.type⟩⟩] }
  | .variant alts => .ok { D with variants := D.variants ++ [⟨k, alts.map (·.type)⟩] }

/-- The loop of `convert(const abi&, abi_def&)` (src/abi.cpp:268-270). -/
def exportNodes : Table → AbiDef → Res AbiDef
  | [], D => .ok D
  | (k, d) :: T, D => match exportNode k d D with
    | .error e => .error e
    | .ok D' => exportNodes T D'

/-- `convert(const abi&, abi_def&)` (src/abi.cpp:266-271) into an empty definition. -/
def exportTypes (T : Table) : Res AbiDef :=
  exportNodes T ⟨str "eosio::abi/1.0", [], [], [], [], [], [], [], []⟩

end Abieos
