import Verif.Props.Export
/-
Definitions that meet the hypotheses of C24-C26 and C42, and definitions that do not load.
-/
namespace Abieos.LoaderExample
open Spec Relation

/-- Load by running the loop at most 1000 times. -/
def load (D : AbiDef) : Option (Res Table) :=
  match addDefs D.decls builtinTable with
  | .error e => some (.error e)
  | .ok T => (iter stepFill 1000 ⟨T, none⟩).map fun r => r.map (·.table)

theorem load_sound {D : AbiDef} {r : Res Table} (h : load D = some r) : LoadTypes D r := by
  unfold load at h
  unfold LoadTypes
  generalize addDefs D.decls builtinTable = a at *
  cases a with
  | error e => cases h; rfl
  | ok T =>
    obtain ⟨r', h1, h2⟩ := Option.map_eq_some_iff.1 h
    exact ⟨r', ⟨1000, h1⟩, h2.symm⟩

def isOk (r : Option (Res Table)) : Bool := match r with
  | some (.ok _) => true
  | _ => false

def tableOf (r : Option (Res Table)) : Table := match r with
  | some (.ok T) => T
  | _ => []

theorem load_ok {D : AbiDef} (h : isOk (load D) = true) : LoadTypes D (.ok (tableOf (load D))) := by
  apply load_sound
  generalize load D = r at *
  cases r with
  | none => cases h
  | some r => cases r with
    | error => cases h
    | ok T => rfl

def errOf (r : Option (Res Table)) : Option Err := match r with
  | some (.error e) => some e
  | _ => none

theorem load_err {D : AbiDef} {e : Err} (h : errOf (load D) = some e) : LoadTypes D (.error e) := by
  apply load_sound
  generalize load D = r at *
  cases r with
  | none => cases h
  | some r => cases r with
    | error => cases h; rfl
    | ok T => cases h

/-- A definition with a typedef of a typedef, a base reached through a typedef, a variant, and wrappers; `derived` comes before its
base in the map. -/
def abi : AbiDef :=
  { version := str "eosio::abi/1.1"
    types := [⟨str "account", str "name"⟩, ⟨str "owner", str "account"⟩, ⟨str "parent", str "xbase"⟩, ⟨str "list", str "owner[]"⟩]
    structs := [⟨str "derived", str "parent", [⟨str "b", str "list"⟩, ⟨str "c", str "owner?$"⟩]⟩, ⟨str "xbase", [], [⟨str "a", str "owner"⟩]⟩]
    actions := [], tables := [], clauses := [], errors := [], extensions := []
    variants := [⟨str "v", [str "owner", str "derived", str "v[]"]⟩] }

/-- C24-C26: it loads. -/
theorem abi_loads : LoadTypes abi (.ok (tableOf (load abi))) := load_ok (by decide +kernel)

example : (tableOf (load abi)).get (str "derived") = some (.struct [⟨str "a", str "name"⟩, ⟨str "b", str "owner[]"⟩, ⟨str "c", str "owner?$"⟩]) := by
  decide +kernel
example : (tableOf (load abi)).get (str "v") = some (.variant [⟨str "owner", str "name"⟩, ⟨str "derived", str "derived"⟩, ⟨str "v[]", str "v[]"⟩]) := by
  decide +kernel
example : (tableOf (load abi)).get (str "list") = some (.alias (str "owner[]")) := by decide +kernel

/-- A lookup that adds two entries. -/
example : (lookupType (str "derived[]$") (tableOf (load abi))).1 = .ok (str "derived[]$") := by decide +kernel
example : (tableOf (load abi)).get (str "derived[]") = none ∧
    (lookupType (str "derived[]$") (tableOf (load abi))).2.get (str "derived[]") = some (.array (str "derived")) := by decide +kernel
/-- One that fails but leaves an entry behind. -/
example : (lookupType (str "derived[]?") (tableOf (load abi))).1 = .error .invalid_nesting ∧
    (lookupType (str "derived[]?") (tableOf (load abi))).2.get (str "derived[]") = some (.array (str "derived")) := by decide +kernel

def with' (types : List TypeDef) (structs : List StructDef) : AbiDef :=
  { version := str "eosio::abi/1.1", types, structs, actions := [], tables := [], clauses := [], errors := [], extensions := [], variants := [] }

/-- Cycles of typedefs, also through wrappers. -/
def cyclic : AbiDef := with' [⟨str "a", str "b[]"⟩, ⟨str "b", str "a?"⟩] []

example : LoadTypes cyclic (.error .recursion_limit_reached) := load_err (by decide +kernel)

theorem cyclic_undeclared {k : Bytes} (h : (k == str "a" || k == str "b" || k == str "extended_asset" || Builtin.all.any fun b => k == b.typeName) = false) :
    Undeclared cyclic k := by
  intro d hd
  rw [← Bool.not_eq_true] at h
  apply h
  simp only [Bool.or_eq_true, beq_iff_eq, List.any_eq_true]
  cases hd with
  | builtin b => exact .inr ⟨b, builtin_mem_all b, rfl⟩
  | extendedAsset => exact .inl (.inr rfl)
  | typedef ht => simp [cyclic, with'] at ht; rcases ht with rfl | rfl <;> simp
  | struct ht => simp [cyclic, with'] at ht
  | variant ht => simp [cyclic, with'] at ht

/-- The hypothesis of `c24_no_alias_cycles` is met. -/
example : TransGen (Needs cyclic) (str "a") (str "a") :=
  .head (b := str "b" ++ str "[]") (.typedef (.typedef (t := ⟨str "a", str "b[]"⟩) (by decide))) <|
  .head (.array (cyclic_undeclared (by decide +kernel))) <|
  .head (b := str "a" ++ str "?") (.typedef (.typedef (t := ⟨str "b", str "a?"⟩) (by decide))) <|
  .single (.optional (cyclic_undeclared (by decide +kernel)))

/-- A struct that inherits from itself through a typedef. -/
def inherits : AbiDef := with' [⟨str "t", str "s"⟩] [⟨str "s", str "t", []⟩]

example : LoadTypes inherits (.error .recursion_limit_reached) := load_err (by decide +kernel)

theorem inherits_s : Declares inherits (str "s") (.structDef ⟨str "s", str "t", []⟩) := .struct (s := ⟨str "s", str "t", []⟩) (by decide)

theorem inherits_t : Denotes inherits (str "t") (str "s") :=
  .typedef (t := str "s") (.typedef (t := ⟨str "t", str "s"⟩) (by decide)) (.declared inherits_s (by simp)) (fun h => h.1 _ inherits_s)

/-- The hypothesis of `c24_no_inheritance_cycles` is met. -/
example : TransGen (Inherits inherits) (str "s") (str "s") := .single (.base inherits_s (by decide) inherits_t inherits_s)

/-- Other definitions that are rejected. -/
example : LoadTypes (with' [⟨str "a", str "nothing"⟩] []) (.error .unknown_type) := load_err (by decide +kernel)
example : LoadTypes (with' [⟨str "a", str "int8$"⟩] []) (.error .extension_typedef) := load_err (by decide +kernel)
example : LoadTypes (with' [] [⟨str "a", [], [⟨str "x", str "int8[]?"⟩]⟩]) (.error .invalid_nesting) := load_err (by decide +kernel)
example : LoadTypes (with' [] [⟨str "a", str "int8", []⟩]) (.error .base_not_a_struct) := load_err (by decide +kernel)
example : LoadTypes (with' [⟨str "a", str "int8"⟩] [⟨str "a", [], []⟩]) (.error .redefined_type) := load_err (by decide +kernel)
example : LoadTypes (with' [⟨str "int8", str "int16"⟩] []) (.error .redefined_type) := load_err (by decide +kernel)
example : LoadTypes (with' [] [⟨[], [], []⟩]) (.error .missing_name) := load_err (by decide +kernel)

/-- C42: exporting replaces the alternative `owner` by what it denotes, `name`; hence the condition in `c42_same_conversions`. -/
example : (exportTypes (tableOf (load abi))).map (·.variants) = .ok [⟨str "v", [str "name", str "derived", str "v[]"]⟩] := by decide +kernel

def exported : AbiDef := match exportTypes (tableOf (load abi)) with
  | .ok D => D
  | .error _ => abi

theorem exported_loads : LoadTypes exported (.ok (tableOf (load exported))) := load_ok (by decide +kernel)

example : (tableOf (load exported)).get (str "v") = some (.variant [⟨str "name", str "name"⟩, ⟨str "derived", str "derived"⟩, ⟨str "v[]", str "v[]"⟩]) := by
  decide +kernel

/-- Without the typedef in the variant, all hypotheses of `c42_same_conversions` are met. -/
def abi2 : AbiDef := { abi with variants := [⟨str "v", [str "name", str "derived", str "v[]"]⟩] }

theorem abi2_loads : LoadTypes abi2 (.ok (tableOf (load abi2))) := load_ok (by decide +kernel)

example : ∀ v ∈ abi2.variants, ∀ t ∈ v.types, Denotes abi2 t t := by
  intro v hv t ht
  have h0 : LoadedThen abi2 (tableOf (load abi2)) := ⟨_, [], abi2_loads, rfl⟩
  rw [← c26_lookup h0]
  have : (abi2.variants.all fun v => v.types.all fun t => decide ((lookupType t (tableOf (load abi2))).1 = .ok t)) = true := by decide +kernel
  have h2 := List.all_eq_true.1 (List.all_eq_true.1 this v hv) t ht
  exact of_decide_eq_true h2

end Abieos.LoaderExample
