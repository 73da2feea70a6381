import Verif.Props.Reexport
import Verif.Spec.BuiltinNames
/-!
# C25: which texts are builtin types
-/
namespace Abieos
open Spec

theorem builtin_named (b : Builtin) : (b.typeName, b) ∈ builtinNames := by
  cases b <;> decide +kernel

theorem named_builtin {e : Bytes × Builtin} (h : e ∈ builtinNames) : e.1 = e.2.typeName := by
  have : (builtinNames.all fun e => e.1 == e.2.typeName) = true := by decide +kernel
  have := List.all_eq_true.1 this e h
  simpa using this

/-- **C25.** Whatever was loaded, the builtin types are these, each under its own name, and no other text names one directly. -/
theorem c25_builtin_names {D : AbiDef} {T : Table} (h : LoadedThen D T) (k : Bytes) (b : Builtin) : T.get k = some (.builtin b) ↔ (k, b) ∈ builtinNames := by
  have hr := reload_of_loaded h
  constructor
  · intro hk
    rw [hr.leaf k b hk]
    exact builtin_named b
  · intro hm
    rw [show k = b.typeName from named_builtin hm]
    exact hr.builtins b

/-- **C25.** `extended_asset` is a struct of an asset and the name of its contract. -/
theorem c25_extended_asset {D : AbiDef} {T : Table} (h : LoadedThen D T) :
    T.get (str "extended_asset") = some (.struct [⟨str "quantity", str "asset"⟩, ⟨str "contract", str "name"⟩]) :=
  (reload_of_loaded h).asset

/-- A definition that loads (the one exported in ReexportExample): there `block_timestamp_type` is a builtin type, and `block_timestamp` is not. -/
example : ∃ T, LoadTypes ReexportExample.exported (.ok T) ∧ T.get (str "block_timestamp_type") = some (.builtin .block_timestamp) ∧
    ∀ b, T.get (str "block_timestamp") ≠ some (.builtin b) := by
  obtain ⟨hb, he, -⟩ := ReexportExample.built
  obtain ⟨D, he', hu⟩ := c81_exports hb
  rw [he] at he'
  cases he'
  obtain ⟨-, T, hl⟩ := hu
  have h : LoadedThen ReexportExample.exported T := ⟨T, [], hl, rfl⟩
  refine ⟨T, hl, (c25_builtin_names h _ _).2 (by decide +kernel), fun b hb => ?_⟩
  have := (c25_builtin_names h _ _).1 hb
  revert this
  cases b <;> decide +kernel

end Abieos
