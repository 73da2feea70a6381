import Verif.Model.AbiType
/-
Well-formed type tables.
-/
namespace Abieos

/-- Something a type pointer may point to: a resolved type that is not an alias. -/
def TData.isTarget : TData → Bool
  | .builtin _ | .optional _ | .extension _ | .array _ | .struct _ | .variant _ => true
  | _ => false

/-- optional, array or extension -/
def TData.isWrapper : TData → Bool
  | .optional _ | .array _ | .extension _ => true
  | _ => false

/-- The pointer points to a resolved, non-alias type. -/
def Table.Valid (T : Table) (p : Ptr) : Prop := ∃ d, T.get p = some d ∧ d.isTarget = true

/-- What is required of one entry of a fully resolved table: nothing is left unresolved, pointers point to resolved
types that are not aliases, and wrappers are nested only as permitted. -/
def Table.EntryOk (T : Table) : TData → Prop
  | .builtin _ => True
  | .aliasDef _ => False
  | .structDef _ => False
  | .variantDef _ => False
  | .alias p => ∃ d, T.get p = some d ∧ d.isTarget = true ∧ d.isExt = false
  | .optional p => ∃ d, T.get p = some d ∧ d.isTarget = true ∧ d.isWrapper = false
  | .array p => ∃ d, T.get p = some d ∧ d.isTarget = true ∧ d.isWrapper = false
  | .extension p => ∃ d, T.get p = some d ∧ d.isTarget = true ∧ d.isExt = false
  | .struct fs => ∀ f ∈ fs, T.Valid f.type
  | .variant alts => ∀ f ∈ alts, T.Valid f.type

/-- A fully resolved table. -/
def Table.WF (T : Table) : Prop := ∀ k d, T.get k = some d → T.EntryOk d

/-- Number of wrappers before a container or builtin is reached. -/
def Table.rank (T : Table) (p : Ptr) : Nat :=
  match T.get p with
  | some (.extension _) => 2
  | some (.optional _) => 1
  | _ => 0

theorem Table.rank_le (T : Table) (p : Ptr) : T.rank p ≤ 2 := by
  unfold Table.rank; split <;> omega

theorem Table.WF.optional {T : Table} (h : T.WF) {k p : Ptr} (hk : T.get k = some (.optional p)) :
    T.Valid p ∧ T.rank p = 0 ∧ T.rank k = 1 := by
  obtain ⟨d, h1, h2, h3⟩ := h k _ hk
  refine ⟨⟨d, h1, h2⟩, ?_, by simp [Table.rank, hk]⟩
  unfold Table.rank; rw [h1]
  cases d <;> simp_all [TData.isWrapper]

theorem Table.WF.array {T : Table} (h : T.WF) {k p : Ptr} (hk : T.get k = some (.array p)) :
    T.Valid p ∧ T.rank p = 0 ∧ T.rank k = 0 := by
  obtain ⟨d, h1, h2, h3⟩ := h k _ hk
  refine ⟨⟨d, h1, h2⟩, ?_, by simp [Table.rank, hk]⟩
  unfold Table.rank; rw [h1]
  cases d <;> simp_all [TData.isWrapper]

theorem Table.WF.extension {T : Table} (h : T.WF) {k p : Ptr} (hk : T.get k = some (.extension p)) :
    T.Valid p ∧ T.rank p ≤ 1 ∧ T.rank k = 2 := by
  obtain ⟨d, h1, h2, h3⟩ := h k _ hk
  refine ⟨⟨d, h1, h2⟩, ?_, by simp [Table.rank, hk]⟩
  unfold Table.rank; rw [h1]
  cases d <;> simp_all [TData.isExt]

theorem Table.WF.struct {T : Table} (h : T.WF) {k : Ptr} {fs : List Field} (hk : T.get k = some (.struct fs)) :
    ∀ f ∈ fs, T.Valid f.type := h k _ hk

theorem Table.WF.variant {T : Table} (h : T.WF) {k : Ptr} {fs : List Field} (hk : T.get k = some (.variant fs)) :
    ∀ f ∈ fs, T.Valid f.type := h k _ hk

end Abieos
