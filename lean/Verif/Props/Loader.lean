import Verif.Proofs.LoaderComplete
import Mathlib.Logic.Relation
/-
C24, C25: what loading an ABI definition yields, and when it fails.
-/
namespace Abieos
open Spec Relation

/-! ## C24: loading ends; what it yields is resolved; cycles are rejected -/

/-- Loading ends for every definition, with one result. -/
theorem c24_terminates (D : AbiDef) : ∃ r, LoadTypes D r ∧ ∀ r', LoadTypes D r' → r' = r := by
  unfold LoadTypes
  split
  · rename_i e _
    exact ⟨.error e, rfl, fun r' h => h⟩
  · rename_i T h0
    obtain ⟨r, hr⟩ := fill_ends _ (loopInv_init h0)
    refine ⟨r.map (·.table), ⟨r, hr, rfl⟩, ?_⟩
    rintro r' ⟨r1, h1, rfl⟩
    rw [h1.unique hr]

/-- What loading yields is fully resolved (`Table.WF`): nothing is left to be resolved, every reference points to a type that
is there and is no alias, and wrappers are nested only as permitted. -/
theorem c24_resolved {D : AbiDef} {T : Table} (h : LoadTypes D (.ok T)) : T.WF :=
  (load_result h).1.wf (load_result h).2

/-- In a definition that loads, every declared typedef denotes a type. -/
theorem typedef_denotes {D : AbiDef} {T : Table} (h : LoadTypes D (.ok T)) {k t : Bytes} (hk : Declares D k (.aliasDef t)) : ∃ p, Denotes D k p := by
  obtain ⟨hi, hr⟩ := load_result h
  obtain ⟨d', h1⟩ := hi.decls _ _ hk
  have hm := hi.meaning _ _ h1 (hr _ _ h1)
  cases hm with
  | builtin h2 => cases hi.unique _ _ _ hk h2
  | extendedAsset h2 => cases hi.unique _ _ _ hk h2
  | struct h2 => cases hi.unique _ _ _ hk h2
  | variant h2 => cases hi.unique _ _ _ hk h2
  | typedef _ h3 => exact ⟨_, h3⟩
  | optional h2 => exact absurd hk (h2 _)
  | array h2 => exact absurd hk (h2 _)
  | extension h2 => exact absurd hk (h2 _)

theorem last_inj {b c : Bytes} {x : UInt8} (h : b ++ [x] = c ++ [x]) : b = c := List.append_cancel_right h

theorem denotes_acc {D : AbiDef} (hu : ∀ k d d', Declares D k d → Declares D k d' → d = d') {k : Bytes} {p : Ptr} (h : Denotes D k p) :
    Acc (fun b a => Needs D a b) k := by
  induction h with
  | @declared k d h1 h2 =>
    refine ⟨_, fun y hy => ?_⟩
    cases hy with
    | typedef h3 => exact absurd (hu _ _ _ h1 h3) (h2 _)
    | optional h3 => exact absurd h1 (h3 _)
    | array h3 => exact absurd h1 (h3 _)
    | extension h3 => exact absurd h1 (h3 _)
  | typedef h1 _ _ ih =>
    refine ⟨_, fun y hy => ?_⟩
    cases hy with
    | typedef h3 => cases hu _ _ _ h1 h3; exact ih
    | optional h3 => exact absurd h1 (h3 _)
    | array h3 => exact absurd h1 (h3 _)
    | extension h3 => exact absurd h1 (h3 _)
  | @optional b p h1 _ _ ih =>
    refine ⟨_, fun y hy => ?_⟩
    generalize hk : b ++ str "?" = k at hy h1
    cases hy with
    | typedef h3 => exact absurd h3 (h1 _)
    | optional h3 => rw [← List.append_cancel_right hk]; exact ih
    | array h3 => exact absurd hk (opt_ne_arr _ _)
    | extension h3 => exact absurd hk (opt_ne_ext _ _)
  | @array b p h1 _ _ ih =>
    refine ⟨_, fun y hy => ?_⟩
    generalize hk : b ++ str "[]" = k at hy h1
    cases hy with
    | typedef h3 => exact absurd h3 (h1 _)
    | optional h3 => exact absurd hk.symm (opt_ne_arr _ _)
    | array h3 => rw [← List.append_cancel_right hk]; exact ih
    | extension h3 => exact absurd hk (arr_ne_ext _ _)
  | @extension b p h1 _ _ ih =>
    refine ⟨_, fun y hy => ?_⟩
    generalize hk : b ++ str "$" = k at hy h1
    cases hy with
    | typedef h3 => exact absurd h3 (h1 _)
    | optional h3 => exact absurd hk.symm (opt_ne_ext _ _)
    | array h3 => exact absurd hk.symm (arr_ne_ext _ _)
    | extension h3 => rw [← List.append_cancel_right hk]; exact ih

theorem needs_wf {D : AbiDef} {T : Table} (h : LoadTypes D (.ok T)) : WellFounded (fun b a => Needs D a b) := by
  have hu := (load_result h).1.unique
  refine ⟨fun a => ?_⟩
  suffices hs : ∀ n (a : Bytes), a.length ≤ n → Acc (fun b a => Needs D a b) a from hs _ a (Nat.le_refl _)
  intro n
  induction n with
  | zero =>
    intro a ha
    refine ⟨_, fun y hy => ?_⟩
    cases hy with
    | typedef h1 =>
      obtain ⟨p, hp⟩ := typedef_denotes h h1
      exact (denotes_acc hu hp).inv (.typedef h1)
    | optional h1 => simp [str] at ha
    | array h1 => simp [str] at ha
    | extension h1 => simp [str] at ha
  | succ n ih =>
    intro a ha
    refine ⟨_, fun y hy => ?_⟩
    cases hy with
    | typedef h1 =>
      obtain ⟨p, hp⟩ := typedef_denotes h h1
      exact (denotes_acc hu hp).inv (.typedef h1)
    | optional h1 => exact ih y (by simp [str] at ha; omega)
    | array h1 => exact ih y (by simp [str] at ha; omega)
    | extension h1 => exact ih y (by simp [str] at ha; omega)

theorem acyclic_of_wf {α : Type} {R : α → α → Prop} (h : WellFounded fun b a => R a b) (a : α) : ¬ TransGen R a a := by
  induction h.apply a with
  | intro a _ ih =>
    intro hc
    obtain ⟨b, hab, hba⟩ := TransGen.head'_iff.1 hc
    exact ih b hab (TransGen.tail' hba hab)

/-- A definition with a cycle of typedefs (also through `?`, `[]` and `$`) does not load. -/
theorem c24_no_alias_cycles {D : AbiDef} {a : Bytes} (hc : TransGen (Needs D) a a) : ∃ e, LoadTypes D (.error e) := by
  obtain ⟨r, hr, -⟩ := c24_terminates D
  cases r with
  | error e => exact ⟨e, hr⟩
  | ok T => exact absurd hc (acyclic_of_wf (needs_wf hr) a)

theorem struct_acc {D : AbiDef} (hu : ∀ k d d', Declares D k d → Declares D k d' → d = d') {s : StructDef} {fs : List Field} (h : StructFields D s fs) :
    ∀ k, Declares D k (.structDef s) → Acc (fun b a => Inherits D a b) k := by
  induction h with
  | root hb hf =>
    intro k hk
    refine ⟨_, fun y hy => ?_⟩
    cases hy with
    | base h1 h2 => cases hu _ _ _ hk h1; exact absurd hb h2
  | derived hb hd hdb _ hf ih =>
    intro k hk
    refine ⟨_, fun y hy => ?_⟩
    cases hy with
    | base h1 h2 h3 =>
      cases hu _ _ _ hk h1
      rw [← Denotes.unique hu hd h3]
      exact ih _ hdb
  | fromBuiltin hb hd hdb hf =>
    intro k hk
    refine ⟨_, fun y hy => ?_⟩
    cases hy with
    | base h1 h2 h3 =>
      cases hu _ _ _ hk h1
      rw [← Denotes.unique hu hd h3]
      refine ⟨_, fun y hy => ?_⟩
      cases hy with
      | base h5 => cases hu _ _ _ hdb h5

/-! ## C25: what the types of a loaded ABI are -/

/-- Every entry of the table is what its text means (`Spec.Meaning`). -/
theorem c25_meaning {D : AbiDef} {T : Table} (h : LoadTypes D (.ok T)) {k : Bytes} {d : TData} (hk : T.get k = some d) : Meaning D k d :=
  (load_result h).1.meaning _ _ hk ((load_result h).2 _ _ hk)

/-- A struct has the fields of its base, then its own, each of the type its text denotes. -/
theorem c25_structs {D : AbiDef} {T : Table} (h : LoadTypes D (.ok T)) {s : StructDef} (hs : s ∈ D.structs) :
    ∃ fs, T.get s.name = some (.struct fs) ∧ StructFields D s fs := by
  obtain ⟨hi, hr⟩ := load_result h
  have hk := Declares.struct (D := D) hs
  obtain ⟨d', h1⟩ := hi.decls _ _ hk
  have hm := hi.meaning _ _ h1 (hr _ _ h1)
  revert h1 hm hk
  generalize s.name = k
  intro hk h1 hm
  cases hm with
  | builtin h2 => cases hi.unique _ _ _ hk h2
  | extendedAsset h2 => cases hi.unique _ _ _ hk h2
  | struct h2 h3 => cases hi.unique _ _ _ hk h2; exact ⟨_, h1, h3⟩
  | variant h2 => cases hi.unique _ _ _ hk h2
  | typedef h2 h3 => cases hi.unique _ _ _ hk h2
  | optional h2 => exact absurd hk (h2 _)
  | array h2 => exact absurd hk (h2 _)
  | extension h2 => exact absurd hk (h2 _)

/-- A variant has its alternatives in order, each of the type its text denotes and named by that text. -/
theorem c25_variants {D : AbiDef} {T : Table} (h : LoadTypes D (.ok T)) {v : VariantDef} (hv : v ∈ D.variants) :
    ∃ alts, T.get v.name = some (.variant alts) ∧ FieldsOf D (v.types.map fun t => ⟨t, t⟩) alts := by
  obtain ⟨hi, hr⟩ := load_result h
  have hk := Declares.variant (D := D) hv
  obtain ⟨d', h1⟩ := hi.decls _ _ hk
  have hm := hi.meaning _ _ h1 (hr _ _ h1)
  revert h1 hm hk
  generalize v.name = k
  intro hk h1 hm
  cases hm with
  | builtin h2 => cases hi.unique _ _ _ hk h2
  | extendedAsset h2 => cases hi.unique _ _ _ hk h2
  | struct h2 h3 => cases hi.unique _ _ _ hk h2
  | variant h2 h3 => cases hi.unique _ _ _ hk h2; exact ⟨_, h1, h3⟩
  | typedef h2 h3 => cases hi.unique _ _ _ hk h2
  | optional h2 => exact absurd hk (h2 _)
  | array h2 => exact absurd hk (h2 _)
  | extension h2 => exact absurd hk (h2 _)

/-- A typedef denotes the type in which its chain of typedefs ends. -/
theorem c25_typedefs {D : AbiDef} {T : Table} (h : LoadTypes D (.ok T)) {t : TypeDef} (ht : t ∈ D.types) :
    ∃ p, T.get t.newName = some (.alias p) ∧ Denotes D t.type p := by
  obtain ⟨hi, hr⟩ := load_result h
  have hk := Declares.typedef (D := D) ht
  obtain ⟨d', h1⟩ := hi.decls _ _ hk
  have hm := hi.meaning _ _ h1 (hr _ _ h1)
  revert h1 hm hk
  generalize t.newName = k
  intro hk h1 hm
  cases hm with
  | builtin h2 => cases hi.unique _ _ _ hk h2
  | extendedAsset h2 => cases hi.unique _ _ _ hk h2
  | struct h2 h3 => cases hi.unique _ _ _ hk h2
  | variant h2 h3 => cases hi.unique _ _ _ hk h2
  | typedef h2 h3 =>
    cases h3 with
    | declared h4 h5 => exact absurd (hi.unique _ _ _ h4 hk) (h5 _)
    | typedef h4 h5 => cases hi.unique _ _ _ hk h4; exact ⟨_, h1, h5⟩
    | optional h4 => exact absurd hk (h4 _)
    | array h4 => exact absurd hk (h4 _)
    | extension h4 => exact absurd hk (h4 _)
  | optional h2 => exact absurd hk (h2 _)
  | array h2 => exact absurd hk (h2 _)
  | extension h2 => exact absurd hk (h2 _)

/-- The builtin types are there, whatever the definition declares. -/
theorem c25_builtins {D : AbiDef} {T : Table} (h : LoadTypes D (.ok T)) (b : Builtin) : T.get b.typeName = some (.builtin b) := by
  obtain ⟨hi, hr⟩ := load_result h
  have hk := Declares.builtin (D := D) b
  obtain ⟨d', h1⟩ := hi.decls _ _ hk
  have hm := hi.meaning _ _ h1 (hr _ _ h1)
  revert h1 hm hk
  generalize b.typeName = k
  intro hk h1 hm
  cases hm with
  | builtin h2 => cases hi.unique _ _ _ hk h2; exact h1
  | extendedAsset h2 => cases hi.unique _ _ _ hk h2
  | struct h2 h3 => cases hi.unique _ _ _ hk h2
  | variant h2 h3 => cases hi.unique _ _ _ hk h2
  | typedef h2 h3 => cases hi.unique _ _ _ hk h2
  | optional h2 => exact absurd hk (h2 _)
  | array h2 => exact absurd hk (h2 _)
  | extension h2 => exact absurd hk (h2 _)

theorem c24_no_inheritance_cycles {D : AbiDef} {a : Bytes} (hc : TransGen (Inherits D) a a) : ∃ e, LoadTypes D (.error e) := by
  obtain ⟨r, hr, -⟩ := c24_terminates D
  cases r with
  | error e => exact ⟨e, hr⟩
  | ok T =>
    refine absurd hc (acyclic_of_wf ⟨fun a => ⟨_, fun y hy => ?_⟩⟩ a)
    have hu := (load_result hr).1.unique
    have hy' := hy
    cases hy with
    | base h1 =>
      cases h1 with
      | struct hs =>
        obtain ⟨fs, -, h3⟩ := c25_structs hr hs
        exact (struct_acc hu h3 _ (.struct hs)).inv hy'

/-! ### The meaning is unique, so the above says all there is to say -/

theorem unique_of_namesOk {D : AbiDef} (h : NamesOk D) : ∀ k d d', Declares D k d → Declares D k d' → d = d' := by
  obtain ⟨T, hT⟩ := (addDefs_iff D).2 h
  exact fun k d d' h1 h2 => (loopInv_init hT).inv.unique k d d' h1 h2

theorem Spec.FieldsOf.unique {D : AbiDef} (hu : ∀ k d d', Declares D k d → Declares D k d' → d = d') {fs : List FieldDef} {l l' : List Field}
    (h : FieldsOf D fs l) (h' : FieldsOf D fs l') : l = l' := by
  induction h generalizing l' with
  | nil => cases h'; rfl
  | cons h1 _ ih =>
    cases h' with
    | cons h3 h4 => rw [Denotes.unique hu h1 h3, ih h4]

theorem Spec.StructFields.unique {D : AbiDef} (hu : ∀ k d d', Declares D k d → Declares D k d' → d = d') {s : StructDef} {l l' : List Field}
    (h : StructFields D s l) (h' : StructFields D s l') : l = l' := by
  induction h generalizing l' with
  | root h1 h2 =>
    cases h' with
    | root _ h4 => exact FieldsOf.unique hu h2 h4
    | derived h3 => exact absurd h1 h3
    | fromBuiltin h3 => exact absurd h1 h3
  | derived h1 h2 h3 h4 h5 ih =>
    cases h' with
    | root h => exact absurd h h1
    | derived g1 g2 g3 g4 g5 =>
      cases Denotes.unique hu h2 g2
      cases hu _ _ _ h3 g3
      rw [ih g4, FieldsOf.unique hu h5 g5]
    | fromBuiltin g1 g2 g3 =>
      cases Denotes.unique hu h2 g2
      cases hu _ _ _ h3 g3
  | fromBuiltin h1 h2 h3 h5 =>
    cases h' with
    | root h => exact absurd h h1
    | derived g1 g2 g3 g4 g5 =>
      cases Denotes.unique hu h2 g2
      cases hu _ _ _ h3 g3
    | fromBuiltin g1 g2 g3 g5 =>
      cases Denotes.unique hu h2 g2
      cases hu _ _ _ h3 g3
      rw [FieldsOf.unique hu h5 g5]

theorem Spec.Meaning.unique {D : AbiDef} (hu : ∀ k d d', Declares D k d → Declares D k d' → d = d') {k : Bytes} {d d' : TData}
    (h : Meaning D k d) (h' : Meaning D k d') : d = d' := by
  cases h with
  | builtin h1 =>
    cases h' with
    | builtin h2 => cases hu _ _ _ h1 h2; rfl
    | extendedAsset h2 => cases hu _ _ _ h1 h2
    | struct h2 => cases hu _ _ _ h1 h2
    | variant h2 => cases hu _ _ _ h1 h2
    | typedef h2 => cases hu _ _ _ h1 h2
    | optional h2 => exact absurd h1 (h2 _)
    | array h2 => exact absurd h1 (h2 _)
    | extension h2 => exact absurd h1 (h2 _)
  | extendedAsset h1 =>
    cases h' with
    | builtin h2 => cases hu _ _ _ h1 h2
    | extendedAsset h2 => cases hu _ _ _ h1 h2; rfl
    | struct h2 => cases hu _ _ _ h1 h2
    | variant h2 => cases hu _ _ _ h1 h2
    | typedef h2 => cases hu _ _ _ h1 h2
    | optional h2 => exact absurd h1 (h2 _)
    | array h2 => exact absurd h1 (h2 _)
    | extension h2 => exact absurd h1 (h2 _)
  | struct h1 g1 =>
    cases h' with
    | builtin h2 => cases hu _ _ _ h1 h2
    | extendedAsset h2 => cases hu _ _ _ h1 h2
    | struct h2 g2 => cases hu _ _ _ h1 h2; rw [StructFields.unique hu g1 g2]
    | variant h2 => cases hu _ _ _ h1 h2
    | typedef h2 => cases hu _ _ _ h1 h2
    | optional h2 => exact absurd h1 (h2 _)
    | array h2 => exact absurd h1 (h2 _)
    | extension h2 => exact absurd h1 (h2 _)
  | variant h1 g1 =>
    cases h' with
    | builtin h2 => cases hu _ _ _ h1 h2
    | extendedAsset h2 => cases hu _ _ _ h1 h2
    | struct h2 => cases hu _ _ _ h1 h2
    | variant h2 g2 => cases hu _ _ _ h1 h2; rw [FieldsOf.unique hu g1 g2]
    | typedef h2 => cases hu _ _ _ h1 h2
    | optional h2 => exact absurd h1 (h2 _)
    | array h2 => exact absurd h1 (h2 _)
    | extension h2 => exact absurd h1 (h2 _)
  | typedef h1 g1 =>
    cases h' with
    | builtin h2 => cases hu _ _ _ h1 h2
    | extendedAsset h2 => cases hu _ _ _ h1 h2
    | struct h2 => cases hu _ _ _ h1 h2
    | variant h2 => cases hu _ _ _ h1 h2
    | typedef h2 g2 => rw [Denotes.unique hu g1 g2]
    | optional h2 => exact absurd h1 (h2 _)
    | array h2 => exact absurd h1 (h2 _)
    | extension h2 => exact absurd h1 (h2 _)
  | @optional b p h1 g1 g1' =>
    generalize hk : b ++ str "?" = k at h' h1
    cases h' with
    | builtin h2 => exact absurd h2 (h1 _)
    | extendedAsset h2 => exact absurd h2 (h1 _)
    | struct h2 => exact absurd h2 (h1 _)
    | variant h2 => exact absurd h2 (h1 _)
    | typedef h2 => exact absurd h2 (h1 _)
    | optional h2 g2 => cases List.append_cancel_right hk; rw [Denotes.unique hu g1 g2]
    | array h2 => exact absurd hk (opt_ne_arr _ _)
    | extension h2 => exact absurd hk (opt_ne_ext _ _)
  | @array b p h1 g1 g1' =>
    generalize hk : b ++ str "[]" = k at h' h1
    cases h' with
    | builtin h2 => exact absurd h2 (h1 _)
    | extendedAsset h2 => exact absurd h2 (h1 _)
    | struct h2 => exact absurd h2 (h1 _)
    | variant h2 => exact absurd h2 (h1 _)
    | typedef h2 => exact absurd h2 (h1 _)
    | optional h2 => exact absurd hk.symm (opt_ne_arr _ _)
    | array h2 g2 => cases List.append_cancel_right hk; rw [Denotes.unique hu g1 g2]
    | extension h2 => exact absurd hk (arr_ne_ext _ _)
  | @extension b p h1 g1 g1' =>
    generalize hk : b ++ str "$" = k at h' h1
    cases h' with
    | builtin h2 => exact absurd h2 (h1 _)
    | extendedAsset h2 => exact absurd h2 (h1 _)
    | struct h2 => exact absurd h2 (h1 _)
    | variant h2 => exact absurd h2 (h1 _)
    | typedef h2 => exact absurd h2 (h1 _)
    | optional h2 => exact absurd hk.symm (opt_ne_ext _ _)
    | array h2 => exact absurd hk.symm (arr_ne_ext _ _)
    | extension h2 g2 => cases List.append_cancel_right hk; rw [Denotes.unique hu g1 g2]

/-- Names decide: a definition in which no name is declared twice (or is builtin, or empty) is required for loading. -/
theorem c25_names {D : AbiDef} {T : Table} (h : LoadTypes D (.ok T)) : NamesOk D := by
  unfold LoadTypes at h
  split at h
  · cases h
  · rename_i T0 h0
    exact (addDefs_iff D).1 ⟨T0, h0⟩

/-- A text denotes at most one type, a struct has at most one list of fields, and a type is built in at most one way. -/
theorem c25_meaning_unique {D : AbiDef} (h : NamesOk D) :
    (∀ k p q, Denotes D k p → Denotes D k q → p = q) ∧ (∀ s fs fs', StructFields D s fs → StructFields D s fs' → fs = fs') ∧
      ∀ k d d', Meaning D k d → Meaning D k d' → d = d' :=
  ⟨fun _ _ _ => Denotes.unique (unique_of_namesOk h), fun _ _ _ => StructFields.unique (unique_of_namesOk h),
    fun _ _ _ => Meaning.unique (unique_of_namesOk h)⟩

/-- If the names are fine and everything referred to can be found within 32 steps, the definition loads. -/
theorem c25_loads {D : AbiDef} (hn : NamesOk D) (hr : Resolvable D) : ∃ T, LoadTypes D (.ok T) := by
  obtain ⟨T, hT⟩ := (addDefs_iff D).2 hn
  obtain ⟨s, hs⟩ := loop_complete hr (loopInv_init hT)
  refine ⟨s.table, ?_⟩
  unfold LoadTypes
  rw [hT]
  exact ⟨.ok s, hs, rfl⟩

theorem fieldsOf_mem {D : AbiDef} {fs : List FieldDef} {l : List Field} (h : FieldsOf D fs l) : ∀ f ∈ l, ∃ g ∈ fs, f.name = g.name ∧ Denotes D g.type f.type := by
  induction h with
  | nil => simp
  | cons h1 _ ih =>
    intro f hf
    cases hf with
    | head => exact ⟨_, by simp, rfl, h1⟩
    | tail _ hf =>
      obtain ⟨g, h2, h3⟩ := ih f hf
      exact ⟨g, by simp [h2], h3⟩

/-- In a loaded ABI alternatives of the same name have the same type: which of them a JSON document selects makes no difference
except for the tag. -/
theorem c25_alternatives {D : AbiDef} {T : Table} (h : LoadTypes D (.ok T)) {k : Bytes} {alts : List Field} (hk : T.get k = some (.variant alts))
    {f g : Field} (hf : f ∈ alts) (hg : g ∈ alts) (he : f.name = g.name) : f.type = g.type := by
  have hu := (load_result h).1.unique
  cases c25_meaning h hk with
  | variant h1 h2 =>
    obtain ⟨a, ha, e1, d1⟩ := fieldsOf_mem h2 f hf
    obtain ⟨b, hb, e2, d2⟩ := fieldsOf_mem h2 g hg
    obtain ⟨t, -, rfl⟩ := List.mem_map.1 ha
    obtain ⟨u, -, rfl⟩ := List.mem_map.1 hb
    simp only at e1 e2 d1 d2
    have : t = u := by rw [← e1, ← e2, he]
    subst this
    exact Denotes.unique hu d1 d2

end Abieos
