import Verif.Props.Export
import Verif.Props.AddType
import Verif.Spec.CApi
/-
Tables that a definition describes: loaded ones, and loaded ones to which C++ types were added.
-/
namespace Abieos
open Spec

/-- The text `b` leads to the type `p`: it is its name, or an alias of it. -/
def Named (T : Table) (b : Bytes) (p : Ptr) : Prop := b = p ∨ T.get b = some (.alias p)

/-- What makes a table that of a definition. -/
structure Reload (T : Table) : Prop where
  sorted : T.Sorted
  wf : T.WF
  builtins : ∀ b : Builtin, T.get b.typeName = some (.builtin b)
  asset : T.get (str "extended_asset") = some (.struct [⟨str "quantity", str "asset"⟩, ⟨str "contract", str "name"⟩])
  leaf : ∀ k b, T.get k = some (.builtin b) → k = b.typeName
  nonempty : ∀ k d, T.get k = some d → d.isWrapper = false → k ≠ []
  optional : ∀ k p, T.get k = some (.optional p) → ∃ b, k = b ++ str "?" ∧ Named T b p
  array : ∀ k p, T.get k = some (.array p) → ∃ b, k = b ++ str "[]" ∧ Named T b p
  extension : ∀ k p, T.get k = some (.extension p) → ∃ b, k = b ++ str "$" ∧ Named T b p
  alts : ∀ k l, T.get k = some (.variant l) → ∀ f ∈ l, Named T f.name f.type

/-- as `variantOfNode`, with the alternatives as they are named -/
def variantOfNames (e : Bytes × TData) : Option VariantDef := match e.2 with
  | .variant alts => some ⟨e.1, alts.map (·.name)⟩
  | _ => none

/-- a definition of what is in the table -/
def defOf (T : Table) : AbiDef :=
  ⟨str "eosio::abi/1.0", T.filterMap typeOfNode, T.filterMap structOfNode, [], [], [], [], [], T.filterMap variantOfNames⟩

theorem builtin_name_ne (b : Builtin) : b.typeName ≠ [] ∧ b.typeName ≠ str "extended_asset" := by cases b <;> decide +kernel

section
variable {T : Table} (h : Reload T)
include h

theorem Reload.resolved {k : Bytes} {d : TData} (hk : T.get k = some d) : d.resolved = true := by
  have := h.wf _ _ hk
  cases d <;> first | rfl | exact this.elim

theorem mem_def_types {t : TypeDef} : t ∈ (defOf T).types ↔ T.get t.newName = some (.alias t.type) := by
  simp only [defOf, List.mem_filterMap]
  constructor
  · rintro ⟨⟨k, d⟩, h1, h2⟩
    cases d <;> simp only [typeOfNode] at h2 <;> cases h2
    exact Table.get_of_mem h.sorted h1
  · exact fun h1 => ⟨_, Table.get_mem' h1, rfl⟩

theorem mem_def_structs {s : StructDef} : s ∈ (defOf T).structs ↔
    s.name ≠ str "extended_asset" ∧ s.base = [] ∧ ∃ fs, T.get s.name = some (.struct fs) ∧ s.fields = fs.map fun f => ⟨f.name, f.type⟩ := by
  simp only [defOf, List.mem_filterMap]
  constructor
  · rintro ⟨⟨k, d⟩, h1, h2⟩
    cases d <;> simp only [structOfNode] at h2 <;> try cases h2
    rename_i fs
    split at h2
    · cases h2
    · rename_i hk
      cases h2
      exact ⟨hk, rfl, fs, Table.get_of_mem h.sorted h1, rfl⟩
  · rintro ⟨h1, h2, fs, h3, h4⟩
    refine ⟨_, Table.get_mem' h3, ?_⟩
    obtain ⟨a, b, c⟩ := s
    simp only at h1 h2 h4
    simp [structOfNode, h1, h2, h4]

theorem mem_def_variants {v : VariantDef} : v ∈ (defOf T).variants ↔ ∃ alts, T.get v.name = some (.variant alts) ∧ v.types = alts.map (·.name) := by
  simp only [defOf, List.mem_filterMap]
  constructor
  · rintro ⟨⟨k, d⟩, h1, h2⟩
    cases d <;> simp only [variantOfNames] at h2 <;> cases h2
    exact ⟨_, Table.get_of_mem h.sorted h1, rfl⟩
  · rintro ⟨alts, h3, h4⟩
    refine ⟨_, Table.get_mem' h3, ?_⟩
    obtain ⟨a, b⟩ := v
    simp only at h4
    simp [variantOfNames, h4]

theorem def_names : NamesOk (defOf T) := by
  have new : ∀ k d, T.get k = some d → d.isWrapper = false → k ≠ str "extended_asset" → (∀ b, d ≠ .builtin b) →
      k ≠ [] ∧ k ≠ str "extended_asset" ∧ ∀ b : Builtin, k ≠ b.typeName := by
    intro k d hk hw hx hb
    refine ⟨h.nonempty _ _ hk hw, hx, fun b e => ?_⟩
    rw [e, h.builtins b] at hk
    cases hk
    exact hb _ rfl
  refine ⟨?_, ?_⟩
  · rw [List.nodup_append, List.nodup_append]
    refine ⟨⟨filterMap_keys_nodup T h.sorted _ _ ?_, filterMap_keys_nodup T h.sorted _ _ ?_, ?_⟩, filterMap_keys_nodup T h.sorted _ _ ?_, ?_⟩
    · rintro ⟨k, d⟩ b hb; cases d <;> simp only [typeOfNode] at hb <;> cases hb; rfl
    · rintro ⟨k, d⟩ b hb
      cases d <;> simp only [structOfNode] at hb <;> try cases hb
      split at hb <;> cases hb
      rfl
    · intro a ha b hb e
      subst e
      obtain ⟨t, ht, rfl⟩ := List.mem_map.1 ha
      obtain ⟨s, hs, hn⟩ := List.mem_map.1 hb
      have h1 := (mem_def_types h).1 ht
      obtain ⟨-, -, fs, h2, -⟩ := (mem_def_structs h).1 hs
      rw [hn, h1] at h2
      cases h2
    · rintro ⟨k, d⟩ b hb; cases d <;> simp only [variantOfNames] at hb <;> cases hb; rfl
    · intro a ha b hb e
      subst e
      obtain ⟨v, hv, hn⟩ := List.mem_map.1 hb
      obtain ⟨fs, h2, -⟩ := (mem_def_variants h).1 hv
      rcases List.mem_append.1 ha with ha | ha
      · obtain ⟨t, ht, rfl⟩ := List.mem_map.1 ha
        have h1 := (mem_def_types h).1 ht
        rw [hn, h1] at h2
        cases h2
      · obtain ⟨s, hs, rfl⟩ := List.mem_map.1 ha
        obtain ⟨-, -, fs, h1, -⟩ := (mem_def_structs h).1 hs
        rw [hn, h1] at h2
        cases h2
  · intro k hk
    rcases List.mem_append.1 hk with hk | hk
    · rcases List.mem_append.1 hk with hk | hk
      · obtain ⟨t, ht, rfl⟩ := List.mem_map.1 hk
        have h1 := (mem_def_types h).1 ht
        refine new _ _ h1 rfl (fun e => ?_) (by simp)
        rw [e, h.asset] at h1; cases h1
      · obtain ⟨s, hs, rfl⟩ := List.mem_map.1 hk
        obtain ⟨h2, -, fs, h1, -⟩ := (mem_def_structs h).1 hs
        exact new _ _ h1 rfl h2 (by simp)
    · obtain ⟨v, hv, rfl⟩ := List.mem_map.1 hk
      obtain ⟨fs, h1, -⟩ := (mem_def_variants h).1 hv
      refine new _ _ h1 rfl (fun e => ?_) (by simp)
      rw [e, h.asset] at h1; cases h1

theorem def_declares_of {k : Bytes} {d' : TData} (hd : Declares (defOf T) k d') : ∃ d, T.get k = some d ∧ d.isWrapper = false := by
  cases hd with
  | builtin b => exact ⟨_, h.builtins b, rfl⟩
  | extendedAsset => exact ⟨_, h.asset, rfl⟩
  | typedef ht => exact ⟨_, (mem_def_types h).1 ht, rfl⟩
  | struct hs => obtain ⟨-, -, fs, h1, -⟩ := (mem_def_structs h).1 hs; exact ⟨_, h1, rfl⟩
  | variant hv => obtain ⟨fs, h1, -⟩ := (mem_def_variants h).1 hv; exact ⟨_, h1, rfl⟩

theorem def_undeclared {k : Bytes} {d : TData} (hk : T.get k = some d) (hw : d.isWrapper = true) : Undeclared (defOf T) k := by
  intro d' hd
  obtain ⟨e, h1, h2⟩ := def_declares_of h hd
  rw [hk] at h1; cases h1
  rw [hw] at h2; cases h2

/-- what is not a wrapper and not an alias is declared -/
theorem def_declared {k : Bytes} {d : TData} (hk : T.get k = some d) (ht : d.isTarget = true) (hw : d.isWrapper = false) :
    ∃ d', Declares (defOf T) k d' ∧ ∀ t, d' ≠ .aliasDef t := by
  cases d with
  | builtin b => obtain rfl := h.leaf _ _ hk; exact ⟨_, .builtin b, by simp⟩
  | struct fs =>
    by_cases hx : k = str "extended_asset"
    · subst hx; exact ⟨_, .extendedAsset, by simp⟩
    · exact ⟨_, .struct (s := ⟨k, [], fs.map fun f => ⟨f.name, f.type⟩⟩) ((mem_def_structs h).2 ⟨hx, rfl, fs, hk, rfl⟩), by simp⟩
  | variant l => exact ⟨_, .variant (v := ⟨k, l.map (·.name)⟩) ((mem_def_variants h).2 ⟨l, hk, rfl⟩), by simp⟩
  | _ => simp [TData.isTarget, TData.isWrapper] at ht hw

theorem def_notExt {k : Bytes} {d : TData} (hk : T.get k = some d) (ht : d.isTarget = true) (hx : d.isExt = false) : ¬ IsExtText (defOf T) k := by
  rintro ⟨hu, b, rfl⟩
  by_cases hw : d.isWrapper = true
  · cases d with
    | optional p => obtain ⟨c, e, -⟩ := h.optional _ _ hk; exact opt_ne_ext _ _ e.symm
    | array p => obtain ⟨c, e, -⟩ := h.array _ _ hk; exact arr_ne_ext _ _ e.symm
    | extension p => cases hx
    | _ => cases hw
  · obtain ⟨d', h1, -⟩ := def_declared h hk ht (by simpa using hw)
    exact hu _ h1

theorem def_self1 {p : Ptr} {d : TData} (hp : T.get p = some d) (ht : d.isTarget = true) (hw : d.isWrapper = false) : Denotes (defOf T) p p ∧ ¬ Undeclared (defOf T) p := by
  obtain ⟨d', h1, h2⟩ := def_declared h hp ht hw
  exact ⟨.declared h1 h2, fun hu => hu _ h1⟩

theorem def_named {b : Bytes} {p : Ptr} {d : TData} (hn : Named T b p) (hp : T.get p = some d) (ht : d.isTarget = true) (hs : Denotes (defOf T) p p) : Denotes (defOf T) b p := by
  rcases hn with rfl | hn
  · exact hs
  · obtain ⟨e, g1, g2, g3⟩ := h.wf _ _ hn
    exact .typedef (.typedef (t := ⟨b, p⟩) ((mem_def_types h).2 hn)) hs (def_notExt h g1 g2 g3)

theorem def_optional {k p : Bytes} (hk : T.get k = some (.optional p)) : ∃ b, k = b ++ str "?" ∧ Undeclared (defOf T) k ∧ Denotes (defOf T) b p ∧ ¬ Undeclared (defOf T) p := by
  obtain ⟨b, e, hn⟩ := h.optional _ _ hk
  obtain ⟨d, g1, g2, g3⟩ := h.wf _ _ hk
  obtain ⟨s1, s2⟩ := def_self1 h g1 g2 g3
  exact ⟨b, e, def_undeclared h hk rfl, def_named h hn g1 g2 s1, s2⟩

theorem def_array {k p : Bytes} (hk : T.get k = some (.array p)) : ∃ b, k = b ++ str "[]" ∧ Undeclared (defOf T) k ∧ Denotes (defOf T) b p ∧ ¬ Undeclared (defOf T) p := by
  obtain ⟨b, e, hn⟩ := h.array _ _ hk
  obtain ⟨d, g1, g2, g3⟩ := h.wf _ _ hk
  obtain ⟨s1, s2⟩ := def_self1 h g1 g2 g3
  exact ⟨b, e, def_undeclared h hk rfl, def_named h hn g1 g2 s1, s2⟩

theorem def_self2 {p : Ptr} {d : TData} (hp : T.get p = some d) (ht : d.isTarget = true) (hx : d.isExt = false) : Denotes (defOf T) p p := by
  by_cases hw : d.isWrapper = true
  · cases d with
    | optional q => obtain ⟨c, rfl, a1, a2, a3⟩ := def_optional h hp; exact .optional a1 a2 a3
    | array q => obtain ⟨c, rfl, a1, a2, a3⟩ := def_array h hp; exact .array a1 a2 a3
    | extension p => cases hx
    | _ => cases hw
  · exact (def_self1 h hp ht (by simpa using hw)).1

theorem def_extension {k p : Bytes} (hk : T.get k = some (.extension p)) : ∃ b, k = b ++ str "$" ∧ Undeclared (defOf T) k ∧ Denotes (defOf T) b p ∧ ¬ IsExtText (defOf T) p := by
  obtain ⟨b, e, hn⟩ := h.extension _ _ hk
  obtain ⟨d, g1, g2, g3⟩ := h.wf _ _ hk
  exact ⟨b, e, def_undeclared h hk rfl, def_named h hn g1 g2 (def_self2 h g1 g2 g3), def_notExt h g1 g2 g3⟩

theorem def_self {p : Ptr} (hp : T.Valid p) : Denotes (defOf T) p p := by
  obtain ⟨d, h1, h2⟩ := hp
  by_cases hx : d.isExt = true
  · cases d <;> first | cases hx | skip
    obtain ⟨b, rfl, a1, a2, a3⟩ := def_extension h h1
    exact .extension a1 a2 a3
  · exact def_self2 h h1 h2 (by simpa using hx)

theorem def_fields : ∀ {fs : List Field}, (∀ f ∈ fs, T.Valid f.type) → FieldsOf (defOf T) (fs.map fun f => ⟨f.name, f.type⟩) fs
  | [], _ => .nil
  | f :: fs, hf => .cons (def_self h (hf f (by simp))) (def_fields fun g hg => hf g (List.mem_cons_of_mem _ hg))

theorem def_alts : ∀ {l : List Field}, (∀ f ∈ l, T.Valid f.type ∧ Named T f.name f.type) → FieldsOf (defOf T) ((l.map (·.name)).map fun t => ⟨t, t⟩) l
  | [], _ => .nil
  | f :: l, hf => by
    obtain ⟨⟨d, g1, g2⟩, hn⟩ := hf f (by simp)
    exact .cons (def_named h hn g1 g2 (def_self h ⟨d, g1, g2⟩)) (def_alts fun g hg => hf g (List.mem_cons_of_mem _ hg))

theorem def_meaning {k : Bytes} {d : TData} (hk : T.get k = some d) : Meaning (defOf T) k d := by
  have hw := h.wf _ _ hk
  cases d with
  | builtin b => obtain rfl := h.leaf _ _ hk; exact .builtin (.builtin b)
  | aliasDef => exact hw.elim
  | structDef => exact hw.elim
  | variantDef => exact hw.elim
  | «alias» p =>
    obtain ⟨e, g1, g2, g3⟩ := hw
    have hd : Declares (defOf T) k (.aliasDef p) := .typedef (t := ⟨k, p⟩) ((mem_def_types h).2 hk)
    exact .typedef hd (.typedef hd (def_self2 h g1 g2 g3) (def_notExt h g1 g2 g3))
  | optional p => obtain ⟨c, rfl, a1, a2, a3⟩ := def_optional h hk; exact .optional a1 a2 a3
  | array p => obtain ⟨c, rfl, a1, a2, a3⟩ := def_array h hk; exact .array a1 a2 a3
  | extension p => obtain ⟨c, rfl, a1, a2, a3⟩ := def_extension h hk; exact .extension a1 a2 a3
  | struct fs =>
    by_cases hx : k = str "extended_asset"
    · subst hx
      rw [h.asset] at hk
      cases hk
      exact .extendedAsset .extendedAsset
    · exact .struct (.struct (s := ⟨k, [], fs.map fun f => ⟨f.name, f.type⟩⟩) ((mem_def_structs h).2 ⟨hx, rfl, fs, hk, rfl⟩)) (.root rfl (def_fields h hw))
  | variant l =>
    exact .variant (.variant (v := ⟨k, l.map (·.name)⟩) ((mem_def_variants h).2 ⟨l, hk, rfl⟩)) (def_alts h fun f hf => ⟨hw f hf, h.alts _ _ hk f hf⟩)

omit h in
theorem here_of_target {p : Ptr} {d : TData} (hp : T.get p = some d) (ht : d.isTarget = true) : Here T p := ⟨d, hp, by cases d <;> first | rfl | cases ht⟩

/-- Such a table is that of the definition. -/
theorem Reload.loaded : Loaded (defOf T) T :=
  ⟨{ unique := unique_of_namesOk (def_names h)
     sorted := h.sorted
     meaning := fun _ _ hk _ => def_meaning h hk
     pending := fun _ _ hk hr => by rw [h.resolved hk] at hr; cases hr
     here := fun k d hk p hp => by
       have hw := h.wf _ _ hk
       cases d with
       | builtin b => simp [TData.ptrs] at hp
       | aliasDef => exact hw.elim
       | structDef => exact hw.elim
       | variantDef => exact hw.elim
       | struct fs => obtain ⟨f, hf, rfl⟩ := List.mem_map.1 (show p ∈ fs.map (·.type) from hp); obtain ⟨e, g1, g2⟩ := hw f hf; exact here_of_target g1 g2
       | variant fs => obtain ⟨f, hf, rfl⟩ := List.mem_map.1 (show p ∈ fs.map (·.type) from hp); obtain ⟨e, g1, g2⟩ := hw f hf; exact here_of_target g1 g2
       | _ => simp only [TData.ptrs, List.mem_singleton] at hp; subst hp; obtain ⟨e, g1, g2, -⟩ := hw; exact here_of_target g1 g2
     decls := fun k d hd => by obtain ⟨e, h1, -⟩ := def_declares_of h hd; exact ⟨e, h1⟩ },
   fun _ _ hk => h.resolved hk⟩

end

/-! ## loaded tables -/

theorem named_of_denotes {D : AbiDef} {T : Table} (h : Loaded D T) {b : Bytes} {p : Ptr} (hd : Denotes D b p) : Named T b p := by
  cases hd with
  | declared => exact .inl rfl
  | typedef h1 h2 h3 => exact .inr (h.get_typedef h1 (.typedef h1 h2 h3))
  | optional => exact .inl rfl
  | array => exact .inl rfl
  | extension => exact .inl rfl

theorem reload_of_loaded {D : AbiDef} {T : Table} (h : LoadedThen D T) : Reload T := by
  have hl := loaded_of h
  have hn : NamesOk D := by obtain ⟨T0, names, h1, -⟩ := h; exact c25_names h1
  have mean := fun {k d} hk => hl.1.meaning k d hk (hl.2 k d hk)
  refine ⟨hl.1.sorted, hl.wf, fun b => ?_, ?_, fun k b hk => ?_, fun k d hk hw => ?_, fun k p hk => ?_, fun k p hk => ?_, fun k p hk => ?_, fun k l hk f hf => ?_⟩
  · obtain ⟨d', h1, h2, h3⟩ := hl.declared (.builtin b)
    rw [h1, Meaning.unique hl.1.unique h3 (.builtin (.builtin b))]
  · obtain ⟨d', h1, h2, h3⟩ := hl.declared .extendedAsset
    rw [h1, Meaning.unique hl.1.unique h3 (.extendedAsset .extendedAsset)]
  · cases mean hk with
    | builtin h1 => cases h1; rfl
  · cases mean hk with
    | builtin h1 => cases h1; exact (builtin_name_ne _).1
    | extendedAsset h1 => cases h1; decide +kernel
    | struct h2 => cases h2 with | struct h3 => exact (hn.new _ (by simp only [List.mem_append, List.mem_map]; exact .inl (.inr ⟨_, h3, rfl⟩))).1
    | variant h2 => cases h2 with | variant h3 => exact (hn.new _ (by simp only [List.mem_append, List.mem_map]; exact .inr ⟨_, h3, rfl⟩)).1
    | typedef h2 => cases h2 with | typedef h3 => exact (hn.new _ (by simp only [List.mem_append, List.mem_map]; exact .inl (.inl ⟨_, h3, rfl⟩))).1
    | optional h2 => cases hw
    | array h2 => cases hw
    | extension h2 => cases hw
  · cases mean hk with
    | optional h1 h2 h3 => exact ⟨_, rfl, named_of_denotes hl h2⟩
  · cases mean hk with
    | array h1 h2 h3 => exact ⟨_, rfl, named_of_denotes hl h2⟩
  · cases mean hk with
    | extension h1 h2 h3 => exact ⟨_, rfl, named_of_denotes hl h2⟩
  · cases mean hk with
    | variant h1 h2 =>
      obtain ⟨g, hg, e, hd⟩ := fieldsOf_mem h2 f hf
      obtain ⟨t, ht, rfl⟩ := List.mem_map.1 hg
      rw [e]
      exact named_of_denotes hl hd

/-! ## adding types -/

theorem sorted_pushField {T : Table} (hs : T.Sorted) (k : Bytes) (f : Field) : (T.pushField k f).Sorted := by
  unfold Table.pushField
  split
  · exact Table.sorted_set hs _ _
  · exact hs

theorem sorted_addFields {add : CTy → Table → Res Ptr × Table} (h : ∀ t T, T.Sorted → (add t T).2.Sorted) (k : Bytes) :
    ∀ (fs : List (Bytes × CTy)) (T : Table), T.Sorted → (addFields add k fs T).2.Sorted
  | [], T, hs => hs
  | (n, t) :: fs, T, hs => by
    have h1 := h t T hs
    rw [addFields]
    split
    · rename_i e; rw [e] at h1; exact h1
    · rename_i e; rw [e] at h1
      exact sorted_addFields h k fs _ (sorted_pushField h1 _ _)

theorem sorted_addAlts {add : CTy → Table → Res Ptr × Table} (h : ∀ t T, T.Sorted → (add t T).2.Sorted) : ∀ (ts : List CTy) (T : Table), T.Sorted → (addAlts add ts T).2.Sorted
  | [], T, hs => hs
  | t :: ts, T, hs => by
    have h1 := h t T hs
    rw [addAlts]
    split
    · rename_i e; rw [e] at h1; exact h1
    · rename_i T' e; rw [e] at h1
      have h2 := sorted_addAlts h ts T' h1
      split
      · rename_i e'; rw [e'] at h2; exact h2
      · rename_i e'; rw [e'] at h2; exact h2

theorem sorted_addType (P : Prog) : ∀ (n : Nat) (t : CTy) (T : Table), T.Sorted → (addType P n t T).2.Sorted
  | 0, t, T, hs => by rw [addType]; exact hs
  | n + 1, .leaf k, T, hs => by rw [addType]; split <;> exact hs
  | n + 1, .struct m, T, hs => by
    rw [addType]
    split
    · exact hs
    · rename_i hm
      have h := sorted_addFields (sorted_addType P n) m (P.fields m) _ (Table.sorted_insertNew hs (.struct []) hm)
      split
      · rename_i e; rw [e] at h; exact h
      · rename_i e; rw [e] at h; exact h
  | n + 1, .vec t, T, hs => by
    have h := sorted_addType P n t T hs
    rw [addType]
    split
    · rename_i e; rw [e] at h; exact h
    · rename_i e; rw [e] at h
      split
      · exact h
      · exact Table.sorted_emplace h _ _
  | n + 1, .opt t, T, hs => by
    have h := sorted_addType P n t T hs
    rw [addType]
    split
    · rename_i e; rw [e] at h; exact h
    · rename_i e; rw [e] at h
      split
      · exact h
      · exact Table.sorted_emplace h _ _
  | n + 1, .ext t, T, hs => by
    have h := sorted_addType P n t T hs
    rw [addType]
    split
    · rename_i e; rw [e] at h; exact h
    · rename_i e; rw [e] at h
      split
      · exact h
      · exact Table.sorted_emplace h _ _
  | n + 1, .variant ts, T, hs => by
    have h := sorted_addAlts (sorted_addType P n) ts T hs
    rw [addType]
    split
    · rename_i e; rw [e] at h; exact h
    · rename_i e; rw [e] at h
      exact Table.sorted_emplace h _ _

theorem typeText_variant_ne (ts : List CTy) : typeText (.variant ts) ≠ [] := by
  rw [← c56_name]
  simp [CTy.name, str]

theorem reload_added {P : Prog} {t : CTy} {T T' : Table} {p : Ptr} (h : Reload T) (hn : NamesDiffer P t) (ha : Agrees P T t) (hne : ∀ n, Uses P t (.struct n) → n ≠ [])
    (hadd : AddType P t T (.ok p) T') : Reload T' := by
  have hk := c56_keeps hadd
  have hwf := c56_resolved h.wf hn ha hadd
  have honly := (c56_only h.wf hn ha hadd).2.2.2
  have named : ∀ {b q}, Named T b q → Named T' b q := fun hx => hx.imp_right fun g => hk _ _ g
  refine ⟨?_, hwf, fun b => hk _ _ (h.builtins b), hk _ _ h.asset, fun k b hb => ?_, fun k d hd hw => ?_, fun k q hq => ?_, fun k q hq => ?_, fun k q hq => ?_, fun k l hl f hf => ?_⟩
  · obtain ⟨n, hn⟩ := hadd
    have := sorted_addType P n t T h.sorted
    rwa [hn n (Nat.le_refl _)] at this
  · rcases honly _ _ hb with g | ⟨u, hu, rfl, e⟩
    · exact h.leaf _ _ g
    · cases u <;> cases e; rfl
  · rcases honly _ _ hd with g | ⟨u, hu, rfl, rfl⟩
    · exact h.nonempty _ _ g hw
    · cases u with
      | leaf k => exact (builtin_name_ne k).1
      | struct n => exact hne n hu
      | variant ts => exact typeText_variant_ne ts
      | _ => cases hw
  · rcases honly _ _ hq with g | ⟨u, hu, rfl, e⟩
    · obtain ⟨b, e, hb⟩ := h.optional _ _ g; exact ⟨b, e, named hb⟩
    · cases u <;> cases e; exact ⟨_, rfl, .inl rfl⟩
  · rcases honly _ _ hq with g | ⟨u, hu, rfl, e⟩
    · obtain ⟨b, e, hb⟩ := h.array _ _ g; exact ⟨b, e, named hb⟩
    · cases u <;> cases e; exact ⟨_, rfl, .inl rfl⟩
  · rcases honly _ _ hq with g | ⟨u, hu, rfl, e⟩
    · obtain ⟨b, e, hb⟩ := h.extension _ _ g; exact ⟨b, e, named hb⟩
    · cases u <;> cases e; exact ⟨_, rfl, .inl rfl⟩
  · rcases honly _ _ hl with g | ⟨u, hu, rfl, e⟩
    · exact named (h.alts _ _ g f hf)
    · cases u <;> cases e
      obtain ⟨w, hw, rfl⟩ := List.mem_map.1 hf
      exact .inl rfl

/-! ## exporting -/

theorem exports_of_reload {T : Table} (h : Reload T) : exportTypes T = .ok (exportOf T) ∧ Usable (exportOf T) :=
  ⟨exportTypes_eq h.loaded, ⟨[48], by show str "eosio::abi/1.0" = _; decide +kernel⟩, c25_loads (export_names h.loaded (def_names h)) (export_resolvable h.loaded (def_names h))⟩

/-- What is in the table is what the exported definition says. -/
theorem export_meaning {T : Table} (h : Reload T) {k : Bytes} {d : TData} (hk : T.get k = some d) : Meaning (exportOf T) k (renamed d) := by
  have hl := h.loaded
  have hn := def_names h
  have hm := def_meaning h hk
  cases hm with
  | builtin h2 => cases h2 with | builtin => exact .builtin (.builtin _)
  | extendedAsset h2 => cases h2 with | extendedAsset => exact .extendedAsset .extendedAsset
  | @struct _ s fs h2 h3 =>
    have hx : k ≠ str "extended_asset" := fun e => by cases hl.1.unique _ _ _ h2 (e ▸ Declares.extendedAsset)
    exact .struct (.struct (s := ⟨k, [], fs.map fun f => ⟨f.name, f.type⟩⟩) ((mem_export_structs hl).2 ⟨hx, rfl, fs, hk, rfl⟩))
      (.root rfl (fieldsOf_self hl hn fun f hf => hl.canon hn hk (List.mem_map.2 ⟨f, hf, rfl⟩)))
  | @variant _ v alts h2 h3 =>
    exact .variant (.variant (v := ⟨k, alts.map (·.type)⟩) ((mem_export_variants hl).2 ⟨alts, hk, rfl⟩))
      (fieldsOf_types hl hn fun f hf => hl.canon hn hk (List.mem_map.2 ⟨f, hf, rfl⟩))
  | @typedef _ t p h2 h3 => exact .typedef (.typedef (t := ⟨k, p⟩) ((mem_export_types hl).2 hk)) ((export_denotes hl hn).2 h3)
  | optional h1 h2 h3 => exact .optional ((export_undeclared hl).2 h1) ((export_denotes hl hn).2 h2) (mt (export_undeclared hl).1 h3)
  | array h1 h2 h3 => exact .array ((export_undeclared hl).2 h1) ((export_denotes hl hn).2 h2) (mt (export_undeclared hl).1 h3)
  | extension h1 h2 h3 => exact .extension ((export_undeclared hl).2 h1) ((export_denotes hl hn).2 h2) (mt (export_isExt hl).1 h3)

theorem export_self {T : Table} (h : Reload T) {p : Ptr} (hp : T.Valid p) : Denotes (exportOf T) p p := (export_denotes h.loaded (def_names h)).2 (def_self h hp)

end Abieos
