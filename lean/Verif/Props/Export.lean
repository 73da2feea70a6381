import Verif.Props.Lookup
/-
C42: exporting a loaded ABI and loading it again.
-/
namespace Abieos
open Spec

/-! ## What is exported -/

def typeOfNode (e : Bytes × TData) : Option TypeDef := match e.2 with
  | .alias p => some ⟨e.1, p⟩
  | _ => none

def structOfNode (e : Bytes × TData) : Option StructDef := match e.2 with
  | .struct fs => if e.1 = str "extended_asset" then none else some ⟨e.1, [], fs.map fun f => ⟨f.name, f.type⟩⟩
  | _ => none

def variantOfNode (e : Bytes × TData) : Option VariantDef := match e.2 with
  | .variant alts => some ⟨e.1, alts.map (·.type)⟩
  | _ => none

theorem exportNodes_eq : ∀ (T : Table) (D : AbiDef), (∀ e ∈ T, e.2.resolved = true) →
    exportNodes T D = .ok { D with types := D.types ++ T.filterMap typeOfNode, structs := D.structs ++ T.filterMap structOfNode,
                                   variants := D.variants ++ T.filterMap variantOfNode }
  | [], D, _ => by simp [exportNodes]
  | (k, d) :: T, D, h => by
    have h0 := h (k, d) (by simp)
    have ih := fun D => exportNodes_eq T D (fun e he => h e (List.mem_cons_of_mem _ he))
    unfold exportNodes exportNode
    cases d with
    | aliasDef => cases h0
    | structDef => cases h0
    | variantDef => cases h0
    | struct fs =>
      by_cases hk : k = str "extended_asset" <;>
        simp [ih, hk, typeOfNode, structOfNode, variantOfNode, List.filterMap_cons]
    | _ => simp [ih, typeOfNode, structOfNode, variantOfNode, List.filterMap_cons]

/-- What exporting yields, for a table that is resolved. -/
def exportOf (T : Table) : AbiDef :=
  ⟨str "eosio::abi/1.0", T.filterMap typeOfNode, T.filterMap structOfNode, [], [], [], [], [], T.filterMap variantOfNode⟩

theorem exportTypes_eq {D : AbiDef} {T : Table} (h : Loaded D T) : exportTypes T = .ok (exportOf T) := by
  unfold exportTypes
  rw [exportNodes_eq T _ (fun e he => h.2 e.1 e.2 (Table.get_of_mem h.1.sorted he))]
  simp [exportOf]

theorem filterMap_keys_nodup {β : Type} (T : Table) (hs : T.Sorted) (f : Bytes × TData → Option β) (key : β → Bytes) (hf : ∀ e b, f e = some b → key b = e.1) :
    ((T.filterMap f).map key).Nodup := by
  have h0 : (T.map (·.1)).Nodup := by
    refine List.Pairwise.imp ?_ (Table.sorted_iff.1 hs)
    intro a b hab e
    subst e
    exact bytes_lt_irrefl _ hab
  have : ((T.filterMap f).map key).Sublist (T.map (·.1)) := by
    clear hs h0
    induction T with
    | nil => simp
    | cons e T ih =>
      rw [List.filterMap_cons]
      cases he : f e with
      | none => exact ih.cons _
      | some b => simp only [List.map_cons]; rw [hf e b he]; exact ih.cons_cons _
  exact this.nodup h0

section
variable {D : AbiDef} {T : Table} (h : Loaded D T)
include h

theorem mem_export_types {t : TypeDef} : t ∈ (exportOf T).types ↔ T.get t.newName = some (.alias t.type) := by
  simp only [exportOf, List.mem_filterMap]
  constructor
  · rintro ⟨⟨k, d⟩, h1, h2⟩
    cases d <;> simp only [typeOfNode] at h2 <;> cases h2
    exact Table.get_of_mem h.1.sorted h1
  · exact fun h1 => ⟨_, Table.get_mem' h1, rfl⟩

theorem mem_export_structs {s : StructDef} : s ∈ (exportOf T).structs ↔
    s.name ≠ str "extended_asset" ∧ s.base = [] ∧ ∃ fs, T.get s.name = some (.struct fs) ∧ s.fields = fs.map fun f => ⟨f.name, f.type⟩ := by
  simp only [exportOf, List.mem_filterMap]
  constructor
  · rintro ⟨⟨k, d⟩, h1, h2⟩
    cases d <;> simp only [structOfNode] at h2 <;> try cases h2
    rename_i fs
    split at h2
    · cases h2
    · rename_i hk
      cases h2
      exact ⟨hk, rfl, fs, Table.get_of_mem h.1.sorted h1, rfl⟩
  · rintro ⟨h1, h2, fs, h3, h4⟩
    refine ⟨_, Table.get_mem' h3, ?_⟩
    obtain ⟨a, b, c⟩ := s
    simp only at h1 h2 h4
    simp [structOfNode, h1, h2, h4]

theorem mem_export_variants {v : VariantDef} : v ∈ (exportOf T).variants ↔ ∃ alts, T.get v.name = some (.variant alts) ∧ v.types = alts.map (·.type) := by
  simp only [exportOf, List.mem_filterMap]
  constructor
  · rintro ⟨⟨k, d⟩, h1, h2⟩
    cases d <;> simp only [variantOfNode] at h2 <;> cases h2
    exact ⟨_, Table.get_of_mem h.1.sorted h1, rfl⟩
  · rintro ⟨alts, h3, h4⟩
    refine ⟨_, Table.get_mem' h3, ?_⟩
    obtain ⟨a, b⟩ := v
    simp only at h4
    simp [variantOfNode, h4]

/-- What a declared name is in a loaded table. -/
theorem Loaded.declared {k : Bytes} {d : TData} (hd : Declares D k d) : ∃ d', T.get k = some d' ∧ d'.isWrapper = false ∧ Meaning D k d' := by
  obtain ⟨d', h1⟩ := h.1.decls _ _ hd
  have hm := h.1.meaning _ _ h1 (h.2 _ _ h1)
  refine ⟨d', h1, ?_, hm⟩
  cases hm with
  | optional h2 => exact absurd hd (h2 _)
  | array h2 => exact absurd hd (h2 _)
  | extension h2 => exact absurd hd (h2 _)
  | _ => rfl

theorem Loaded.wrapper {k : Bytes} {d : TData} (hk : T.get k = some d) : d.isWrapper = true ↔ Undeclared D k := by
  constructor
  · intro hw
    cases h.1.meaning _ _ hk (h.2 _ _ hk) with
    | optional h2 => exact h2
    | array h2 => exact h2
    | extension h2 => exact h2
    | _ => cases hw
  · intro hu
    cases h.1.meaning _ _ hk (h.2 _ _ hk) with
    | optional h2 => rfl
    | array h2 => rfl
    | extension h2 => rfl
    | builtin h2 => exact absurd h2 (hu _)
    | extendedAsset h2 => exact absurd h2 (hu _)
    | struct h2 => exact absurd h2 (hu _)
    | variant h2 => exact absurd h2 (hu _)
    | typedef h2 => exact absurd h2 (hu _)

theorem export_declares_some {k : Bytes} {d : TData} (hk : T.get k = some d) (hw : d.isWrapper = false) :
    ∃ d', Declares (exportOf T) k d' ∧ ((∃ t, d' = .aliasDef t) ↔ ∃ p, d = .alias p) := by
  have hr := h.2 _ _ hk
  have hm := h.1.meaning _ _ hk hr
  cases hm with
  | builtin h2 => cases h2 with | builtin => exact ⟨_, .builtin _, by simp⟩
  | extendedAsset h2 => cases h2 with | extendedAsset => exact ⟨_, .extendedAsset, by simp⟩
  | @struct _ s fs h2 h3 =>
    have hx : k ≠ str "extended_asset" := fun e => by cases h.1.unique _ _ _ h2 (e ▸ Declares.extendedAsset)
    exact ⟨_, .struct (s := ⟨k, [], fs.map fun f => ⟨f.name, f.type⟩⟩) ((mem_export_structs h).2 ⟨hx, rfl, fs, hk, rfl⟩), by simp⟩
  | @variant _ v alts h2 h3 => exact ⟨_, .variant (v := ⟨k, alts.map (·.type)⟩) ((mem_export_variants h).2 ⟨alts, hk, rfl⟩), by simp⟩
  | @typedef _ t p h2 h3 => exact ⟨_, .typedef (t := ⟨k, p⟩) ((mem_export_types h).2 hk), by simp⟩
  | optional h2 => cases hw
  | array h2 => cases hw
  | extension h2 => cases hw

theorem export_declares_of {k : Bytes} {d' : TData} (hd : Declares (exportOf T) k d') : ∃ d, T.get k = some d ∧ d.isWrapper = false := by
  cases hd with
  | builtin b => obtain ⟨d, h1, h2, -⟩ := h.declared (.builtin b); exact ⟨d, h1, h2⟩
  | extendedAsset => obtain ⟨d, h1, h2, -⟩ := h.declared .extendedAsset; exact ⟨d, h1, h2⟩
  | typedef ht => exact ⟨_, (mem_export_types h).1 ht, rfl⟩
  | struct hs => obtain ⟨-, -, fs, h1, -⟩ := (mem_export_structs h).1 hs; exact ⟨_, h1, rfl⟩
  | variant hv => obtain ⟨fs, h1, -⟩ := (mem_export_variants h).1 hv; exact ⟨_, h1, rfl⟩

/-- The same names are declared. -/
theorem export_undeclared {k : Bytes} : Undeclared (exportOf T) k ↔ Undeclared D k := by
  constructor
  · intro hu d hd
    obtain ⟨d', h1, h2, -⟩ := h.declared hd
    obtain ⟨d'', h3, -⟩ := export_declares_some h h1 h2
    exact hu _ h3
  · intro hu d hd
    obtain ⟨d', h1, h2⟩ := export_declares_of h hd
    have := (h.wrapper h1).2 hu
    rw [h2] at this
    cases this

theorem export_isExt {k : Bytes} : IsExtText (exportOf T) k ↔ IsExtText D k := by
  unfold IsExtText
  rw [export_undeclared h]

theorem Loaded.of_alias {k : Bytes} {p : Ptr} (hk : T.get k = some (.alias p)) : (∃ t, Declares D k (.aliasDef t)) ∧ Denotes D k p := by
  cases h.1.meaning _ _ hk rfl with
  | typedef h2 h3 => exact ⟨⟨_, h2⟩, h3⟩

theorem Loaded.of_variant {k : Bytes} {alts : List Field} (hk : T.get k = some (.variant alts)) :
    ∃ v, Declares D k (.variantDef v) ∧ FieldsOf D (v.types.map fun t => ⟨t, t⟩) alts := by
  cases h.1.meaning _ _ hk rfl with
  | variant h2 h3 => exact ⟨_, h2, h3⟩

theorem export_names (hn : NamesOk D) : NamesOk (exportOf T) := by
  refine ⟨?_, ?_⟩
  · rw [List.nodup_append, List.nodup_append]
    refine ⟨⟨filterMap_keys_nodup T h.1.sorted _ _ ?_, filterMap_keys_nodup T h.1.sorted _ _ ?_, ?_⟩, filterMap_keys_nodup T h.1.sorted _ _ ?_, ?_⟩
    · rintro ⟨k, d⟩ b hb; cases d <;> simp only [typeOfNode] at hb <;> cases hb; rfl
    · rintro ⟨k, d⟩ b hb
      cases d <;> simp only [structOfNode] at hb <;> try cases hb
      split at hb <;> cases hb
      rfl
    · intro a ha b hb e
      subst e
      obtain ⟨t, ht, rfl⟩ := List.mem_map.1 ha
      obtain ⟨s, hs, hn⟩ := List.mem_map.1 hb
      have h1 := (mem_export_types h).1 ht
      obtain ⟨-, -, fs, h2, -⟩ := (mem_export_structs h).1 hs
      rw [hn, h1] at h2
      cases h2
    · rintro ⟨k, d⟩ b hb; cases d <;> simp only [variantOfNode] at hb <;> cases hb; rfl
    · intro a ha b hb e
      subst e
      obtain ⟨v, hv, hn⟩ := List.mem_map.1 hb
      obtain ⟨fs, h2, -⟩ := (mem_export_variants h).1 hv
      rcases List.mem_append.1 ha with ha | ha
      · obtain ⟨t, ht, rfl⟩ := List.mem_map.1 ha
        have h1 := (mem_export_types h).1 ht
        rw [hn, h1] at h2
        cases h2
      · obtain ⟨s, hs, rfl⟩ := List.mem_map.1 ha
        obtain ⟨-, -, fs, h1, -⟩ := (mem_export_structs h).1 hs
        rw [hn, h1] at h2
        cases h2
  · have key : ∀ k d, T.get k = some d → (∀ b, d ≠ .builtin b) → d.isWrapper = false → k ≠ str "extended_asset" →
        k ≠ [] ∧ k ≠ str "extended_asset" ∧ ∀ b : Builtin, k ≠ b.typeName := by
      intro k d hk hb hw hxa
      cases h.1.meaning _ _ hk (h.2 _ _ hk) with
      | builtin h2 => exact absurd rfl (hb _)
      | extendedAsset h2 => cases h2 with | extendedAsset => exact absurd rfl hxa
      | struct h2 => cases h2 with | struct h3 => exact hn.new _ (by simp only [List.mem_append, List.mem_map]; exact .inl (.inr ⟨_, h3, rfl⟩))
      | variant h2 => cases h2 with | variant h3 => exact hn.new _ (by simp only [List.mem_append, List.mem_map]; exact .inr ⟨_, h3, rfl⟩)
      | typedef h2 => cases h2 with | typedef h3 => exact hn.new _ (by simp only [List.mem_append, List.mem_map]; exact .inl (.inl ⟨_, h3, rfl⟩))
      | optional h2 => cases hw
      | array h2 => cases hw
      | extension h2 => cases hw
    intro k hk
    rcases List.mem_append.1 hk with hk | hk
    · rcases List.mem_append.1 hk with hk | hk
      · obtain ⟨t, ht, rfl⟩ := List.mem_map.1 hk
        have h1 := (mem_export_types h).1 ht
        refine key _ _ h1 (by simp) rfl ?_
        intro e
        obtain ⟨⟨_, h2⟩, -⟩ := h.of_alias h1
        cases h.1.unique _ _ _ h2 (e ▸ Declares.extendedAsset)
      · obtain ⟨s, hs, rfl⟩ := List.mem_map.1 hk
        obtain ⟨h2, -, fs, h1, -⟩ := (mem_export_structs h).1 hs
        exact key _ _ h1 (by simp) rfl h2
    · obtain ⟨v, hv, rfl⟩ := List.mem_map.1 hk
      obtain ⟨fs, h1, -⟩ := (mem_export_variants h).1 hv
      refine key _ _ h1 (by simp) rfl ?_
      intro e
      obtain ⟨_, h2, -⟩ := h.of_variant h1
      cases h.1.unique _ _ _ h2 (e ▸ Declares.extendedAsset)

end

/-! ## The same texts denote the same types -/

theorem denotes_canon {D : AbiDef} {k : Bytes} {p : Ptr} (h : Denotes D k p) : Denotes D p p := by
  induction h with
  | declared h1 h2 => exact .declared h1 h2
  | typedef _ _ _ ih => exact ih
  | optional h1 h2 h3 => exact .optional h1 h2 h3
  | array h1 h2 h3 => exact .array h1 h2 h3
  | extension h1 h2 h3 => exact .extension h1 h2 h3

section
variable {D : AbiDef} {T : Table} (h : Loaded D T)
include h

theorem Loaded.get_typedef {k t : Bytes} {p : Ptr} (hd : Declares D k (.aliasDef t)) (hp : Denotes D k p) : T.get k = some (.alias p) := by
  obtain ⟨d', h1, h2, hm⟩ := h.declared hd
  cases hm with
  | builtin h5 => cases h.1.unique _ _ _ hd h5
  | extendedAsset h5 => cases h.1.unique _ _ _ hd h5
  | struct h5 => cases h.1.unique _ _ _ hd h5
  | variant h5 => cases h.1.unique _ _ _ hd h5
  | typedef h5 h6 => rw [h1, Denotes.unique h.1.unique h6 hp]
  | optional h5 => cases h2
  | array h5 => cases h2
  | extension h5 => cases h2

theorem export_denotes_of {k : Bytes} {p : Ptr} (hd : Denotes D k p) : Denotes (exportOf T) k p ∧ Denotes (exportOf T) p p := by
  suffices hs : Denotes (exportOf T) k p from ⟨hs, denotes_canon hs⟩
  induction hd with
  | @declared k d h1 h2 =>
    obtain ⟨d', g1, g2, gm⟩ := h.declared h1
    obtain ⟨d'', c1, c2⟩ := export_declares_some h g1 g2
    refine .declared c1 fun t ht => ?_
    obtain ⟨p, rfl⟩ := c2.1 ⟨t, ht⟩
    cases gm with
    | typedef h5 => exact h2 _ (h.1.unique _ _ _ h1 h5)
  | typedef h1 h2 h3 ih =>
    refine .typedef (.typedef (t := ⟨_, _⟩) ((mem_export_types h).2 (h.get_typedef h1 (.typedef h1 h2 h3)))) (denotes_canon ih) ?_
    rw [export_isExt h]
    exact h3
  | optional h1 _ h3 ih => exact .optional ((export_undeclared h).2 h1) ih (mt (export_undeclared h).1 h3)
  | array h1 _ h3 ih => exact .array ((export_undeclared h).2 h1) ih (mt (export_undeclared h).1 h3)
  | extension h1 _ h3 ih => exact .extension ((export_undeclared h).2 h1) ih (mt (export_isExt h).1 h3)

theorem export_alias {k t : Bytes} (hd : Declares (exportOf T) k (.aliasDef t)) : T.get k = some (.alias t) := by
  generalize hx : TData.aliasDef t = d at hd
  cases hd with
  | typedef ht => cases hx; exact (mem_export_types h).1 ht
  | _ => cases hx

theorem export_denotes (hn : NamesOk D) {k : Bytes} {p : Ptr} : Denotes (exportOf T) k p ↔ Denotes D k p := by
  refine ⟨fun hd => ?_, fun hd => (export_denotes_of h hd).1⟩
  induction hd with
  | @declared k d h1 h2 =>
    obtain ⟨d', g1, g2⟩ := export_declares_of h h1
    have hm := h.1.meaning _ _ g1 (h.2 _ _ g1)
    cases hm with
    | builtin h5 => exact .declared h5 (by simp)
    | extendedAsset h5 => exact .declared h5 (by simp)
    | struct h5 => exact .declared h5 (by simp)
    | variant h5 => exact .declared h5 (by simp)
    | @typedef _ t p h5 h6 =>
      exact absurd (unique_of_namesOk (export_names h hn) _ _ _ h1 (.typedef (t := ⟨_, p⟩) ((mem_export_types h).2 g1))) (h2 _)
    | optional h5 => cases g2
    | array h5 => cases g2
    | extension h5 => cases g2
  | @typedef k t p h1 h2 h3 ih =>
    have g := export_alias h h1
    cases h.1.meaning _ _ g rfl with
    | typedef _ h6 =>
      rw [Denotes.unique h.1.unique ih (denotes_canon h6)]
      exact h6
  | optional h1 _ h3 ih => exact .optional ((export_undeclared h).1 h1) ih (mt (export_undeclared h).2 h3)
  | array h1 _ h3 ih => exact .array ((export_undeclared h).1 h1) ih (mt (export_undeclared h).2 h3)
  | extension h1 _ h3 ih => exact .extension ((export_undeclared h).1 h1) ih (mt (export_isExt h).2 h3)

end

theorem Spec.DenotesIn.succ {D : AbiDef} {n : Nat} {k : Bytes} {p : Ptr} (h : DenotesIn D n k p) : DenotesIn D (n + 1) k p := by
  induction h with
  | declared h1 h2 => exact .declared h1 h2
  | typedef h1 _ h3 ih => exact .typedef h1 ih h3
  | optional h1 _ h3 ih => exact .optional h1 ih h3
  | array h1 _ h3 ih => exact .array h1 ih h3
  | extension h1 _ h3 ih => exact .extension h1 ih h3

theorem Spec.DenotesIn.mono {D : AbiDef} {n m : Nat} {k : Bytes} {p : Ptr} (h : DenotesIn D n k p) (hm : n ≤ m) : DenotesIn D m k p := by
  induction hm with
  | refl => exact h
  | step _ ih => exact ih.succ

section
variable {D : AbiDef} {T : Table} (h : Loaded D T) (hn : NamesOk D)
include h hn

/-- In the export a typedef leads directly to what it denotes. -/
theorem export_typedef {k t : Bytes} {p : Ptr} (h1 : Declares (exportOf T) k (.aliasDef t)) (hd : Denotes (exportOf T) k p) : t = p ∧ Here T p := by
  have g := export_alias h h1
  have e : t = p := Denotes.unique h.1.unique (h.of_alias g).2 ((export_denotes h hn).1 hd)
  subst e
  exact ⟨rfl, h.1.here _ _ g t (by simp [TData.ptrs])⟩

theorem export_not_alias {p : Ptr} (hp : Here T p) (t : Bytes) : ¬ Declares (exportOf T) p (.aliasDef t) := by
  intro h1
  have g := export_alias h h1
  obtain ⟨d, h2, h3⟩ := hp
  rw [g] at h2
  cases h2
  cases h3

theorem export_in1 {k : Bytes} {p : Ptr} (hd : Denotes (exportOf T) k p) (hp : ¬ Undeclared (exportOf T) p) : DenotesIn (exportOf T) 2 k p := by
  have hd' := hd
  cases hd with
  | declared h1 h2 => exact .declared h1 h2
  | typedef h1 h2 h3 =>
    obtain ⟨rfl, h5⟩ := export_typedef h hn h1 hd'
    refine .typedef h1 ?_ h3
    cases h2 with
    | declared h6 h7 => exact .declared h6 h7
    | typedef h6 => exact absurd h6 (export_not_alias h hn h5 _)
    | optional h6 => exact absurd h6 hp
    | array h6 => exact absurd h6 hp
    | extension h6 => exact absurd h6 hp
  | optional h1 => exact absurd h1 hp
  | array h1 => exact absurd h1 hp
  | extension h1 => exact absurd h1 hp

theorem export_in2 {k : Bytes} {p : Ptr} (hd : Denotes (exportOf T) k p) (hp : ¬ IsExtText (exportOf T) p) : DenotesIn (exportOf T) 4 k p := by
  have hd' := hd
  cases hd with
  | declared h1 h2 => exact .declared h1 h2
  | typedef h1 h2 h3 =>
    obtain ⟨rfl, h5⟩ := export_typedef h hn h1 hd'
    refine .typedef h1 ?_ h3
    cases h2 with
    | declared h6 h7 => exact .declared h6 h7
    | typedef h6 => exact absurd h6 (export_not_alias h hn h5 _)
    | optional h6 h7 h8 => exact .optional h6 (export_in1 h hn h7 h8) h8
    | array h6 h7 h8 => exact .array h6 (export_in1 h hn h7 h8) h8
    | extension h6 => exact absurd ⟨h6, _, rfl⟩ hp
  | optional h6 h7 h8 => exact .optional h6 (export_in1 h hn h7 h8).succ h8
  | array h6 h7 h8 => exact .array h6 (export_in1 h hn h7 h8).succ h8
  | extension h6 => exact absurd ⟨h6, _, rfl⟩ hp

theorem export_in {k : Bytes} {p : Ptr} (hd : Denotes (exportOf T) k p) : DenotesIn (exportOf T) 31 k p := by
  by_cases hp : IsExtText (exportOf T) p
  · cases hd with
    | declared h1 h2 => exact .declared h1 h2
    | typedef h1 h2 h3 => exact absurd hp h3
    | optional h1 => obtain ⟨-, b, hb⟩ := hp; exact absurd hb (opt_ne_ext _ _)
    | array h1 => obtain ⟨-, b, hb⟩ := hp; exact absurd hb (arr_ne_ext _ _)
    | extension h1 h2 h3 => exact .extension h1 ((export_in2 h hn h2 h3).mono (by omega)) h3
  · exact (export_in2 h hn hd hp).mono (by omega)

theorem fieldsOf_here {fs : List FieldDef} {l : List Field} (hf : FieldsOf D fs l) : ∀ f ∈ l, Denotes D f.type f.type := by
  intro f hm
  obtain ⟨g, -, -, hd⟩ := fieldsOf_mem hf f hm
  exact denotes_canon hd

/-- References in a loaded table are types of their own. -/
theorem Loaded.canon {k : Bytes} {d : TData} (hk : T.get k = some d) {p : Ptr} (hp : p ∈ d.ptrs) : Denotes D p p := by
  cases h.1.meaning _ _ hk (h.2 _ _ hk) with
  | builtin h2 => simp [TData.ptrs] at hp
  | extendedAsset h2 =>
    cases h2
    simp only [TData.ptrs, List.map_cons, List.map_nil, List.mem_cons, List.not_mem_nil, or_false] at hp
    rcases hp with rfl | rfl
    · exact .declared (.builtin .asset) (by simp)
    · exact .declared (.builtin .name) (by simp)
  | @struct _ s fs h2 h3 =>
    obtain ⟨f, hf, rfl⟩ := List.mem_map.1 (show p ∈ fs.map (·.type) from hp)
    clear h2 hk hp
    induction h3 with
    | root _ h4 => exact fieldsOf_here h hn h4 f hf
    | derived _ _ _ _ h4 ih =>
      rcases List.mem_append.1 hf with hf | hf
      · exact ih hf
      · exact fieldsOf_here h hn h4 f hf
    | fromBuiltin _ _ h5 h4 =>
      rcases List.mem_append.1 hf with hf | hf
      · cases h5
        simp only [List.mem_cons, List.not_mem_nil, or_false] at hf
        rcases hf with rfl | rfl
        · exact .declared (.builtin .asset) (by simp)
        · exact .declared (.builtin .name) (by simp)
      · exact fieldsOf_here h hn h4 f hf
  | @variant _ v fs h2 h3 =>
    obtain ⟨f, hf, rfl⟩ := List.mem_map.1 (show p ∈ fs.map (·.type) from hp)
    exact fieldsOf_here h hn h3 f hf
  | typedef h2 h3 => simp only [TData.ptrs, List.mem_singleton] at hp; subst hp; exact denotes_canon h3
  | optional h1 h2 => simp only [TData.ptrs, List.mem_singleton] at hp; subst hp; exact denotes_canon h2
  | array h1 h2 => simp only [TData.ptrs, List.mem_singleton] at hp; subst hp; exact denotes_canon h2
  | extension h1 h2 => simp only [TData.ptrs, List.mem_singleton] at hp; subst hp; exact denotes_canon h2

theorem export_resolvable : Resolvable (exportOf T) := by
  refine ⟨fun t ht => ?_, fun s hs => ?_, fun v hv t ht => ?_⟩
  · have g := (mem_export_types h).1 ht
    have hc := h.canon hn g (p := t.type) (by simp [TData.ptrs])
    refine ⟨t.type, export_in h hn ((export_denotes h hn).2 hc), ?_⟩
    rw [export_isExt h]
    have hh := h.1.here _ _ g t.type (by simp [TData.ptrs])
    obtain ⟨d, w1, w2, w3⟩ := h.wf _ _ g
    intro hx
    have := (h.1.ext hh).2 hx
    unfold Table.isExtAt at this
    rw [w1] at this
    cases d <;> simp_all [TData.isExt]
  · obtain ⟨-, h2, fs, h3, h4⟩ := (mem_export_structs h).1 hs
    refine .root h2 fun f hf => ?_
    rw [h4] at hf
    obtain ⟨g, hg, rfl⟩ := List.mem_map.1 hf
    exact ⟨g.type, export_in h hn ((export_denotes h hn).2 (h.canon hn h3 (List.mem_map.2 ⟨g, hg, rfl⟩)))⟩
  · obtain ⟨fs, h3, h4⟩ := (mem_export_variants h).1 hv
    rw [h4] at ht
    exact ⟨t, export_in h hn ((export_denotes h hn).2 (h.canon hn h3 ht))⟩

theorem fieldsOf_self : ∀ {fs : List Field}, (∀ f ∈ fs, Denotes D f.type f.type) → FieldsOf (exportOf T) (fs.map fun f => ⟨f.name, f.type⟩) fs
  | [], _ => .nil
  | f :: fs, hf => .cons ((export_denotes h hn).2 (hf f (by simp))) (fieldsOf_self fun g hg => hf g (List.mem_cons_of_mem _ hg))

theorem fieldsOf_types : ∀ {fs : List Field}, (∀ f ∈ fs, Denotes D f.type f.type) →
    FieldsOf (exportOf T) ((fs.map (·.type)).map fun t => ⟨t, t⟩) (fs.map fun f => ⟨f.type, f.type⟩)
  | [], _ => .nil
  | f :: fs, hf => .cons ((export_denotes h hn).2 (hf f (by simp))) (fieldsOf_types fun g hg => hf g (List.mem_cons_of_mem _ hg))

end

/-! ## C42 -/

/-- The type as it is after exporting and loading again: alternatives of variants are named by their types. -/
def Spec.renamed : TData → TData
  | .variant alts => .variant (alts.map fun f => ⟨f.type, f.type⟩)
  | d => d

/-- A loaded ABI can be exported, and the export loads. -/
theorem c42_export {D : AbiDef} {T : Table} (h : LoadedThen D T) : ∃ D', exportTypes T = .ok D' ∧ ∃ T', LoadTypes D' (.ok T') := by
  have hl := loaded_of h
  have hn : NamesOk D := by obtain ⟨T0, names, h1, -⟩ := h; exact c25_names h1
  exact ⟨_, exportTypes_eq hl, c25_loads (export_names hl hn) (export_resolvable hl hn)⟩

/-- Looking up a text on the exported and reloaded ABI gives the same answer as on the original, at any time. -/
theorem c42_same_types {D D' : AbiDef} {T0 T T' : Table} (h0 : LoadedThen D T0) (he : exportTypes T0 = .ok D') (h : LoadedThen D T) (h' : LoadedThen D' T')
    (name : Bytes) (p : Ptr) : (lookupType name T').1 = .ok p ↔ (lookupType name T).1 = .ok p := by
  have hl := loaded_of h0
  have hn : NamesOk D := by obtain ⟨T0, names, h1, -⟩ := h0; exact c25_names h1
  rw [exportTypes_eq hl] at he
  cases he
  rw [c26_lookup h, c26_lookup h', export_denotes hl hn]

theorem Loaded.same {D : AbiDef} {T T0 : Table} (h : Loaded D T) (h0 : Loaded D T0) {k : Bytes} {d : TData} (hk : T.get k = some d) (hw : d.isWrapper = false) :
    T0.get k = some d := by
  have hm := h.1.meaning _ _ hk (h.2 _ _ hk)
  have hd : ∃ d0, Declares D k d0 := by
    by_contra hc
    have := (h.wrapper hk).2 (fun d0 hd0 => hc ⟨d0, hd0⟩)
    rw [hw] at this
    cases this
  obtain ⟨d0, hd⟩ := hd
  obtain ⟨d', h1, -, h2⟩ := h0.declared hd
  rw [h1, Meaning.unique h.1.unique h2 hm]

/-- Each type is the same, except for the names of alternatives. -/
theorem c42_same_structure {D D' : AbiDef} {T0 T T' : Table} (h0 : LoadedThen D T0) (he : exportTypes T0 = .ok D') (h : LoadedThen D T)
    (h' : LoadedThen D' T') {k : Bytes} {d d' : TData} (hk : T.get k = some d) (hk' : T'.get k = some d') : d' = renamed d := by
  have hl := loaded_of h
  have hl0 := loaded_of h0
  have hl' := loaded_of h'
  have hn : NamesOk D := by obtain ⟨T0, names, h1, -⟩ := h; exact c25_names h1
  rw [exportTypes_eq hl0] at he
  cases he
  have hu := unique_of_namesOk (export_names hl0 hn)
  have hm := hl.1.meaning _ _ hk (hl.2 _ _ hk)
  have hm' := hl'.1.meaning _ _ hk' (hl'.2 _ _ hk')
  suffices hs : Meaning (exportOf T0) k (renamed d) from Meaning.unique hu hm' hs
  cases hm with
  | builtin h2 => cases h2 with | builtin => exact .builtin (.builtin _)
  | extendedAsset h2 => cases h2 with | extendedAsset => exact .extendedAsset .extendedAsset
  | @struct _ s fs h2 h3 =>
    have hx : k ≠ str "extended_asset" := fun e => by cases hl.1.unique _ _ _ h2 (e ▸ Declares.extendedAsset)
    exact .struct (.struct (s := ⟨k, [], fs.map fun f => ⟨f.name, f.type⟩⟩) ((mem_export_structs hl0).2 ⟨hx, rfl, fs, hl.same hl0 hk rfl, rfl⟩))
      (.root rfl (fieldsOf_self hl0 hn fun f hf => hl.canon hn hk (List.mem_map.2 ⟨f, hf, rfl⟩)))
  | @variant _ v alts h2 h3 =>
    exact .variant (.variant (v := ⟨k, alts.map (·.type)⟩) ((mem_export_variants hl0).2 ⟨alts, hl.same hl0 hk rfl, rfl⟩))
      (fieldsOf_types hl0 hn fun f hf => hl.canon hn hk (List.mem_map.2 ⟨f, hf, rfl⟩))
  | @typedef _ t p h2 h3 => exact .typedef (.typedef (t := ⟨k, p⟩) ((mem_export_types hl0).2 (hl.same hl0 hk rfl))) ((export_denotes hl0 hn).2 h3)
  | optional h1 h2 h3 => exact .optional ((export_undeclared hl0).2 h1) ((export_denotes hl0 hn).2 h2) (mt (export_undeclared hl0).1 h3)
  | array h1 h2 h3 => exact .array ((export_undeclared hl0).2 h1) ((export_denotes hl0 hn).2 h2) (mt (export_undeclared hl0).1 h3)
  | extension h1 h2 h3 => exact .extension ((export_undeclared hl0).2 h1) ((export_denotes hl0 hn).2 h2) (mt (export_isExt hl0).1 h3)

/-- If the alternatives of all variants are given as the types they denote, not by typedefs, the conversions are the same. -/
theorem c42_same_conversions {D D' : AbiDef} {T0 T T' : Table} (h0 : LoadedThen D T0) (he : exportTypes T0 = .ok D') (h : LoadedThen D T)
    (h' : LoadedThen D' T') (hv : ∀ v ∈ D.variants, ∀ t ∈ v.types, Denotes D t t) {ty : Ptr} (hty : T.Valid ty) (hty' : T'.Valid ty) (L : Leaves) :
    (∀ v r, JsonToBin T' L ty v r ↔ JsonToBin T L ty v r) ∧
      (∀ v r, JsonToBinReorderable T' L ty v r ↔ JsonToBinReorderable T L ty v r) ∧
        ∀ bin r, BinToJson T' L ty bin r ↔ BinToJson T L ty bin r := by
  have hl := loaded_of h
  have hl' := loaded_of h'
  have ha : Agree T T' fun p => T.Valid p ∧ T'.Valid p := by
    rintro p ⟨⟨d, h1, h2⟩, ⟨d', h3, h4⟩⟩
    have e := c42_same_structure h0 he h h' h1 h3
    have e2 : renamed d = d := by
      cases d with
      | variant alts =>
        obtain ⟨v, g1, g2⟩ := hl.of_variant h1
        cases g1 with
        | variant g3 =>
          have := fieldsOf_mem g2
          show TData.variant (alts.map fun f => ⟨f.type, f.type⟩) = _
          congr 1
          refine (List.map_congr_left fun f hf => ?_).trans (List.map_id _)
          obtain ⟨g, hg, hn, hd⟩ := this f hf
          obtain ⟨t, ht, rfl⟩ := List.mem_map.1 hg
          simp only at hn hd
          have := Denotes.unique hl.1.unique hd (hv _ g3 t ht)
          obtain ⟨a, b⟩ := f
          simp only at hn this
          simp [hn, this]
      | _ => rfl
    rw [e2] at e
    subst e
    refine ⟨d', h1, h3, h2, fun q hq => ⟨(agree_of_wf hl.wf (T' := T) (fun _ _ x => x) p ⟨d', h1, h2⟩).elim fun d'' x => ?_,
      (agree_of_wf hl'.wf (T' := T') (fun _ _ x => x) p ⟨d', h3, h4⟩).elim fun d'' x => ?_⟩⟩
    · obtain ⟨x1, -, -, x4⟩ := x
      rw [h1] at x1; cases x1
      exact x4 q hq
    · obtain ⟨x1, -, -, x4⟩ := x
      rw [h3] at x1; cases x1
      exact x4 q hq
  exact ⟨agree_jsonToBin ha hl.wf hl'.wf ⟨hty, hty'⟩ L, agree_reorderable ha hl.wf hl'.wf ⟨hty, hty'⟩ L,
    agree_binToJson ha hl.wf hl'.wf ⟨hty, hty'⟩ L⟩

/-- The same, for a type text looked up in both. -/
theorem c42_lookup_conversions {D D' : AbiDef} {T0 T T' : Table} (h0 : LoadedThen D T0) (he : exportTypes T0 = .ok D') (h : LoadedThen D T)
    (h' : LoadedThen D' T') (hv : ∀ v ∈ D.variants, ∀ t ∈ v.types, Denotes D t t) {name : Bytes} {ty : Ptr} (hty : (lookupType name T).1 = .ok ty) (L : Leaves) :
    (lookupType name T').1 = .ok ty ∧
    (∀ v r, JsonToBin (lookupType name T').2 L ty v r ↔ JsonToBin (lookupType name T).2 L ty v r) ∧
      (∀ v r, JsonToBinReorderable (lookupType name T').2 L ty v r ↔ JsonToBinReorderable (lookupType name T).2 L ty v r) ∧
        ∀ bin r, BinToJson (lookupType name T').2 L ty bin r ↔ BinToJson (lookupType name T).2 L ty bin r :=
  have h1 := (c42_same_types h0 he h h' name ty).2 hty
  ⟨h1, c42_same_conversions h0 he (h.lookup name) (h'.lookup name) hv (c26_found h hty) (c26_found h' h1) L⟩

end Abieos
