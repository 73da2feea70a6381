import Verif.Props.Reexport
/-!
# C82: exporting again changes nothing

A definition that was exported, loaded and exported again, is the same, whatever was looked up in between.
-/
namespace Abieos
open Spec

theorem sorted_ext {β : Type} (key : β → Bytes) : ∀ {l m : List β}, l.Pairwise (fun a b => key a < key b) → m.Pairwise (fun a b => key a < key b) →
    (∀ x, x ∈ l ↔ x ∈ m) → l = m
  | [], [], _, _, _ => rfl
  | [], b :: m, _, _, h => absurd ((h b).2 (by simp)) (by simp)
  | a :: l, [], _, _, h => absurd ((h a).1 (by simp)) (by simp)
  | a :: l, b :: m, hl, hm, h => by
    rw [List.pairwise_cons] at hl hm
    have e : a = b := by
      rcases List.mem_cons.1 ((h a).1 (by simp)) with g | g
      · exact g
      · rcases List.mem_cons.1 ((h b).2 (by simp)) with k | k
        · exact k.symm
        · exact absurd (bytes_lt_trans (hl.1 b k) (hm.1 a g)) (bytes_lt_irrefl _)
    subst e
    congr 1
    refine sorted_ext key hl.2 hm.2 fun x => ⟨fun g => ?_, fun g => ?_⟩
    · rcases List.mem_cons.1 ((h x).1 (by simp [g])) with rfl | k
      · exact absurd (hl.1 _ g) (bytes_lt_irrefl _)
      · exact k
    · rcases List.mem_cons.1 ((h x).2 (by simp [g])) with rfl | k
      · exact absurd (hm.1 _ g) (bytes_lt_irrefl _)
      · exact k

theorem filterMap_sorted {β : Type} {T : Table} (hs : T.Sorted) (f : Bytes × TData → Option β) (key : β → Bytes) (hf : ∀ e b, f e = some b → key b = e.1) :
    (T.filterMap f).Pairwise fun a b => key a < key b := by
  rw [List.pairwise_filterMap]
  refine List.Pairwise.imp (fun {a b} hab x hx y hy => ?_) hs
  rw [hf _ _ hx, hf _ _ hy]
  exact hab

theorem renamed_twice (d : TData) : renamed (renamed d) = renamed d := by
  cases d <;> simp [renamed]

/-- the types of the first table that are not optionals, arrays or extensions are in the second, alternatives named by their types -/
def Covers (T T' : Table) : Prop := ∀ k d, d.isWrapper = false → T.get k = some d → ∃ d', T'.get k = some d' ∧ renamed d' = renamed d

theorem Covers.alias {T T' : Table} (h : Covers T T') {k p : Bytes} (hk : T.get k = some (.alias p)) : T'.get k = some (.alias p) := by
  obtain ⟨d, h1, h2⟩ := h _ _ rfl hk
  cases d <;> cases h2
  exact h1

theorem Covers.struct {T T' : Table} (h : Covers T T') {k : Bytes} {fs : List Field} (hk : T.get k = some (.struct fs)) : T'.get k = some (.struct fs) := by
  obtain ⟨d, h1, h2⟩ := h _ _ rfl hk
  cases d <;> cases h2
  exact h1

theorem Covers.variant {T T' : Table} (h : Covers T T') {k : Bytes} {alts : List Field} (hk : T.get k = some (.variant alts)) :
    ∃ alts', T'.get k = some (.variant alts') ∧ alts'.map (·.type) = alts.map (·.type) := by
  obtain ⟨d, h1, h2⟩ := h _ _ rfl hk
  cases d <;> simp only [renamed, TData.variant.injEq, reduceCtorEq] at h2
  refine ⟨_, h1, ?_⟩
  have := congrArg (List.map (·.type)) h2
  simpa only [List.map_map, Function.comp_def] using this

/-- Tables with the same types, except for the names of alternatives, are exported alike. -/
theorem exportOf_same {T T' : Table} (h : Reload T) (h' : Reload T') (hg : Covers T T') (hg' : Covers T' T) : exportOf T' = exportOf T := by
  have hl := h.loaded
  have hl' := h'.loaded
  have e1 : (exportOf T').types = (exportOf T).types := by
    have hk : ∀ (e : Bytes × TData) (b : TypeDef), typeOfNode e = some b → b.newName = e.1 := by
      rintro ⟨k, d⟩ b hb; cases d <;> simp only [typeOfNode] at hb <;> cases hb; rfl
    refine sorted_ext TypeDef.newName (filterMap_sorted h'.sorted _ TypeDef.newName hk) (filterMap_sorted h.sorted _ TypeDef.newName hk) fun t => ?_
    rw [mem_export_types hl', mem_export_types hl]
    exact ⟨hg'.alias, hg.alias⟩
  have e2 : (exportOf T').structs = (exportOf T).structs := by
    have hk : ∀ (e : Bytes × TData) (b : StructDef), structOfNode e = some b → b.name = e.1 := by
      rintro ⟨k, d⟩ b hb
      cases d <;> simp only [structOfNode] at hb <;> try cases hb
      split at hb <;> cases hb
      rfl
    refine sorted_ext StructDef.name (filterMap_sorted h'.sorted _ StructDef.name hk) (filterMap_sorted h.sorted _ StructDef.name hk) fun t => ?_
    rw [mem_export_structs hl', mem_export_structs hl]
    exact ⟨fun ⟨g1, g2, fs, g3, g4⟩ => ⟨g1, g2, fs, hg'.struct g3, g4⟩, fun ⟨g1, g2, fs, g3, g4⟩ => ⟨g1, g2, fs, hg.struct g3, g4⟩⟩
  have e3 : (exportOf T').variants = (exportOf T).variants := by
    have hk : ∀ (e : Bytes × TData) (b : VariantDef), variantOfNode e = some b → b.name = e.1 := by
      rintro ⟨k, d⟩ b hb; cases d <;> simp only [variantOfNode] at hb <;> cases hb; rfl
    refine sorted_ext VariantDef.name (filterMap_sorted h'.sorted _ VariantDef.name hk) (filterMap_sorted h.sorted _ VariantDef.name hk) fun t => ?_
    rw [mem_export_variants hl', mem_export_variants hl]
    constructor
    · rintro ⟨alts, g1, g2⟩
      obtain ⟨l, g3, g4⟩ := hg'.variant g1
      exact ⟨l, g3, g2.trans g4.symm⟩
    · rintro ⟨alts, g1, g2⟩
      obtain ⟨l, g3, g4⟩ := hg.variant g1
      exact ⟨l, g3, g2.trans g4.symm⟩
  unfold exportOf at e1 e2 e3 ⊢
  simp only at e1 e2 e3
  rw [e1, e2, e3]

/-- **C82, the same types.** What is loaded from an exported definition has every type that was exported, with its meaning (alternatives named by their types), and no other types than
those and optionals, arrays and extensions of them. -/
theorem c82_same_types {T : Table} (h : Built T) {D : AbiDef} (he : exportTypes T = .ok D) {T' : Table} (h' : LoadedThen D T') (k : Bytes) :
    (∀ d, d.isWrapper = false → T.get k = some d → T'.get k = some (renamed d)) ∧
    (∀ d', d'.isWrapper = false → T'.get k = some d' → ∃ d, T.get k = some d ∧ d' = renamed d) := by
  have hr := reload_of_built h
  rw [(exports_of_reload hr).1] at he
  cases he
  have hl := hr.loaded
  have hl' := loaded_of h'
  have h1 : ∀ d, d.isWrapper = false → T.get k = some d → T'.get k = some (renamed d) := by
    intro d hw hk
    obtain ⟨d', g1, -⟩ := export_declares_some hl hk hw
    obtain ⟨d'', g2, -, g3⟩ := hl'.declared g1
    rw [g2, Meaning.unique hl'.1.unique g3 (export_meaning hr hk)]
  refine ⟨h1, fun d' hw hk => ?_⟩
  have hm := (c26_resolved h').2 _ _ hk
  have : ¬ Undeclared (exportOf T) k := fun hu => by
    rw [(hl'.wrapper hk).2 hu] at hw
    cases hw
  have : ∃ d, Declares (exportOf T) k d := Classical.byContradiction fun hn => this fun d hd => hn ⟨d, hd⟩
  obtain ⟨d, hd⟩ := this
  obtain ⟨e, g1, g2⟩ := export_declares_of hl hd
  refine ⟨e, g1, ?_⟩
  have := h1 e g2 g1
  rw [hk] at this
  exact Option.some.inj this

/-- **C82.** Exporting, loading, looking up any texts, and exporting again gives the same definition. -/
theorem c82_stable {T : Table} (h : Built T) {D : AbiDef} (he : exportTypes T = .ok D) {T' : Table} (hl : LoadTypes D (.ok T')) (names : List Bytes) :
    exportTypes (lookups names T') = .ok D := by
  have hr := reload_of_built h
  have h' : LoadedThen D (lookups names T') := ⟨_, _, hl, rfl⟩
  have hr' := reload_of_loaded h'
  have hs := c82_same_types h he h'
  rw [(exports_of_reload hr').1, exportOf_same hr hr' (fun k d hw hk => ⟨_, (hs k).1 d hw hk, renamed_twice d⟩) (fun k d hw hk => ?_), ← (exports_of_reload hr).1, he]
  obtain ⟨e, h1, rfl⟩ := (hs k).2 d hw hk
  exact ⟨e, h1, (renamed_twice e).symm⟩

/-- Looking up texts does not change what is exported. -/
theorem c82_lookups {D : AbiDef} {T : Table} (hl : LoadTypes D (.ok T)) (names : List Bytes) : exportTypes (lookups names T) = exportTypes T := by
  have h0 : LoadedThen D T := ⟨T, [], hl, rfl⟩
  have h' : LoadedThen D (lookups names T) := ⟨_, _, hl, rfl⟩
  have hr := reload_of_loaded h0
  have hr' := reload_of_loaded h'
  have cov : ∀ {A B : Table}, LoadedThen D A → LoadedThen D B → Covers A B := by
    intro A B ha hb k d hw hk
    have hla := loaded_of ha
    have hlb := loaded_of hb
    have : ¬ Undeclared D k := fun hu => by
      rw [(hla.wrapper hk).2 hu] at hw
      cases hw
    have : ∃ d, Declares D k d := Classical.byContradiction fun hn => this fun d hd => hn ⟨d, hd⟩
    obtain ⟨e, he⟩ := this
    obtain ⟨d', g1, -, g2⟩ := hlb.declared he
    exact ⟨d', g1, by rw [Meaning.unique hla.1.unique g2 ((c26_resolved ha).2 _ _ hk)]⟩
  rw [(exports_of_reload hr').1, (exports_of_reload hr).1, exportOf_same hr hr' (cov h0 h') (cov h' h0)]

/-! ## an example -/

/-- The ABI of ReexportExample (a definition and the C++ type `node`, in two steps a different definition) is exported as `exported`; this loads, and is exported as it is. -/
example : ∃ T', LoadTypes ReexportExample.exported (.ok T') ∧ exportTypes (lookups [str "node[]", str "nothing"] T') = .ok ReexportExample.exported := by
  obtain ⟨hb, he, -⟩ := ReexportExample.built
  obtain ⟨D, he', hu⟩ := c81_exports hb
  rw [he] at he'
  cases he'
  obtain ⟨-, T', hl⟩ := hu
  exact ⟨T', hl, c82_stable hb he hl _⟩

/-- The definition that the program started from is not what is exported from it: the export does not depend on the texts it was written with. -/
example : exportTypes ReexportExample.T0 ≠ .ok ReexportExample.base := by
  have : (match exportTypes ReexportExample.T0 with | .ok D => D == ReexportExample.base | .error _ => true) = false := by decide +kernel
  intro h
  rw [h] at this
  simp at this

end Abieos
