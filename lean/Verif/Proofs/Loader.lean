import Verif.Spec.AbiMeaning
import Verif.Proofs.Table
import Mathlib.Data.List.Basic
import Mathlib.Data.List.Perm.Subperm
import Verif.Proofs.Run
/-
Lemmas about the type map and the loader.
-/
namespace Abieos
open Spec

/-! ## The map -/

theorem bytes_lt_irrefl (a : Bytes) : ¬ a < a := List.lt_irrefl a
theorem bytes_lt_trans {a b c : Bytes} (h : a < b) (h' : b < c) : a < c := List.lt_trans h h'
theorem bytes_lt_of_not {a b : Bytes} (h : ¬ a < b) (hne : b ≠ a) : b < a := by
  apply Decidable.byContradiction
  intro h'
  exact hne (List.le_antisymm (List.not_lt.1 h) (List.not_lt.1 h'))

theorem Table.get_cons (e : Bytes × TData) (T : Table) (k : Bytes) : Table.get (e :: T) k = if k = e.1 then some e.2 else Table.get T k := by
  obtain ⟨a, d⟩ := e
  simp only [Table.get, List.lookup]
  by_cases h : k = a
  · simp [h]
  · rw [if_neg h]
    have : (k == a) = false := by simpa using h
    rw [this]

theorem Table.get_insertNew {T : Table} {k : Bytes} (d : TData) (h : T.get k = none) (k' : Bytes) :
    (T.insertNew k d).get k' = if k' = k then some d else T.get k' := by
  induction T with
  | nil => rw [insertNew, get_cons]
  | cons e T ih =>
    rw [get_cons] at h
    split at h
    · cases h
    · rename_i hne
      rw [insertNew]
      split
      · rw [get_cons]
      · rw [get_cons, ih h, get_cons]
        by_cases h1 : k' = e.1
        · rw [if_pos h1, if_pos h1, if_neg (fun h2 => hne (h2.symm.trans h1))]
        · rw [if_neg h1, if_neg h1]

theorem Table.get_emplace (T : Table) (k : Bytes) (d : TData) (k' : Bytes) :
    (T.emplace k d).get k' = match T.get k' with | some x => some x | none => if k' = k then some d else none := by
  unfold emplace
  split
  · rename_i x hx
    cases h : T.get k' with
    | some y => rfl
    | none =>
      simp only
      rw [if_neg (fun e => by rw [e, hx] at h; cases h)]
  · rename_i hx
    rw [get_insertNew d hx]
    by_cases h : k' = k
    · rw [if_pos h, h, hx]; simp
    · rw [if_neg h]
      cases T.get k' <;> simp [h]

theorem Table.get_set (T : Table) (k : Bytes) (d : TData) (k' : Bytes) :
    (T.set k d).get k' = if k' = k then (T.get k).map (fun _ => d) else T.get k' := by
  induction T with
  | nil => simp [set, get]
  | cons e T ih =>
    rw [set]
    split
    · rename_i h
      rw [get_cons]
      by_cases h1 : k' = k
      · rw [if_pos h1, if_pos h1, get_cons, if_pos h.symm]; rfl
      · rw [if_neg h1, if_neg h1, get_cons, if_neg (fun h2 => h1 (h2.trans h))]
    · rename_i h
      rw [get_cons, ih]
      by_cases h1 : k' = k
      · subst h1
        rw [if_pos rfl, if_pos rfl, if_neg (fun h2 => h h2.symm), get_cons, if_neg (fun h2 => h h2.symm)]
      · rw [if_neg h1, if_neg h1, get_cons]

theorem Table.get_mem' {T : Table} {k : Bytes} {d : TData} (h : T.get k = some d) : (k, d) ∈ T := by
  induction T with
  | nil => cases h
  | cons e T ih =>
    rw [get_cons] at h
    split at h
    · rename_i he
      cases h
      rw [he]
      exact List.mem_cons_self ..
    · exact List.mem_cons_of_mem _ (ih h)

/-- Keys in order, none twice. -/
def Table.Sorted (T : Table) : Prop := T.Pairwise fun a b => a.1 < b.1

theorem Table.get_none {T : Table} {k : Bytes} (h : T.get k = none) : ∀ e ∈ T, e.1 ≠ k := by
  induction T with
  | nil => simp
  | cons e T ih =>
    rw [get_cons] at h
    split at h
    · cases h
    · rename_i hne
      intro e' he
      rcases List.mem_cons.1 he with rfl | he
      · exact fun h => hne h.symm
      · exact ih h e' he

theorem Table.get_of_mem {T : Table} (hs : T.Sorted) {k : Bytes} {d : TData} (h : (k, d) ∈ T) : T.get k = some d := by
  induction T with
  | nil => cases h
  | cons e T ih =>
    rw [Sorted, List.pairwise_cons] at hs
    rw [get_cons]
    rcases List.mem_cons.1 h with rfl | h
    · rw [if_pos rfl]
    · have := hs.1 _ h
      rw [if_neg, ih hs.2 h]
      intro e'
      simp only at this
      rw [e'] at this
      exact absurd this (bytes_lt_irrefl _)

theorem Table.mem_insertNew {T : Table} {k : Bytes} {d : TData} {e : Bytes × TData} : e ∈ T.insertNew k d ↔ e = (k, d) ∨ e ∈ T := by
  induction T with
  | nil => simp [insertNew]
  | cons a T ih =>
    rw [insertNew]
    split
    · simp
    · simp only [List.mem_cons, ih]; tauto

theorem Table.sorted_insertNew {T : Table} (hs : T.Sorted) {k : Bytes} (d : TData) (h : T.get k = none) : (T.insertNew k d).Sorted := by
  induction T with
  | nil => exact List.pairwise_singleton ..
  | cons e T ih =>
    have hne := Table.get_none h e (by simp)
    rw [get_cons] at h
    split at h
    · cases h
    · rw [Sorted, List.pairwise_cons] at hs
      rw [insertNew]
      split
      · rename_i hlt
        rw [Sorted, List.pairwise_cons, List.pairwise_cons]
        refine ⟨?_, hs⟩
        intro a ha
        rcases List.mem_cons.1 ha with rfl | ha
        · exact hlt
        · exact bytes_lt_trans hlt (hs.1 a ha)
      · rename_i hlt
        rw [Sorted, List.pairwise_cons]
        refine ⟨?_, ih hs.2 h⟩
        intro a ha
        rcases mem_insertNew.1 ha with rfl | ha
        · exact bytes_lt_of_not hlt hne
        · exact hs.1 a ha

theorem Table.sorted_emplace {T : Table} (hs : T.Sorted) (k : Bytes) (d : TData) : (T.emplace k d).Sorted := by
  unfold emplace
  split
  · exact hs
  · rename_i h; exact sorted_insertNew hs d h

theorem Table.set_keys (T : Table) (k : Bytes) (d : TData) : (T.set k d).map (·.1) = T.map (·.1) := by
  induction T with
  | nil => rfl
  | cons e T ih =>
    rw [set]
    split
    · rename_i h; simp [h]
    · simp [ih]

theorem Table.sorted_iff {T : Table} : T.Sorted ↔ (T.map (·.1)).Pairwise (· < ·) := by
  rw [Sorted, List.pairwise_map]

theorem Table.sorted_set {T : Table} (hs : T.Sorted) (k : Bytes) (d : TData) : (T.set k d).Sorted := by
  rw [sorted_iff, set_keys, ← sorted_iff]; exact hs

/-! ## Texts -/

theorem endsWith_iff {s suf : Bytes} : endsWith s suf = true ↔ ∃ b, s = b ++ suf := by
  unfold endsWith
  rw [Bool.and_eq_true, decide_eq_true_iff, beq_iff_eq]
  constructor
  · rintro ⟨h1, h2⟩
    exact ⟨s.take (s.length - suf.length), by conv_lhs => rw [← List.take_append_drop (s.length - suf.length) s, h2]⟩
  · rintro ⟨b, rfl⟩
    simp

theorem chop_append (b : Bytes) (suf : Bytes) (n : Nat) (h : suf.length = n) : chop (b ++ suf) n = b := by
  unfold chop
  simp [← h]

theorem opt_ne_arr (b c : Bytes) : b ++ str "?" ≠ c ++ str "[]" := by
  intro h
  have := congrArg List.getLast? h
  have e1 : str "?" = [63] := by decide
  have e2 : str "[]" = [91, 93] := by decide
  simp [e1, e2] at this

theorem opt_ne_ext (b c : Bytes) : b ++ str "?" ≠ c ++ str "$" := by
  intro h
  have := congrArg List.getLast? h
  have e1 : str "?" = [63] := by decide
  have e2 : str "$" = [36] := by decide
  simp [e1, e2] at this

theorem arr_ne_ext (b c : Bytes) : b ++ str "[]" ≠ c ++ str "$" := by
  intro h
  have := congrArg List.getLast? h
  have e1 : str "[]" = [91, 93] := by decide
  have e2 : str "$" = [36] := by decide
  simp [e1, e2] at this

/-! ## Meaning is unique -/

theorem denotes_undeclared {D : AbiDef} {k : Bytes} {q : Ptr} (hn : Undeclared D k) (h : Denotes D k q) : q = k := by
  cases h with
  | declared h1 => rfl
  | typedef h1 => exact absurd h1 (hn _)
  | optional h1 => rfl
  | array h1 => rfl
  | extension h1 => rfl

theorem Spec.Denotes.unique {D : AbiDef} (hu : ∀ k d d', Declares D k d → Declares D k d' → d = d') {k : Bytes} {p q : Ptr}
    (h : Denotes D k p) (h' : Denotes D k q) : p = q := by
  induction h generalizing q with
  | @declared k d hd hna =>
    cases h' with
    | declared => rfl
    | typedef h1 => exact absurd (hu _ _ _ hd h1) (hna _)
    | optional h1 => exact absurd hd (h1 _)
    | array h1 => exact absurd hd (h1 _)
    | extension h1 => exact absurd hd (h1 _)
  | @typedef k t p hd _ _ ih =>
    cases h' with
    | declared h1 hna => exact absurd (hu _ _ _ h1 hd) (hna _)
    | typedef h1 h2 => cases hu _ _ _ hd h1; exact ih h2
    | optional h1 => exact absurd hd (h1 _)
    | array h1 => exact absurd hd (h1 _)
    | extension h1 => exact absurd hd (h1 _)
  | optional hn => exact (denotes_undeclared hn h').symm
  | array hn => exact (denotes_undeclared hn h').symm
  | extension hn => exact (denotes_undeclared hn h').symm

/-! ## What loading preserves -/

/-- Not a definition that is still to be resolved. -/
def TData.resolved : TData → Bool
  | .aliasDef _ | .structDef _ | .variantDef _ => false
  | _ => true

/-- An alias, resolved or not. -/
def TData.isAlias : TData → Bool
  | .aliasDef _ | .alias _ => true
  | _ => false

/-- The kind of a type: what does not change when a definition is resolved. -/
def TData.cls : TData → TData
  | .aliasDef _ | .alias _ => .alias []
  | .structDef _ | .struct _ => .struct []
  | .variantDef _ | .variant _ => .variant []
  | d => d

/-- The types a type refers to. -/
def TData.ptrs : TData → List Ptr
  | .alias p | .optional p | .extension p | .array p => [p]
  | .struct fs | .variant fs => fs.map (·.type)
  | _ => []

/-- `p` points to a node that is not an alias. -/
def Here (T : Table) (p : Ptr) : Prop := ∃ d, T.get p = some d ∧ d.isAlias = false

/-- `T'` comes from `T` by resolving definitions and adding resolved types. -/
structure Grows (T T' : Table) : Prop where
  keep : ∀ k d, T.get k = some d → ∃ d', T'.get k = some d' ∧ d'.cls = d.cls ∧ (d.resolved = true → d'.resolved = true)
  fresh : ∀ k d', T'.get k = some d' → T.get k = none → d'.resolved = true

theorem Grows.refl (T : Table) : Grows T T :=
  ⟨fun k d h => ⟨d, h, rfl, id⟩, fun k d h h' => by rw [h] at h'; cases h'⟩

theorem Grows.trans {T T' T'' : Table} (h : Grows T T') (h' : Grows T' T'') : Grows T T'' := by
  refine ⟨fun k d hk => ?_, fun k d hk hn => ?_⟩
  · obtain ⟨d1, h1, h2, h3⟩ := h.keep k d hk
    obtain ⟨d2, g1, g2, g3⟩ := h'.keep k d1 h1
    exact ⟨d2, g1, g2.trans h2, fun hr => g3 (h3 hr)⟩
  · cases h1 : T'.get k with
    | none => exact h'.fresh k d hk h1
    | some d1 =>
      obtain ⟨d2, g1, -, g3⟩ := h'.keep k d1 h1
      rw [hk] at g1
      cases g1
      exact g3 (h.fresh k d1 h1 hn)

theorem isAlias_cls {d d' : TData} (h : d'.cls = d.cls) : d'.isAlias = d.isAlias := by
  cases d <;> cases d' <;> simp_all [TData.cls, TData.isAlias]

theorem Here.mono {T T' : Table} (h : Grows T T') {p : Ptr} (hp : Here T p) : Here T' p := by
  obtain ⟨d, h1, h2⟩ := hp
  obtain ⟨d', g1, g2, -⟩ := h.keep p d h1
  exact ⟨d', g1, by rw [isAlias_cls g2, h2]⟩

/-- The invariant of loading. -/
structure Inv (D : AbiDef) (T : Table) : Prop where
  unique : ∀ k d d', Declares D k d → Declares D k d' → d = d'
  sorted : T.Sorted
  meaning : ∀ k d, T.get k = some d → d.resolved = true → Meaning D k d
  pending : ∀ k d, T.get k = some d → d.resolved = false → Declares D k d
  here : ∀ k d, T.get k = some d → ∀ p ∈ d.ptrs, Here T p
  decls : ∀ k d, Declares D k d → ∃ d', T.get k = some d'

theorem Inv.wrapper {D : AbiDef} {T : Table} (h : Inv D T) {p : Ptr} (hp : Here T p) : T.isWrapperAt p = true ↔ Undeclared D p := by
  obtain ⟨d, h1, h2⟩ := hp
  unfold Table.isWrapperAt
  rw [h1]
  cases d with
  | builtin b => cases h.meaning p _ h1 rfl with | builtin hd => simp; intro hn; exact hn _ hd
  | aliasDef t => cases h2
  | structDef s => have := h.pending p _ h1 rfl; simp; intro hn; exact hn _ this
  | variantDef v => have := h.pending p _ h1 rfl; simp; intro hn; exact hn _ this
  | «alias» q => cases h2
  | optional q => cases h.meaning p _ h1 rfl with | optional hd => simpa using hd
  | extension q => cases h.meaning p _ h1 rfl with | extension hd => simpa using hd
  | array q => cases h.meaning p _ h1 rfl with | array hd => simpa using hd
  | struct fs => cases h.meaning p _ h1 rfl with
    | extendedAsset hd => simp; intro hn; exact hn _ hd
    | struct hd => simp; intro hn; exact hn _ hd
  | variant fs => cases h.meaning p _ h1 rfl with | variant hd => simp; intro hn; exact hn _ hd

theorem Inv.ext {D : AbiDef} {T : Table} (h : Inv D T) {p : Ptr} (hp : Here T p) : T.isExtAt p = true ↔ IsExtText D p := by
  have hw := h.wrapper hp
  obtain ⟨d, h1, h2⟩ := hp
  unfold Table.isWrapperAt at hw
  unfold Table.isExtAt
  rw [h1] at hw ⊢
  have no : T.get p = some d → (Undeclared D p → False) → ¬ IsExtText D p := fun _ h h' => h h'.1
  cases d with
  | optional q =>
    cases h.meaning p _ h1 rfl with
    | optional hd => simp; rintro ⟨-, c, hc⟩; exact opt_ne_ext _ _ hc
  | extension q => cases h.meaning p _ h1 rfl with | extension hd => simp; exact ⟨hd, _, rfl⟩
  | array q =>
    cases h.meaning p _ h1 rfl with
    | array hd => simp; rintro ⟨-, c, hc⟩; exact arr_ne_ext _ _ hc
  | aliasDef t => cases h2
  | «alias» q => cases h2
  | _ => simp at hw ⊢; exact fun h' => hw h'.1

theorem grows_emplace (T : Table) (k : Bytes) {d : TData} (hr : d.resolved = true) : Grows T (T.emplace k d) := by
  refine ⟨fun k' d' h => ⟨d', by rw [Table.get_emplace, h], rfl, id⟩, fun k' d' h hn => ?_⟩
  rw [Table.get_emplace, hn] at h
  simp only at h
  split at h
  · cases h; exact hr
  · cases h

theorem grows_set {T : Table} {k : Bytes} {d d0 : TData} (h0 : T.get k = some d0) (hc : d.cls = d0.cls) (hr : d.resolved = true) :
    Grows T (T.set k d) := by
  refine ⟨fun k' d' h => ?_, fun k' d' h hn => ?_⟩
  · rw [Table.get_set]
    by_cases e : k' = k
    · rw [if_pos e, h0]
      rw [e, h0] at h
      cases h
      exact ⟨d, rfl, hc, fun _ => hr⟩
    · rw [if_neg e]; exact ⟨d', h, rfl, id⟩
  · rw [Table.get_set] at h
    split at h
    · rename_i e; rw [e, h0] at hn; cases hn
    · rw [hn] at h; cases h

theorem Inv.emplace {D : AbiDef} {T : Table} (h : Inv D T) {k : Bytes} {d : TData} (hr : d.resolved = true) (hm : Meaning D k d)
    (hp : ∀ p ∈ d.ptrs, Here T p) : Inv D (T.emplace k d) := by
  have hg := grows_emplace T k hr
  have key : ∀ k' d', (T.emplace k d).get k' = some d' → T.get k' = some d' ∨ (k' = k ∧ d' = d) := by
    intro k' d' h
    rw [Table.get_emplace] at h
    split at h
    · rename_i e; left; rw [e, h]
    · split at h
      · right; cases h; exact ⟨by assumption, rfl⟩
      · cases h
  refine ⟨h.unique, Table.sorted_emplace h.sorted k d, ?_, ?_, ?_, ?_⟩
  · intro k' d' hk hr'
    rcases key _ _ hk with hk | ⟨rfl, rfl⟩
    · exact h.meaning _ _ hk hr'
    · exact hm
  · intro k' d' hk hr'
    rcases key _ _ hk with hk | ⟨rfl, rfl⟩
    · exact h.pending _ _ hk hr'
    · rw [hr] at hr'; cases hr'
  · intro k' d' hk p hp'
    rcases key _ _ hk with hk | ⟨rfl, rfl⟩
    · exact (h.here _ _ hk p hp').mono hg
    · exact (hp p hp').mono hg
  · intro k' d' hd
    obtain ⟨d1, h1⟩ := h.decls k' d' hd
    obtain ⟨d2, h2, -⟩ := hg.keep _ _ h1
    exact ⟨d2, h2⟩

theorem Inv.set {D : AbiDef} {T : Table} (h : Inv D T) {k : Bytes} {d d0 : TData} (h0 : T.get k = some d0) (hc : d.cls = d0.cls)
    (hr : d.resolved = true) (hm : Meaning D k d) (hp : ∀ p ∈ d.ptrs, Here T p) : Inv D (T.set k d) := by
  have hg := grows_set h0 hc hr
  have key : ∀ k' d', (T.set k d).get k' = some d' → T.get k' = some d' ∨ (k' = k ∧ d' = d) := by
    intro k' d' h
    rw [Table.get_set] at h
    split at h
    · rename_i e; rw [h0] at h; right; cases h; exact ⟨e, rfl⟩
    · exact .inl h
  refine ⟨h.unique, Table.sorted_set h.sorted k d, ?_, ?_, ?_, ?_⟩
  · intro k' d' hk hr'
    rcases key _ _ hk with hk | ⟨rfl, rfl⟩
    · exact h.meaning _ _ hk hr'
    · exact hm
  · intro k' d' hk hr'
    rcases key _ _ hk with hk | ⟨rfl, rfl⟩
    · exact h.pending _ _ hk hr'
    · rw [hr] at hr'; cases hr'
  · intro k' d' hk p hp'
    rcases key _ _ hk with hk | ⟨rfl, rfl⟩
    · exact (h.here _ _ hk p hp').mono hg
    · exact (hp p hp').mono hg
  · intro k' d' hd
    obtain ⟨d1, h1⟩ := h.decls k' d' hd
    obtain ⟨d2, h2, -⟩ := hg.keep _ _ h1
    exact ⟨d2, h2⟩

theorem Inv.undeclared {D : AbiDef} {T : Table} (h : Inv D T) {k : Bytes} (hn : T.get k = none) : Undeclared D k := by
  intro d hd
  obtain ⟨d', h1⟩ := h.decls k d hd
  rw [hn] at h1; cases h1

/-- What a function that looks up types does to the map. -/
def Sound {α : Type} (D : AbiDef) (T : Table) (r : Res α × Table) (P : α → Table → Prop) : Prop :=
  Inv D r.2 ∧ Grows T r.2 ∧ ∀ a, r.1 = .ok a → P a r.2

theorem getType_sound {D : AbiDef} : ∀ (n : Nat) (name : Bytes) (T : Table), Inv D T →
    Sound D T (getType n name T) fun p T' => Denotes D name p ∧ Here T' p := by
  intro n
  induction n with
  | zero => intro name T h; exact ⟨h, .refl T, fun a h => by cases h⟩
  | succ n ih =>
    intro name T h
    have wrap : ∀ (suf : Bytes) (m : Nat) (con : Ptr → TData) (bad : Table → Ptr → Bool) (Bad : Ptr → Prop), T.get name = none → suf.length = m →
        endsWith name suf = true → (∀ p, (con p).resolved = true) → (∀ p, (con p).ptrs = [p]) → (∀ p, (con p).isAlias = false) →
        (∀ T' p, Inv D T' → Here T' p → (bad T' p = true ↔ Bad p)) →
        (∀ b p, name = b ++ suf → Denotes D b p → ¬ Bad p → Denotes D name name ∧ Meaning D name (con p)) →
        Sound D T (match getType n (chop name m) T with
          | (.error e, T') => (.error e, T')
          | (.ok p, T') => if bad T' p then (.error .invalid_nesting, T') else (.ok name, T'.emplace name (con p)))
          (fun p T' => Denotes D name p ∧ Here T' p) := by
      intro suf m con bad Bad hn hm he hcr hcp hca hbad hden
      obtain ⟨b, hb⟩ := endsWith_iff.1 he
      have hch : chop name m = b := by rw [hb]; exact chop_append b suf m hm
      rw [hch]
      obtain ⟨h1, h2, h3⟩ := ih b T h
      generalize getType n b T = r at h1 h2 h3
      obtain ⟨r, T'⟩ := r
      cases r with
      | error e => exact ⟨h1, h2, fun a h => by cases h⟩
      | ok p =>
        obtain ⟨g1, g2⟩ := h3 p rfl
        simp only
        split
        · exact ⟨h1, h2, fun a h => by cases h⟩
        · rename_i hnb
          have hnb' : ¬ Bad p := fun hB => hnb ((hbad T' p h1 g2).2 hB)
          obtain ⟨e1, e2⟩ := hden b p hb g1 hnb'
          have hg := grows_emplace T' name (hcr p)
          have hinv := h1.emplace (hcr p) e2 (by rw [hcp]; simpa using g2)
          refine ⟨hinv, h2.trans hg, ?_⟩
          intro a ha
          cases ha
          refine ⟨e1, ?_⟩
          cases hT : T'.get name with
          | none => exact ⟨con p, by rw [Table.get_emplace, hT]; simp, hca p⟩
          | some d =>
            refine ⟨d, by rw [Table.get_emplace, hT], ?_⟩
            -- a node of that name appeared meanwhile: it is no alias, for the name is not declared
            cases d with
            | aliasDef t => exact absurd (h1.pending _ _ hT rfl) (h.undeclared hn _)
            | «alias» q => cases h1.meaning _ _ hT rfl with | typedef hd => exact absurd hd (h.undeclared hn _)
            | _ => rfl
    unfold getType
    split
    · rename_i hn
      split
      · rename_i he
        exact wrap (str "?") 1 .optional Table.isWrapperAt (Undeclared D) hn rfl he (fun _ => rfl) (fun _ => rfl) (fun _ => rfl)
          (fun T' p h hp => h.wrapper hp) fun b p hb h1 h2 => by
            have hu := h.undeclared hn
            rw [hb] at hu ⊢
            exact ⟨.optional hu h1 h2, .optional hu h1 h2⟩
      · split
        · rename_i he
          exact wrap (str "[]") 2 .array Table.isWrapperAt (Undeclared D) hn rfl he (fun _ => rfl) (fun _ => rfl) (fun _ => rfl)
            (fun T' p h hp => h.wrapper hp) fun b p hb h1 h2 => by
              have hu := h.undeclared hn
              rw [hb] at hu ⊢
              exact ⟨.array hu h1 h2, .array hu h1 h2⟩
        · split
          · rename_i he
            exact wrap (str "$") 1 .extension Table.isExtAt (IsExtText D) hn rfl he (fun _ => rfl) (fun _ => rfl) (fun _ => rfl)
              (fun T' p h hp => h.ext hp) fun b p hb h1 h2 => by
                have hu := h.undeclared hn
                rw [hb] at hu ⊢
                exact ⟨.extension hu h1 h2, .extension hu h1 h2⟩
          · exact ⟨h, .refl T, fun a h => by cases h⟩
    · rename_i p hk
      refine ⟨h, .refl T, fun a ha => ?_⟩
      cases ha
      cases h.meaning _ _ hk rfl with
      | typedef h1 h2 => exact ⟨h2, h.here _ _ hk p (by simp [TData.ptrs])⟩
    · rename_i t hk
      obtain ⟨h1, h2, h3⟩ := ih t T h
      generalize getType n t T = r at h1 h2 h3
      obtain ⟨r, T'⟩ := r
      cases r with
      | error e => exact ⟨h1, h2, fun a h => by cases h⟩
      | ok p =>
        obtain ⟨g1, g2⟩ := h3 p rfl
        simp only
        split
        · exact ⟨h1, h2, fun a h => by cases h⟩
        · rename_i hne
          have hne' : ¬ IsExtText D p := fun hB => hne ((h1.ext g2).2 hB)
          have hd := h.pending _ _ hk rfl
          have hden : Denotes D name p := .typedef hd g1 hne'
          obtain ⟨d', e1, e2, -⟩ := h2.keep _ _ hk
          have hc : (TData.alias p).cls = d'.cls := e2.symm
          have hg := grows_set e1 hc rfl
          refine ⟨h1.set e1 hc rfl (.typedef hd hden) (by simpa [TData.ptrs] using g2), h2.trans hg, ?_⟩
          intro a ha
          cases ha
          exact ⟨hden, g2.mono hg⟩
    · rename_i d hna hnd hk
      refine ⟨h, .refl T, fun a ha => ?_⟩
      cases ha
      have hal : d.isAlias = false := by
        cases d with
        | aliasDef t => exact absurd rfl (hnd t)
        | «alias» t => exact absurd rfl (hna t)
        | _ => rfl
      refine ⟨?_, d, hk, hal⟩
      cases d with
      | aliasDef t => cases hal
      | «alias» t => cases hal
      | builtin b => cases h.meaning _ _ hk rfl with | builtin hd => exact .declared hd (by simp)
      | structDef s => exact .declared (h.pending _ _ hk rfl) (by simp)
      | variantDef v => exact .declared (h.pending _ _ hk rfl) (by simp)
      | optional q => cases h.meaning _ _ hk rfl with | optional h1 h2 h3 => exact .optional h1 h2 h3
      | extension q => cases h.meaning _ _ hk rfl with | extension h1 h2 h3 => exact .extension h1 h2 h3
      | array q => cases h.meaning _ _ hk rfl with | array h1 h2 h3 => exact .array h1 h2 h3
      | struct fs => cases h.meaning _ _ hk rfl with
        | extendedAsset hd => exact .declared hd (by simp)
        | struct hd => exact .declared hd (by simp)
      | variant fs => cases h.meaning _ _ hk rfl with | variant hd => exact .declared hd (by simp)

theorem getFields_sound {D : AbiDef} (n : Nat) : ∀ (fs : List FieldDef) (T : Table), Inv D T →
    Sound D T (getFields n fs T) fun l T' => FieldsOf D fs l ∧ ∀ f ∈ l, Here T' f.type := by
  intro fs
  induction fs with
  | nil => intro T h; exact ⟨h, .refl T, fun a ha => by cases ha; exact ⟨.nil, by simp⟩⟩
  | cons f fs ih =>
    intro T h
    unfold getFields
    obtain ⟨h1, h2, h3⟩ := getType_sound n f.type T h
    generalize getType n f.type T = r at h1 h2 h3
    obtain ⟨r, T'⟩ := r
    cases r with
    | error e => exact ⟨h1, h2, fun a h => by cases h⟩
    | ok p =>
      obtain ⟨g1, g2⟩ := h3 p rfl
      simp only
      obtain ⟨e1, e2, e3⟩ := ih T' h1
      generalize getFields n fs T' = r at e1 e2 e3
      obtain ⟨r, T''⟩ := r
      cases r with
      | error e => exact ⟨e1, h2.trans e2, fun a h => by cases h⟩
      | ok l =>
        obtain ⟨l1, l2⟩ := e3 l rfl
        refine ⟨e1, h2.trans e2, fun a ha => ?_⟩
        cases ha
        refine ⟨.cons g1 l1, ?_⟩
        intro f' hf
        rcases List.mem_cons.1 hf with rfl | hf
        · exact g2.mono e2
        · exact l2 f' hf

theorem resolveStruct_sound {D : AbiDef} : ∀ (n : Nat) (d : StructDef) (T : Table), Inv D T →
    Sound D T (resolveStruct n d T) fun l T' => StructFields D d l ∧ ∀ f ∈ l, Here T' f.type := by
  intro n
  induction n with
  | zero => intro d T h; exact ⟨h, .refl T, fun a h => by cases h⟩
  | succ n ih =>
    intro d T h
    -- the struct's own fields, after the base
    have own : ∀ (T0 : Table) (base : List Field), Inv D T0 → Grows T T0 → (∀ f ∈ base, Here T0 f.type) →
        (∀ l, FieldsOf D d.fields l → StructFields D d (base ++ l)) →
        Sound D T (match getFields n d.fields T0 with
          | (.error e, T') => (.error e, T')
          | (.ok l, T') => (.ok (base ++ l), T')) fun l T' => StructFields D d l ∧ ∀ f ∈ l, Here T' f.type := by
      intro T0 base h0 hg hb hs
      obtain ⟨e1, e2, e3⟩ := getFields_sound n d.fields T0 h0
      generalize getFields n d.fields T0 = r at e1 e2 e3
      obtain ⟨r, T'⟩ := r
      cases r with
      | error e => exact ⟨e1, hg.trans e2, fun a h => by cases h⟩
      | ok l =>
        obtain ⟨l1, l2⟩ := e3 l rfl
        refine ⟨e1, hg.trans e2, fun a ha => ?_⟩
        cases ha
        refine ⟨hs l l1, fun f hf => ?_⟩
        rcases List.mem_append.1 hf with hf | hf
        · exact (hb f hf).mono e2
        · exact l2 f hf
    unfold resolveStruct
    simp only
    split
    · rename_i hb
      exact own T [] h (.refl T) (by simp) fun l hl => .root hb hl
    · rename_i hb
      obtain ⟨h1, h2, h3⟩ := getType_sound n d.base T h
      generalize getType n d.base T = r at h1 h2 h3
      obtain ⟨r, T1⟩ := r
      cases r with
      | error e => exact ⟨h1, h2, fun a h => by cases h⟩
      | ok p =>
        obtain ⟨g1, g2⟩ := h3 p rfl
        simp only at h1 h2 g2 ⊢
        split
        · rename_i bd hk
          obtain ⟨e1, e2, e3⟩ := ih bd T1 h1
          generalize resolveStruct n bd T1 = r at e1 e2 e3
          obtain ⟨r, T2⟩ := r
          cases r with
          | error e => exact ⟨e1, h2.trans e2, fun a h => by cases h⟩
          | ok fs =>
            obtain ⟨l1, l2⟩ := e3 fs rfl
            simp only at e1 e2 l2 ⊢
            have hd := h1.pending _ _ hk rfl
            obtain ⟨d', c1, c2, -⟩ := e2.keep _ _ hk
            have hc : (TData.struct fs).cls = d'.cls := c2.symm
            have hg := grows_set c1 hc rfl
            exact own (T2.set p (.struct fs)) fs (e1.set c1 hc rfl (.struct hd l1) (by simpa [TData.ptrs] using l2)) ((h2.trans e2).trans hg)
              (fun f hf => (l2 f hf).mono hg) fun l hl => .derived hb g1 hd l1 hl
        · rename_i fs hk
          refine own T1 fs h1 h2 (fun f hf => h1.here _ _ hk f.type (by simp [TData.ptrs]; exact ⟨f, hf, rfl⟩)) fun l hl => ?_
          cases h1.meaning _ _ hk rfl with
          | extendedAsset hd => exact .fromBuiltin hb g1 hd hl
          | struct hd hs => exact .derived hb g1 hd hs hl
        · exact ⟨h1, h2, fun a h => by cases h⟩

theorem fill_sound {D : AbiDef} {k : Bytes} {d : TData} {T : Table} (h : Inv D T) (hk : T.get k = some d) :
    Sound D T (fill k d T) fun _ T' => ∃ d', T'.get k = some d' ∧ d'.resolved = true := by
  have get_set : ∀ (T' : Table) (d0 d' : TData), T'.get k = some d0 → d'.resolved = true → ∃ d1, (T'.set k d').get k = some d1 ∧ d1.resolved = true := by
    intro T' d0 d' h0 hr
    exact ⟨d', by rw [Table.get_set, if_pos rfl, h0]; rfl, hr⟩
  unfold fill
  split
  · rename_i t
    obtain ⟨h1, h2, h3⟩ := getType_sound 31 t T h
    generalize getType 31 t T = r at h1 h2 h3
    obtain ⟨r, T'⟩ := r
    cases r with
    | error e => exact ⟨h1, h2, fun a h => by cases h⟩
    | ok p =>
      obtain ⟨g1, g2⟩ := h3 p rfl
      simp only
      split
      · exact ⟨h1, h2, fun a h => by cases h⟩
      · rename_i hne
        have hne' : ¬ IsExtText D p := fun hB => hne ((h1.ext g2).2 hB)
        have hd := h.pending _ _ hk rfl
        obtain ⟨d', e1, e2, -⟩ := h2.keep _ _ hk
        have hc : (TData.alias p).cls = d'.cls := e2.symm
        exact ⟨h1.set e1 hc rfl (.typedef hd (.typedef hd g1 hne')) (by simpa [TData.ptrs] using g2), h2.trans (grows_set e1 hc rfl),
          fun _ _ => get_set T' d' _ e1 rfl⟩
  · rename_i sd
    obtain ⟨h1, h2, h3⟩ := resolveStruct_sound 32 sd T h
    generalize resolveStruct 32 sd T = r at h1 h2 h3
    obtain ⟨r, T'⟩ := r
    cases r with
    | error e => exact ⟨h1, h2, fun a h => by cases h⟩
    | ok fs =>
      obtain ⟨g1, g2⟩ := h3 fs rfl
      have hd := h.pending _ _ hk rfl
      obtain ⟨d', e1, e2, -⟩ := h2.keep _ _ hk
      have hc : (TData.struct fs).cls = d'.cls := e2.symm
      exact ⟨h1.set e1 hc rfl (.struct hd g1) (by simpa [TData.ptrs] using g2), h2.trans (grows_set e1 hc rfl), fun _ _ => get_set T' d' _ e1 rfl⟩
  · rename_i vd
    obtain ⟨h1, h2, h3⟩ := getFields_sound 31 (vd.types.map fun t => ⟨t, t⟩) T h
    have er : resolveVariant 32 vd T = getFields 31 (vd.types.map fun t => ⟨t, t⟩) T := rfl
    rw [er]
    generalize getFields 31 (vd.types.map fun t => ⟨t, t⟩) T = r at h1 h2 h3
    obtain ⟨r, T'⟩ := r
    cases r with
    | error e => exact ⟨h1, h2, fun a h => by cases h⟩
    | ok fs =>
      obtain ⟨g1, g2⟩ := h3 fs rfl
      have hd := h.pending _ _ hk rfl
      obtain ⟨d', e1, e2, -⟩ := h2.keep _ _ hk
      have hc : (TData.variant fs).cls = d'.cls := e2.symm
      exact ⟨h1.set e1 hc rfl (.variant hd g1) (by simpa [TData.ptrs] using g2), h2.trans (grows_set e1 hc rfl), fun _ _ => get_set T' d' _ e1 rfl⟩
  · rename_i n1 n2 n3
    refine ⟨h, .refl T, fun _ _ => ⟨d, hk, ?_⟩⟩
    cases d with
    | aliasDef t => exact absurd rfl (n1 t)
    | structDef t => exact absurd rfl (n2 t)
    | variantDef t => exact absurd rfl (n3 t)
    | _ => rfl

/-! ## The loop -/

/-- After the node visited last. -/
def After (last : Option Bytes) (k : Bytes) : Prop := ∀ c, last = some c → c < k

instance (last : Option Bytes) (k : Bytes) : Decidable (After last k) := by
  unfold After
  cases last with
  | none => exact isTrue (by simp)
  | some c => exact decidable_of_iff (c < k) (by simp)

theorem next_eq (T : Table) (last : Option Bytes) : T.next last = T.find? fun e => decide (After last e.1) := by
  unfold Table.next
  congr 1
  funext e
  cases last with
  | none => simp [After]
  | some c => simp [After]

theorem next_none {T : Table} {last : Option Bytes} (h : T.next last = none) {k : Bytes} {d : TData} (hk : T.get k = some d) : ¬ After last k := by
  rw [next_eq, List.find?_eq_none] at h
  simpa using h _ (Table.get_mem' hk)

theorem next_some {T : Table} (hs : T.Sorted) {last : Option Bytes} {k : Bytes} {d : TData} (h : T.next last = some (k, d)) :
    T.get k = some d ∧ After last k ∧ ∀ k' d', T.get k' = some d' → After last k' → k' = k ∨ k < k' := by
  rw [next_eq, List.find?_eq_some_iff_append] at h
  obtain ⟨h1, as, bs, rfl, h3⟩ := h
  refine ⟨Table.get_of_mem hs (by simp), by simpa using h1, ?_⟩
  intro k' d' hk' ha
  have hm := Table.get_mem' hk'
  rw [Table.Sorted, List.pairwise_append, List.pairwise_cons] at hs
  rcases List.mem_append.1 hm with hm | hm
  · have := h3 _ hm
    simp at this
    exact absurd ha this
  · rcases List.mem_cons.1 hm with hm | hm
    · left; cases hm; rfl
    · right; exact hs.2.1.1 _ hm

/-- The invariant of the loop: what was visited is resolved. -/
structure LoopInv (D : AbiDef) (s : FillState) : Prop where
  inv : Inv D s.table
  done : ∀ k d, s.table.get k = some d → ¬ After s.last k → d.resolved = true

theorem loopInv_step {D : AbiDef} {s s' : FillState} (h : LoopInv D s) (hs : stepFill s = .ok (some s')) : LoopInv D s' ∧ Grows s.table s'.table := by
  unfold stepFill at hs
  split at hs
  · cases hs
  · rename_i k d hn
    obtain ⟨h1, h2, h3⟩ := next_some h.inv.sorted hn
    obtain ⟨g1, g2, g3⟩ := fill_sound h.inv h1
    generalize hf : fill k d s.table = r at hs g1 g2 g3
    obtain ⟨r, T'⟩ := r
    cases r with
    | error e => cases hs
    | ok u =>
      cases hs
      refine ⟨⟨g1, ?_⟩, g2⟩
      intro k' d' hk' ha
      simp only at hk' ha g1 g2 g3
      obtain ⟨d1, e1, e2⟩ := g3 u trivial
      cases ho : s.table.get k' with
      | none => exact g2.fresh k' d' hk' ho
      | some d0 =>
        by_cases hb : After s.last k'
        · rcases h3 k' d0 ho hb with rfl | hlt
          · rw [e1] at hk'; cases hk'; exact e2
          · exact absurd (fun c hc => by cases hc; exact hlt) ha
        · obtain ⟨d2, f1, -, f3⟩ := g2.keep k' d0 ho
          rw [hk'] at f1
          cases f1
          exact f3 (h.done k' d0 ho hb)

/-- keys still to be resolved -/
def todo (T : Table) : List Bytes := (T.filter fun e => !e.2.resolved).map (·.1)

/-- keys still to be visited -/
def ahead (s : FillState) : List Bytes := (s.table.filter fun e => decide (After s.last e.1)).map (·.1)

theorem mem_todo {T : Table} (hs : T.Sorted) {k : Bytes} : k ∈ todo T ↔ ∃ d, T.get k = some d ∧ d.resolved = false := by
  unfold todo
  simp only [List.mem_map, List.mem_filter]
  constructor
  · rintro ⟨⟨k, d⟩, ⟨h1, h2⟩, rfl⟩
    exact ⟨d, Table.get_of_mem hs h1, by simpa using h2⟩
  · rintro ⟨d, h1, h2⟩
    exact ⟨(k, d), ⟨Table.get_mem' h1, by simp [h2]⟩, rfl⟩

theorem nodup_keys {T : Table} (hs : T.Sorted) (p : Bytes × TData → Bool) : ((T.filter p).map (·.1)).Nodup := by
  rw [Table.sorted_iff] at hs
  have hn : (T.map (·.1)).Nodup := hs.imp fun {a b} h (e : a = b) => bytes_lt_irrefl b (by rw [e] at h; exact h)
  exact hn.sublist (List.filter_sublist.map _)

theorem todo_lt {T T' : Table} (hs : T.Sorted) (hs' : T'.Sorted) (hg : Grows T T') {k : Bytes} {d d' : TData} (h : T.get k = some d) (hr : d.resolved = false)
    (h' : T'.get k = some d') (hr' : d'.resolved = true) : (todo T').length < (todo T).length := by
  have hsub : k :: todo T' ⊆ todo T := by
    intro x hx
    rcases List.mem_cons.1 hx with rfl | hx
    · exact (mem_todo hs).2 ⟨d, h, hr⟩
    · obtain ⟨e, e1, e2⟩ := (mem_todo hs').1 hx
      rw [mem_todo hs]
      cases ho : T.get x with
      | none => rw [hg.fresh x e e1 ho] at e2; cases e2
      | some e0 =>
        refine ⟨e0, rfl, ?_⟩
        obtain ⟨e3, f1, -, f3⟩ := hg.keep x e0 ho
        rw [e1] at f1
        cases f1
        cases hq : e0.resolved with
        | false => rfl
        | true => rw [f3 hq] at e2; cases e2
  have hnd : (k :: todo T').Nodup := by
    rw [List.nodup_cons]
    refine ⟨fun hm => ?_, nodup_keys hs' _⟩
    obtain ⟨e, e1, e2⟩ := (mem_todo hs').1 hm
    rw [h'] at e1
    cases e1
    rw [hr'] at e2; cases e2
  have := (List.subperm_of_subset hnd hsub).length_le
  rw [List.length_cons] at this
  omega

/-- The loop ends, in one way. -/
theorem fill_ends {D : AbiDef} (s : FillState) (h : LoopInv D s) : ∃ r, Ends stepFill s r := by
  generalize hu : (todo s.table).length = u
  induction u using Nat.strongRecOn generalizing s with
  | _ u ihu =>
    generalize ha : (ahead s).length = a
    induction a using Nat.strongRecOn generalizing s with
    | _ a iha =>
      cases hstep : stepFill s with
      | error e => exact ⟨.error e, 1, by simp [iter, hstep]⟩
      | ok o =>
        cases o with
        | none => exact ⟨.ok s, 1, by simp [iter, hstep]⟩
        | some s' =>
          obtain ⟨hl, hg⟩ := loopInv_step h hstep
          suffices ∃ r, Ends stepFill s' r by
            obtain ⟨r, hr⟩ := this
            exact ⟨r, hr.head hstep⟩
          have hstep0 := hstep
          unfold stepFill at hstep
          split at hstep
          · cases hstep
          · rename_i k d hn
            obtain ⟨h1, h2, h3⟩ := next_some h.inv.sorted hn
            obtain ⟨-, -, g3⟩ := fill_sound h.inv h1
            cases hr : d.resolved with
            | false =>
              generalize hf : fill k d s.table = r at hstep g3
              obtain ⟨r, T'⟩ := r
              cases r with
              | error e => cases hstep
              | ok u' =>
                cases hstep
                obtain ⟨d1, e1, e2⟩ := g3 u' rfl
                exact ihu _ (hu ▸ todo_lt h.inv.sorted hl.inv.sorted hg h1 hr e1 e2) _ hl rfl
            | true =>
              have hf : fill k d s.table = (.ok (), s.table) := by
                unfold fill
                cases d <;> first | rfl | cases hr
              rw [hf] at hstep
              cases hstep
              refine iha _ ?_ ⟨s.table, some k⟩ hl hu rfl
              rw [← ha]
              unfold ahead
              have hsub : k :: ((s.table.filter fun e => decide (After (some k) e.1)).map (·.1)) ⊆ (s.table.filter fun e => decide (After s.last e.1)).map (·.1) := by
                intro x hx
                rcases List.mem_cons.1 hx with rfl | hx
                · exact List.mem_map.2 ⟨(x, d), List.mem_filter.2 ⟨Table.get_mem' h1, by simpa using h2⟩, rfl⟩
                · obtain ⟨e, he, rfl⟩ := List.mem_map.1 hx
                  rw [List.mem_filter] at he
                  refine List.mem_map.2 ⟨e, List.mem_filter.2 ⟨he.1, ?_⟩, rfl⟩
                  have hlt : k < e.1 := by simpa [After] using he.2
                  simp only [decide_eq_true_eq]
                  exact fun c hc => bytes_lt_trans (h2 c hc) hlt
              have hnd : (k :: ((s.table.filter fun e => decide (After (some k) e.1)).map (·.1))).Nodup := by
                rw [List.nodup_cons]
                refine ⟨fun hm => ?_, nodup_keys h.inv.sorted _⟩
                obtain ⟨e, he, rfl⟩ := List.mem_map.1 hm
                rw [List.mem_filter] at he
                have hlt : e.1 < e.1 := by simpa [After] using he.2
                exact bytes_lt_irrefl _ hlt
              have := (List.subperm_of_subset hnd hsub).length_le
              exact this

theorem loop_result {D : AbiDef} {s s' : FillState} (h : LoopInv D s) (he : Ends stepFill s (.ok s')) :
    Inv D s'.table ∧ Grows s.table s'.table ∧ ∀ k d, s'.table.get k = some d → d.resolved = true := by
  obtain ⟨n, hn⟩ := he
  induction n generalizing s with
  | zero => cases hn
  | succ n ih =>
    unfold iter at hn
    split at hn
    · cases hn
    · rename_i hs
      cases hn
      refine ⟨h.inv, .refl _, fun k d hk => h.done k d hk ?_⟩
      unfold stepFill at hs
      split at hs
      · rename_i hnx; exact next_none hnx hk
      · split at hs <;> cases hs
    · rename_i s1 hs
      obtain ⟨h1, h2⟩ := loopInv_step h hs
      obtain ⟨g1, g2, g3⟩ := ih h1 hn
      exact ⟨g1, h2.trans g2, g3⟩

/-! ## The table before the loop -/

theorem sorted_builtinTable : builtinTable.Sorted := by
  have h : ∀ (l : List Builtin) (T : Table), T.Sorted → (l.foldl (fun (T : Table) b => Table.emplace T b.typeName (.builtin b)) T).Sorted := by
    intro l
    induction l with
    | nil => intro T h; exact h
    | cons b l ih => intro T h; exact ih _ (Table.sorted_emplace h _ _)
  exact Table.sorted_emplace (h _ _ List.Pairwise.nil) _ _

theorem builtin_mem_all (b : Builtin) : b ∈ Builtin.all := by cases b <;> decide

/-- What a builtin entry is, as a check. -/
def builtinEntryB (e : Bytes × TData) : Bool :=
  match e.2 with
  | .builtin b => e.1 == b.typeName
  | d => e.1 == str "extended_asset" && d == .struct [⟨str "quantity", str "asset"⟩, ⟨str "contract", str "name"⟩]

theorem builtinTable_entries : builtinTable.all builtinEntryB = true := by decide +kernel

theorem builtinTable_get_all : (Builtin.all.all fun b => builtinTable.get b.typeName == some (.builtin b)) = true := by decide +kernel

theorem builtinTable_get_xasset : builtinTable.get (str "extended_asset") = some (.struct [⟨str "quantity", str "asset"⟩, ⟨str "contract", str "name"⟩]) := by decide +kernel

theorem builtinTable_get (D : AbiDef) {k : Bytes} {d : TData} (h : builtinTable.get k = some d) : Declares D k d := by
  have := List.all_eq_true.1 builtinTable_entries _ (Table.get_mem' h)
  unfold builtinEntryB at this
  cases d with
  | builtin b =>
    simp only [beq_iff_eq] at this
    rw [this]; exact .builtin b
  | _ =>
    simp only [Bool.and_eq_true, beq_iff_eq] at this
    rw [this.1, this.2]; exact .extendedAsset

theorem addDefs_spec : ∀ (l : List (Bytes × TData)) (T T' : Table), T.Sorted → addDefs l T = .ok T' →
    T'.Sorted ∧ (l.map (·.1)).Nodup ∧ (∀ e ∈ l, e.1 ≠ [] ∧ T.get e.1 = none) ∧ (∀ k d, T'.get k = some d ↔ T.get k = some d ∨ (k, d) ∈ l) := by
  intro l
  induction l with
  | nil =>
    intro T T' hs h
    cases h
    exact ⟨hs, .nil, by simp, by simp⟩
  | cons e l ih =>
    obtain ⟨k, d⟩ := e
    intro T T' hs h
    unfold addDefs at h
    split at h
    · cases h
    · rename_i hne
      split at h
      · cases h
      · rename_i hn
        have hn : T.get k = none := by simpa using hn
        obtain ⟨h1, h2, h3, h4⟩ := ih _ _ (Table.sorted_emplace hs k d) h
        have hget : ∀ k', (T.emplace k d).get k' = if k' = k then some d else T.get k' := by
          intro k'
          rw [Table.get_emplace]
          by_cases e : k' = k
          · rw [if_pos e, e, hn]; simp
          · rw [if_neg e]; cases T.get k' <;> simp [e]
        have h3' : ∀ e ∈ l, e.1 ≠ k ∧ T.get e.1 = none := by
          intro e he
          have := (h3 e he).2
          rw [hget] at this
          split at this
          · cases this
          · exact ⟨by assumption, this⟩
        refine ⟨h1, ?_, ?_, ?_⟩
        · rw [List.map_cons, List.nodup_cons]
          refine ⟨fun hm => ?_, h2⟩
          obtain ⟨e, he, ek⟩ := List.mem_map.1 hm
          exact (h3' e he).1 ek
        · intro e he
          rcases List.mem_cons.1 he with rfl | he
          · exact ⟨hne, hn⟩
          · exact ⟨(h3 e he).1, (h3' e he).2⟩
        · intro k' d'
          rw [h4, hget]
          by_cases e : k' = k
          · subst e
            rw [if_pos rfl]
            simp only [Option.some.injEq, hn, List.mem_cons, Prod.mk.injEq, true_and, reduceCtorEq, false_or]
            exact ⟨fun h => h.imp Eq.symm id, fun h => h.imp Eq.symm id⟩
          · rw [if_neg e]
            simp [e]

theorem mem_decls {D : AbiDef} {k : Bytes} {d : TData} (h : (k, d) ∈ D.decls) : Declares D k d ∧ d.resolved = false := by
  unfold AbiDef.decls at h
  simp only [List.mem_append, List.mem_map, Prod.mk.injEq] at h
  rcases h with (⟨t, h, rfl, rfl⟩ | ⟨t, h, rfl, rfl⟩) | ⟨t, h, rfl, rfl⟩
  · exact ⟨.typedef h, rfl⟩
  · exact ⟨.struct h, rfl⟩
  · exact ⟨.variant h, rfl⟩

theorem declares_cases {D : AbiDef} {k : Bytes} {d : TData} (h : Declares D k d) : builtinTable.get k = some d ∨ (k, d) ∈ D.decls := by
  cases h with
  | builtin b =>
    left
    have := List.all_eq_true.1 builtinTable_get_all b (builtin_mem_all b)
    simpa using this
  | extendedAsset => exact .inl builtinTable_get_xasset
  | typedef h => right; simp only [AbiDef.decls, List.mem_append, List.mem_map]; exact .inl (.inl ⟨_, h, rfl⟩)
  | struct h => right; simp only [AbiDef.decls, List.mem_append, List.mem_map]; exact .inl (.inr ⟨_, h, rfl⟩)
  | variant h => right; simp only [AbiDef.decls, List.mem_append, List.mem_map]; exact .inr ⟨_, h, rfl⟩

theorem addDefs_get {D : AbiDef} {T : Table} (h : addDefs D.decls builtinTable = .ok T) {k : Bytes} {d : TData} : T.get k = some d ↔ Declares D k d := by
  obtain ⟨-, -, -, h4⟩ := addDefs_spec _ _ _ sorted_builtinTable h
  rw [h4]
  exact ⟨fun h => h.elim (builtinTable_get D) fun h => (mem_decls h).1, declares_cases⟩

theorem loopInv_init {D : AbiDef} {T : Table} (h : addDefs D.decls builtinTable = .ok T) : LoopInv D ⟨T, none⟩ := by
  have hg : ∀ {k d}, T.get k = some d ↔ Declares D k d := fun {k d} => addDefs_get h
  refine ⟨⟨?_, (addDefs_spec _ _ _ sorted_builtinTable h).1, ?_, ?_, ?_, ?_⟩, ?_⟩
  · intro k d d' h1 h2
    rw [← hg] at h1 h2
    rw [h1] at h2
    exact Option.some.inj h2
  · intro k d h1 h2
    have hd := hg.1 h1
    cases hd with
    | builtin b => exact .builtin (.builtin b)
    | extendedAsset => exact .extendedAsset .extendedAsset
    | typedef => cases h2
    | struct => cases h2
    | variant => cases h2
  · intro k d h1 _
    exact hg.1 h1
  · intro k d h1 p hp
    cases hg.1 h1 with
    | extendedAsset =>
      simp only [TData.ptrs, List.map_cons, List.map_nil, List.mem_cons, List.not_mem_nil, or_false] at hp
      rcases hp with rfl | rfl
      · exact ⟨.builtin .asset, hg.2 (.builtin .asset), rfl⟩
      · exact ⟨.builtin .name, hg.2 (.builtin .name), rfl⟩
    | _ => simp [TData.ptrs] at hp
  · intro k d h
    exact ⟨d, hg.2 h⟩
  · intro k d _ h
    exact absurd (fun c hc => by cases hc) h

/-! ## After the loop -/

/-- A table that satisfies the invariant and in which everything is resolved is a well-formed type table. -/
theorem Inv.wf {D : AbiDef} {T : Table} (h : Inv D T) (hr : ∀ k d, T.get k = some d → d.resolved = true) : T.WF := by
  have target : ∀ {p}, Here T p → ∃ d, T.get p = some d ∧ d.isTarget = true := by
    rintro p ⟨d, h1, h2⟩
    have := hr p d h1
    exact ⟨d, h1, by cases d <;> simp_all [TData.resolved, TData.isAlias, TData.isTarget]⟩
  have nowrap : ∀ {p}, Here T p → ¬ Undeclared D p → ∃ d, T.get p = some d ∧ d.isTarget = true ∧ d.isWrapper = false := by
    intro p hp hu
    obtain ⟨d, h1, h2⟩ := target hp
    refine ⟨d, h1, h2, ?_⟩
    have := mt (h.wrapper hp).1 hu
    unfold Table.isWrapperAt at this
    rw [h1] at this
    cases d <;> simp_all [TData.isWrapper]
  have noext : ∀ {p}, Here T p → ¬ IsExtText D p → ∃ d, T.get p = some d ∧ d.isTarget = true ∧ d.isExt = false := by
    intro p hp hu
    obtain ⟨d, h1, h2⟩ := target hp
    refine ⟨d, h1, h2, ?_⟩
    have := mt (h.ext hp).1 hu
    unfold Table.isExtAt at this
    rw [h1] at this
    cases d <;> simp_all [TData.isExt]
  intro k d hk
  have hrd := hr k d hk
  have hh := h.here k d hk
  have hm := h.meaning k d hk hrd
  cases d with
  | aliasDef => cases hrd
  | structDef => cases hrd
  | variantDef => cases hrd
  | builtin => trivial
  | «alias» p =>
    cases hm with
    | typedef hd hden =>
      refine noext (hh p (by simp [TData.ptrs])) ?_
      cases hden with
      | declared h1 h2 => exact absurd (h.unique _ _ _ h1 hd) (h2 _)
      | typedef h1 h2 h3 => exact h3
      | optional h1 => exact absurd hd (h1 _)
      | array h1 => exact absurd hd (h1 _)
      | extension h1 => exact absurd hd (h1 _)
  | optional p => cases hm with | optional _ _ h3 => exact nowrap (hh p (by simp [TData.ptrs])) h3
  | array p => cases hm with | array _ _ h3 => exact nowrap (hh p (by simp [TData.ptrs])) h3
  | extension p => cases hm with | extension _ _ h3 => exact noext (hh p (by simp [TData.ptrs])) h3
  | struct fs => exact fun f hf => target (hh f.type (by simp [TData.ptrs]; exact ⟨f, hf, rfl⟩))
  | variant fs => exact fun f hf => target (hh f.type (by simp [TData.ptrs]; exact ⟨f, hf, rfl⟩))

/-- What loading yields. -/
theorem load_result {D : AbiDef} {T : Table} (h : LoadTypes D (.ok T)) : Inv D T ∧ ∀ k d, T.get k = some d → d.resolved = true := by
  unfold LoadTypes at h
  split at h
  · cases h
  · rename_i T0 h0
    obtain ⟨r', h1, h2⟩ := h
    cases r' with
    | error e => cases h2
    | ok s =>
      cases h2
      obtain ⟨g1, -, g3⟩ := loop_result (loopInv_init h0) h1
      exact ⟨g1, g3⟩

end Abieos
