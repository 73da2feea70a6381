import Verif.Props.Loader
import Verif.Proofs.Agree
/-
C26: looking up types on a loaded ABI.
-/
namespace Abieos
open Spec

/-- The map after the given lookups, in order; a lookup that throws may leave entries behind. -/
def lookups : List Bytes → Table → Table
  | [], T => T
  | name :: names, T => lookups names (lookupType name T).2

/-- The definition has been loaded, and types have been looked up any number of times since. -/
def Spec.LoadedThen (D : AbiDef) (T : Table) : Prop := ∃ T0 names, LoadTypes D (.ok T0) ∧ T = lookups names T0

/-- Loaded and resolved: what loading yields and lookups keep. -/
def Loaded (D : AbiDef) (T : Table) : Prop := Inv D T ∧ ∀ k d, T.get k = some d → d.resolved = true

theorem Loaded.wf {D : AbiDef} {T : Table} (h : Loaded D T) : T.WF := h.1.wf h.2

theorem loaded_lookup {D : AbiDef} {T : Table} (h : Loaded D T) (n : Nat) (name : Bytes) : Loaded D (getType n name T).2 := by
  obtain ⟨h1, h2, -⟩ := getType_sound n name T h.1
  refine ⟨h1, fun k d hk => ?_⟩
  cases hk0 : T.get k with
  | none => exact h2.fresh k d hk hk0
  | some d0 =>
    obtain ⟨d', h3, -, h5⟩ := h2.keep k d0 hk0
    rw [h3] at hk; cases hk
    exact h5 (h.2 _ _ hk0)

theorem loaded_lookups {D : AbiDef} : ∀ (names : List Bytes) {T : Table}, Loaded D T → Loaded D (lookups names T)
  | [], _, h => h
  | _ :: names, _, h => loaded_lookups names (loaded_lookup h _ _)

theorem loaded_of {D : AbiDef} {T : Table} (h : LoadedThen D T) : Loaded D T := by
  obtain ⟨T0, names, h1, rfl⟩ := h
  exact loaded_lookups names (load_result h1)

theorem lookups_append (l m : List Bytes) (T : Table) : lookups (l ++ m) T = lookups m (lookups l T) := by
  induction l generalizing T with
  | nil => rfl
  | cons a l ih => exact ih _

theorem Spec.LoadedThen.lookup {D : AbiDef} {T : Table} (h : LoadedThen D T) (name : Bytes) : LoadedThen D (lookupType name T).2 := by
  obtain ⟨T0, names, h1, rfl⟩ := h
  exact ⟨T0, names ++ [name], h1, by rw [lookups_append]; rfl⟩

theorem getType_emplace_get {T T' : Table} {k : Bytes} {d : TData} (h : T.get k = some d) (k' : Bytes) (d' : TData) (ht : ∀ k d, T.get k = some d → T'.get k = some d) :
    (T'.emplace k' d').get k = some d := by
  rw [Table.get_emplace, ht _ _ h]

/-- On a resolved table a lookup only adds entries. -/
theorem getType_keeps : ∀ (n : Nat) (name : Bytes) (T : Table), (∀ k d, T.get k = some d → d.resolved = true) →
    ∀ k d, T.get k = some d → (getType n name T).2.get k = some d
  | 0, _, _, _ => fun _ _ h => h
  | n + 1, name, T, hr => by
    unfold getType
    split
    · split
      · have ih := getType_keeps n (chop name 1) T hr
        generalize getType n (chop name 1) T = r at ih
        obtain ⟨r, T'⟩ := r
        cases r with
        | error e => exact ih
        | ok p =>
          simp only
          split
          · exact ih
          · exact fun k d h => getType_emplace_get h _ _ ih
      · split
        · have ih := getType_keeps n (chop name 2) T hr
          generalize getType n (chop name 2) T = r at ih
          obtain ⟨r, T'⟩ := r
          cases r with
          | error e => exact ih
          | ok p =>
            simp only
            split
            · exact ih
            · exact fun k d h => getType_emplace_get h _ _ ih
        · split
          · have ih := getType_keeps n (chop name 1) T hr
            generalize getType n (chop name 1) T = r at ih
            obtain ⟨r, T'⟩ := r
            cases r with
            | error e => exact ih
            | ok p =>
              simp only
              split
              · exact ih
              · exact fun k d h => getType_emplace_get h _ _ ih
          · exact fun _ _ h => h
    · exact fun _ _ h => h
    · rename_i t ht
      have := hr _ _ ht
      cases this
    · exact fun _ _ h => h

/-- A declared name is found at once. -/
theorem getType_declared {D : AbiDef} {T : Table} (h : Loaded D T) {k : Bytes} {p : Ptr} (hd : Denotes D k p) (hk : ¬ Undeclared D k) (n : Nat) :
    getType (n + 1) k T = (.ok p, T) := by
  cases hd with
  | declared h1 h2 =>
    obtain ⟨d', g1, g2⟩ := h.1.get_declared h1 h2
    exact getType_plain g1 g2
  | typedef h1 h2 h3 =>
    obtain ⟨d', g1⟩ := h.1.decls _ _ h1
    have hr := h.2 _ _ g1
    cases h.1.meaning _ _ g1 hr with
    | builtin h5 => cases h.1.unique _ _ _ h1 h5
    | extendedAsset h5 => cases h.1.unique _ _ _ h1 h5
    | struct h5 => cases h.1.unique _ _ _ h1 h5
    | variant h5 => cases h.1.unique _ _ _ h1 h5
    | typedef h5 h6 =>
      rw [Denotes.unique h.1.unique (.typedef h1 h2 h3) h6]
      unfold getType
      rw [g1]
    | optional h5 => exact absurd h1 (h5 _)
    | array h5 => exact absurd h1 (h5 _)
    | extension h5 => exact absurd h1 (h5 _)
  | optional h1 => exact absurd h1 hk
  | array h1 => exact absurd h1 hk
  | extension h1 => exact absurd h1 hk

/-- An optional or array is found in two steps. -/
theorem getType_noext {D : AbiDef} {T : Table} (h : Loaded D T) {k : Bytes} {p : Ptr} (hd : Denotes D k p) (hk : ¬ IsExtText D k) (n : Nat) :
    (getType (n + 2) k T).1 = .ok p := by
  by_cases hu : Undeclared D k
  · cases hd with
    | declared h1 => exact absurd h1 (hu _)
    | typedef h1 => exact absurd h1 (hu _)
    | optional h1 h2 h3 =>
      have hb : ¬ Undeclared D _ := fun hb => h3 (by rw [denotes_undeclared hb h2]; exact hb)
      exact getType_wrap h.1 (p := _) (by rw [getType_declared h h2 hb]) (fun T' i hp => by simpa using mt (i.wrapper hp).1 h3) getType_opt h1
    | array h1 h2 h3 =>
      have hb : ¬ Undeclared D _ := fun hb => h3 (by rw [denotes_undeclared hb h2]; exact hb)
      exact getType_wrap h.1 (p := _) (by rw [getType_declared h h2 hb]) (fun T' i hp => by simpa using mt (i.wrapper hp).1 h3) getType_arr h1
    | extension h1 => exact absurd ⟨hu, _, rfl⟩ hk
  · rw [getType_declared h hd hu]

theorem lookup_complete {D : AbiDef} {T : Table} (h : Loaded D T) {k : Bytes} {p : Ptr} (hd : Denotes D k p) : (lookupType k T).1 = .ok p := by
  unfold lookupType
  by_cases hx : IsExtText D k
  · cases hd with
    | declared h1 => exact absurd h1 (hx.1 _)
    | typedef h1 => exact absurd h1 (hx.1 _)
    | optional h1 => obtain ⟨-, b, hb⟩ := hx; exact absurd hb (opt_ne_ext _ _)
    | array h1 => obtain ⟨-, b, hb⟩ := hx; exact absurd hb (arr_ne_ext _ _)
    | extension h1 h2 h3 =>
      have hb : ¬ IsExtText D _ := fun hb => h3 (by rw [denotes_undeclared hb.1 h2]; exact hb)
      exact getType_wrap h.1 (p := _) (getType_noext h h2 hb _) (fun T' i hp => by simpa using mt (i.ext hp).1 h3) getType_ext h1
  · exact getType_noext h hd hx _

/-! ## C26 -/

/-- On a loaded ABI, whatever has been looked up before, looking up a text finds exactly the type it denotes. -/
theorem c26_lookup {D : AbiDef} {T : Table} (h : LoadedThen D T) (name : Bytes) (p : Ptr) : (lookupType name T).1 = .ok p ↔ Denotes D name p := by
  have hl := loaded_of h
  exact ⟨fun hp => ((getType_sound 32 name T hl.1).2.2 p hp).1, lookup_complete hl⟩

/-- What is found can be used: it is in the table as a resolved type. -/
theorem c26_found {D : AbiDef} {T : Table} (h : LoadedThen D T) {name : Bytes} {p : Ptr} (hp : (lookupType name T).1 = .ok p) :
    (lookupType name T).2.Valid p := by
  have hl := loaded_of h
  have hl' := loaded_of (h.lookup name)
  obtain ⟨d, h1, h2⟩ := ((getType_sound 32 name T hl.1).2.2 p hp).2
  refine ⟨d, h1, ?_⟩
  have := hl'.2 _ _ h1
  cases d <;> simp_all [TData.resolved, TData.isAlias, TData.isTarget]

/-- Every earlier entry is kept as it is. -/
theorem c26_keeps {D : AbiDef} {T : Table} (h : LoadedThen D T) (names : List Bytes) {k : Bytes} {d : TData} (hk : T.get k = some d) :
    (lookups names T).get k = some d := by
  induction names generalizing T with
  | nil => exact hk
  | cons a l ih => exact ih (h.lookup a) (getType_keeps 32 a T (loaded_of h).2 _ _ hk)

/-- The table stays fully resolved, and every entry, old or new, is what its text means. -/
theorem c26_resolved {D : AbiDef} {T : Table} (h : LoadedThen D T) : T.WF ∧ ∀ k d, T.get k = some d → Meaning D k d :=
  ⟨(loaded_of h).wf, fun k d hk => (loaded_of h).1.meaning k d hk ((loaded_of h).2 k d hk)⟩

/-- The same lookup gives the same answer after any other lookups; one that fails keeps failing. -/
theorem c26_same_answer {D : AbiDef} {T : Table} (h : LoadedThen D T) (names : List Bytes) (name : Bytes) (p : Ptr) :
    (lookupType name (lookups names T)).1 = .ok p ↔ (lookupType name T).1 = .ok p := by
  have h' : LoadedThen D (lookups names T) := by
    obtain ⟨T0, l, h1, rfl⟩ := h
    exact ⟨T0, l ++ names, h1, by rw [lookups_append]⟩
  rw [c26_lookup h, c26_lookup h']

/-- Lookups do not change any conversion. -/
theorem c26_conversions {D : AbiDef} {T : Table} (h : LoadedThen D T) (names : List Bytes) {ty : Ptr} (hty : T.Valid ty) (L : Leaves) :
    (∀ v r, JsonToBin (lookups names T) L ty v r ↔ JsonToBin T L ty v r) ∧
      (∀ v r, JsonToBinReorderable (lookups names T) L ty v r ↔ JsonToBinReorderable T L ty v r) ∧
        ∀ bin r, BinToJson (lookups names T) L ty bin r ↔ BinToJson T L ty bin r := by
  have h' : LoadedThen D (lookups names T) := by
    obtain ⟨T0, l, h1, rfl⟩ := h
    exact ⟨T0, l ++ names, h1, by rw [lookups_append]⟩
  have ha := agree_of_wf (loaded_of h).wf (fun k d => c26_keeps h names (k := k) (d := d))
  exact ⟨agree_jsonToBin ha (loaded_of h).wf (loaded_of h').wf hty L, agree_reorderable ha (loaded_of h).wf (loaded_of h').wf hty L,
    agree_binToJson ha (loaded_of h).wf (loaded_of h').wf hty L⟩

end Abieos
