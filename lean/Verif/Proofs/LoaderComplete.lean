import Verif.Proofs.Loader
/-
What can be found is found: completeness of the loader and of lookups.
-/
namespace Abieos
open Spec

theorem Spec.DenotesIn.denotes {D : AbiDef} {n : Nat} {k : Bytes} {p : Ptr} (h : DenotesIn D n k p) : Denotes D k p := by
  induction h with
  | declared h1 h2 => exact .declared h1 h2
  | typedef h1 _ h3 ih => exact .typedef h1 ih h3
  | optional h1 _ h3 ih => exact .optional h1 ih h3
  | array h1 _ h3 ih => exact .array h1 ih h3
  | extension h1 _ h3 ih => exact .extension h1 ih h3

/-- A declared name that is no typedef is in the map, and not an alias. -/
theorem Inv.get_declared {D : AbiDef} {T : Table} (h : Inv D T) {k : Bytes} {d : TData} (hd : Declares D k d) (hna : ∀ t, d ≠ .aliasDef t) :
    ∃ d', T.get k = some d' ∧ d'.isAlias = false := by
  obtain ⟨d', h1⟩ := h.decls k d hd
  refine ⟨d', h1, ?_⟩
  cases d' with
  | aliasDef t => exact absurd (h.unique _ _ _ hd (h.pending _ _ h1 rfl)) (hna t)
  | «alias» p => cases h.meaning _ _ h1 rfl with | typedef h2 => exact absurd (h.unique _ _ _ hd h2) (hna _)
  | _ => rfl

theorem getType_plain {T : Table} {n : Nat} {k : Bytes} {d : TData} (h : T.get k = some d) (ha : d.isAlias = false) : getType (n + 1) k T = (.ok k, T) := by
  unfold getType
  rw [h]
  cases d <;> first | rfl | cases ha

/-- An undeclared name in the map is found at once. -/
theorem Inv.get_undeclared {D : AbiDef} {T : Table} (h : Inv D T) {k : Bytes} {d : TData} (hu : Undeclared D k) (hk : T.get k = some d) : d.isAlias = false := by
  cases d with
  | aliasDef t => exact absurd (h.pending _ _ hk rfl) (hu _)
  | «alias» p => cases h.meaning _ _ hk rfl with | typedef h2 => exact absurd h2 (hu _)
  | _ => rfl

theorem getType_wrap {D : AbiDef} {T : Table} (h : Inv D T) {n : Nat} {b suf : Bytes} {p : Ptr} {bad : Table → Ptr → Bool} {con : Ptr → TData}
    (hok : (getType n b T).1 = .ok p) (hbad : ∀ T', Inv D T' → Here T' p → bad T' p = false)
    (hget : T.get (b ++ suf) = none → getType (n + 1) (b ++ suf) T = match getType n b T with
      | (.error e, T') => (.error e, T')
      | (.ok p, T') => if bad T' p then (.error .invalid_nesting, T') else (.ok (b ++ suf), T'.emplace (b ++ suf) (con p)))
    (hu : Undeclared D (b ++ suf)) : (getType (n + 1) (b ++ suf) T).1 = .ok (b ++ suf) := by
  cases hk : T.get (b ++ suf) with
  | some d => rw [getType_plain hk (h.get_undeclared hu hk)]
  | none =>
    rw [hget hk]
    obtain ⟨h1, -, h3⟩ := getType_sound n b T h
    generalize getType n b T = r at hok h1 h3
    obtain ⟨r, T'⟩ := r
    simp only at hok
    subst hok
    simp only
    rw [hbad T' h1 (h3 p rfl).2]
    rfl

theorem endsWith_append (b suf : Bytes) : endsWith (b ++ suf) suf = true := endsWith_iff.2 ⟨b, rfl⟩

theorem getType_opt {T : Table} {n : Nat} {b : Bytes} (h : T.get (b ++ str "?") = none) : getType (n + 1) (b ++ str "?") T = match getType n b T with
      | (.error e, T') => (.error e, T')
      | (.ok p, T') => if T'.isWrapperAt p then (.error .invalid_nesting, T') else (.ok (b ++ str "?"), T'.emplace (b ++ str "?") (.optional p)) := by
  rw [getType, h]
  simp only
  rw [if_pos (endsWith_append _ _), chop_append b _ 1 rfl]
  rfl

theorem getType_arr {T : Table} {n : Nat} {b : Bytes} (h : T.get (b ++ str "[]") = none) : getType (n + 1) (b ++ str "[]") T = match getType n b T with
      | (.error e, T') => (.error e, T')
      | (.ok p, T') => if T'.isWrapperAt p then (.error .invalid_nesting, T') else (.ok (b ++ str "[]"), T'.emplace (b ++ str "[]") (.array p)) := by
  rw [getType, h]
  simp only
  rw [if_neg (fun h => by obtain ⟨c, hc⟩ := endsWith_iff.1 h; exact opt_ne_arr _ _ hc.symm), if_pos (endsWith_append _ _), chop_append b _ 2 rfl]
  rfl

theorem getType_ext {T : Table} {n : Nat} {b : Bytes} (h : T.get (b ++ str "$") = none) : getType (n + 1) (b ++ str "$") T = match getType n b T with
      | (.error e, T') => (.error e, T')
      | (.ok p, T') => if T'.isExtAt p then (.error .invalid_nesting, T') else (.ok (b ++ str "$"), T'.emplace (b ++ str "$") (.extension p)) := by
  rw [getType, h]
  simp only
  rw [if_neg (fun h => by obtain ⟨c, hc⟩ := endsWith_iff.1 h; exact opt_ne_ext _ _ hc.symm),
    if_neg (fun h => by obtain ⟨c, hc⟩ := endsWith_iff.1 h; exact arr_ne_ext _ _ hc.symm), if_pos (endsWith_append _ _), chop_append b _ 1 rfl]
  rfl

theorem getType_complete {D : AbiDef} {n : Nat} {k : Bytes} {p : Ptr} (hd : DenotesIn D n k p) : ∀ {T : Table}, Inv D T → (getType n k T).1 = .ok p := by
  induction hd with
  | declared h1 h2 =>
    intro T h
    obtain ⟨d', g1, g2⟩ := h.get_declared h1 h2
    rw [getType_plain g1 g2]
  | @typedef n k t p h1 h2 h3 ih =>
    intro T h
    obtain ⟨d', g1⟩ := h.decls _ _ h1
    unfold getType
    rw [g1]
    cases d' with
    | aliasDef t' =>
      cases h.unique _ _ _ h1 (h.pending _ _ g1 rfl)
      simp only
      have hok := ih h
      obtain ⟨i1, -, i3⟩ := getType_sound n t T h
      generalize getType n t T = r at hok i1 i3
      obtain ⟨r, T'⟩ := r
      simp only at hok
      subst hok
      simp only
      rw [if_neg (fun he => h3 ((i1.ext (i3 p rfl).2).1 he))]
    | «alias» q =>
      cases h.meaning _ _ g1 rfl with
      | typedef _ h5 => rw [Spec.Denotes.unique h.unique h5 (.typedef h1 h2.denotes h3)]
    | builtin b => cases h.meaning _ _ g1 rfl with | builtin h5 => cases h.unique _ _ _ h1 h5
    | structDef b => cases h.unique _ _ _ h1 (h.pending _ _ g1 rfl)
    | variantDef b => cases h.unique _ _ _ h1 (h.pending _ _ g1 rfl)
    | optional q => cases h.meaning _ _ g1 rfl with | optional h5 => exact absurd h1 (h5 _)
    | array q => cases h.meaning _ _ g1 rfl with | array h5 => exact absurd h1 (h5 _)
    | extension q => cases h.meaning _ _ g1 rfl with | extension h5 => exact absurd h1 (h5 _)
    | struct q => cases h.meaning _ _ g1 rfl with
      | extendedAsset h5 => cases h.unique _ _ _ h1 h5
      | struct h5 => cases h.unique _ _ _ h1 h5
    | variant q => cases h.meaning _ _ g1 rfl with | variant h5 => cases h.unique _ _ _ h1 h5
  | optional h1 h2 h3 ih =>
    intro T h
    exact getType_wrap h (ih h) (fun T' i hp => by simpa using mt (i.wrapper hp).1 h3) getType_opt h1
  | array h1 h2 h3 ih =>
    intro T h
    exact getType_wrap h (ih h) (fun T' i hp => by simpa using mt (i.wrapper hp).1 h3) getType_arr h1
  | extension h1 h2 h3 ih =>
    intro T h
    exact getType_wrap h (ih h) (fun T' i hp => by simpa using mt (i.ext hp).1 h3) getType_ext h1

theorem getFields_complete {D : AbiDef} {n : Nat} : ∀ {fs : List FieldDef}, (∀ f ∈ fs, ∃ p, DenotesIn D n f.type p) → ∀ {T : Table}, Inv D T →
    ∃ l, (getFields n fs T).1 = .ok l
  | [], _, T, _ => ⟨[], rfl⟩
  | f :: fs, hf, T, h => by
    obtain ⟨p, hp⟩ := hf f (by simp)
    have hok := getType_complete hp h
    obtain ⟨i1, -, -⟩ := getType_sound n f.type T h
    unfold getFields
    generalize getType n f.type T = r at hok i1
    obtain ⟨r, T'⟩ := r
    simp only at hok
    subst hok
    simp only
    obtain ⟨l, hl⟩ := getFields_complete (fun g hg => hf g (List.mem_cons_of_mem _ hg)) i1
    generalize getFields n fs T' = r at hl
    obtain ⟨r, T''⟩ := r
    simp only at hl
    subst hl
    exact ⟨_, rfl⟩

theorem resolveStruct_complete {D : AbiDef} {n : Nat} {s : StructDef} (hs : StructIn D n s) : ∀ {T : Table}, Inv D T → ∃ l, (resolveStruct n s T).1 = .ok l := by
  have own : ∀ {n : Nat} {s : StructDef} {T0 : Table} (base : List Field), (∀ f ∈ s.fields, ∃ p, DenotesIn D n f.type p) → Inv D T0 →
      ∃ l, (match getFields n s.fields T0 with
          | (.error e, T') => ((.error e, T') : Res (List Field) × Table)
          | (.ok l, T') => (.ok (base ++ l), T')).1 = .ok l := by
    intro n s T0 base hf h
    obtain ⟨l, hl⟩ := getFields_complete hf h
    generalize getFields n s.fields T0 = r at hl
    obtain ⟨r, T'⟩ := r
    simp only at hl
    subst hl
    exact ⟨_, rfl⟩
  induction hs with
  | root hb hf =>
    intro T h
    unfold resolveStruct
    simp only
    rw [if_pos hb]
    exact own [] hf h
  | @derived n s b p hb hd hdb hsb hf ih =>
    intro T h
    unfold resolveStruct
    simp only
    rw [if_neg hb]
    have hok := getType_complete hd h
    obtain ⟨i1, -, i3⟩ := getType_sound n s.base T h
    generalize getType n s.base T = r at hok i1 i3
    obtain ⟨r, T1⟩ := r
    simp only at hok i1
    subst hok
    simp only
    obtain ⟨d', g1⟩ := i1.decls _ _ hdb
    rw [g1]
    cases d' with
    | structDef b' =>
      cases i1.unique _ _ _ hdb (i1.pending _ _ g1 rfl)
      simp only
      obtain ⟨l, hl⟩ := ih i1
      obtain ⟨j1, j2, j3⟩ := resolveStruct_sound n b T1 i1
      generalize resolveStruct n b T1 = r at hl j1 j2 j3
      obtain ⟨r, T2⟩ := r
      simp only at hl j1 j2
      subst hl
      simp only
      obtain ⟨l1, l2⟩ := j3 l rfl
      obtain ⟨d', c1, c2, -⟩ := j2.keep _ _ g1
      exact own l hf (j1.set c1 (d := .struct l) c2.symm rfl (.struct hdb l1) (by simpa [TData.ptrs] using l2))
    | struct fs => exact own fs hf i1
    | aliasDef b' => cases i1.unique _ _ _ hdb (i1.pending _ _ g1 rfl)
    | variantDef b' => cases i1.unique _ _ _ hdb (i1.pending _ _ g1 rfl)
    | builtin b' => cases i1.meaning _ _ g1 rfl with | builtin h5 => cases i1.unique _ _ _ hdb h5
    | «alias» b' => cases i1.meaning _ _ g1 rfl with | typedef h5 => cases i1.unique _ _ _ hdb h5
    | variant b' => cases i1.meaning _ _ g1 rfl with | variant h5 => cases i1.unique _ _ _ hdb h5
    | optional q => cases i1.meaning _ _ g1 rfl with | optional h5 => exact absurd hdb (h5 _)
    | array q => cases i1.meaning _ _ g1 rfl with | array h5 => exact absurd hdb (h5 _)
    | extension q => cases i1.meaning _ _ g1 rfl with | extension h5 => exact absurd hdb (h5 _)
  | @fromBuiltin n s p fs hb hd hdb hf =>
    intro T h
    unfold resolveStruct
    simp only
    rw [if_neg hb]
    have hok := getType_complete hd h
    obtain ⟨i1, -, i3⟩ := getType_sound n s.base T h
    generalize getType n s.base T = r at hok i1 i3
    obtain ⟨r, T1⟩ := r
    simp only at hok i1
    subst hok
    simp only
    obtain ⟨d', g1⟩ := i1.decls _ _ hdb
    rw [g1]
    cases d' with
    | structDef b' => cases i1.unique _ _ _ hdb (i1.pending _ _ g1 rfl)
    | struct fs => exact own fs hf i1
    | aliasDef b' => cases i1.unique _ _ _ hdb (i1.pending _ _ g1 rfl)
    | variantDef b' => cases i1.unique _ _ _ hdb (i1.pending _ _ g1 rfl)
    | builtin b' => cases i1.meaning _ _ g1 rfl with | builtin h5 => cases i1.unique _ _ _ hdb h5
    | «alias» b' => cases i1.meaning _ _ g1 rfl with | typedef h5 => cases i1.unique _ _ _ hdb h5
    | variant b' => cases i1.meaning _ _ g1 rfl with | variant h5 => cases i1.unique _ _ _ hdb h5
    | optional q => cases i1.meaning _ _ g1 rfl with | optional h5 => exact absurd hdb (h5 _)
    | array q => cases i1.meaning _ _ g1 rfl with | array h5 => exact absurd hdb (h5 _)
    | extension q => cases i1.meaning _ _ g1 rfl with | extension h5 => exact absurd hdb (h5 _)

theorem fill_complete {D : AbiDef} (hr : Resolvable D) {T : Table} (h : Inv D T) {k : Bytes} {d : TData} (hk : T.get k = some d) : (fill k d T).1 = .ok () := by
  unfold fill
  cases d with
  | aliasDef t =>
    simp only
    have hd := h.pending _ _ hk rfl
    cases hd with
    | @typedef t ht =>
      obtain ⟨p, h1, h2⟩ := hr.types _ ht
      have hok := getType_complete h1 h
      obtain ⟨i1, -, i3⟩ := getType_sound 31 t.type T h
      generalize getType 31 t.type T = r at hok i1 i3
      obtain ⟨r, T'⟩ := r
      simp only at hok i1
      subst hok
      simp only
      rw [if_neg (fun he => h2 ((i1.ext (i3 p rfl).2).1 he))]
  | structDef s =>
    simp only
    have hd := h.pending _ _ hk rfl
    cases hd with
    | struct ht =>
      obtain ⟨l, hl⟩ := resolveStruct_complete (hr.structs _ ht) h
      generalize resolveStruct 32 s T = r at hl
      obtain ⟨r, T'⟩ := r
      simp only at hl
      subst hl
      rfl
  | variantDef v =>
    simp only
    have hd := h.pending _ _ hk rfl
    cases hd with
    | variant ht =>
      have er : resolveVariant 32 v T = getFields 31 (v.types.map fun t => ⟨t, t⟩) T := rfl
      obtain ⟨l, hl⟩ := getFields_complete (n := 31) (fs := v.types.map fun t => ⟨t, t⟩) (by
        intro f hf
        obtain ⟨t, ht', rfl⟩ := List.mem_map.1 hf
        exact hr.variants _ ht t ht') h
      rw [er]
      generalize getFields 31 (v.types.map fun t => ⟨t, t⟩) T = r at hl
      obtain ⟨r, T'⟩ := r
      simp only at hl
      subst hl
      rfl
  | _ => rfl

theorem loop_complete {D : AbiDef} (hr : Resolvable D) {s : FillState} (h : LoopInv D s) : ∃ s', Ends stepFill s (.ok s') := by
  obtain ⟨r, n, hn⟩ := fill_ends s h
  induction n generalizing s with
  | zero => cases hn
  | succ n ih =>
    unfold iter at hn
    split at hn
    · rename_i e hs
      exfalso
      unfold stepFill at hs
      split at hs
      · cases hs
      · rename_i k d hx
        have := fill_complete hr h.inv (next_some h.inv.sorted hx).1
        split at hs
        · rename_i hf; rw [hf] at this; cases this
        · cases hs
    · rename_i hs
      exact ⟨s, 1, by simp [iter, hs]⟩
    · rename_i s1 hs
      obtain ⟨s', hs'⟩ := ih (loopInv_step h hs).1 hn
      exact ⟨s', hs'.head hs⟩

theorem addDefs_complete : ∀ (l : List (Bytes × TData)) (T : Table), (l.map (·.1)).Nodup → (∀ e ∈ l, e.1 ≠ [] ∧ T.get e.1 = none) → ∃ T', addDefs l T = .ok T'
  | [], T, _, _ => ⟨T, rfl⟩
  | (k, d) :: l, T, hn, h => by
    unfold addDefs
    obtain ⟨h1, h2⟩ := h (k, d) (by simp)
    rw [if_neg h1]
    simp only at h2
    rw [if_neg (by rw [h2]; simp)]
    rw [List.map_cons, List.nodup_cons] at hn
    refine addDefs_complete l _ hn.2 fun e he => ⟨(h e (by simp [he])).1, ?_⟩
    rw [Table.get_emplace, (h e (by simp [he])).2]
    simp only
    rw [if_neg]
    intro ek
    exact hn.1 (List.mem_map.2 ⟨e, he, ek⟩)

theorem decls_keys (D : AbiDef) : D.decls.map (·.1) = D.types.map (·.newName) ++ D.structs.map (·.name) ++ D.variants.map (·.name) := by
  simp only [AbiDef.decls, List.map_append, List.map_map]
  rfl

theorem addDefs_iff (D : AbiDef) : (∃ T, addDefs D.decls builtinTable = .ok T) ↔ NamesOk D := by
  constructor
  · rintro ⟨T, h⟩
    obtain ⟨-, h2, h3, -⟩ := addDefs_spec _ _ _ sorted_builtinTable h
    rw [decls_keys] at h2
    refine ⟨h2, fun k hk => ?_⟩
    rw [← decls_keys] at hk
    obtain ⟨e, he, rfl⟩ := List.mem_map.1 hk
    obtain ⟨g1, g2⟩ := h3 e he
    refine ⟨g1, fun e' => ?_, fun b e' => ?_⟩
    · rw [e', builtinTable_get_xasset] at g2; cases g2
    · have := List.all_eq_true.1 builtinTable_get_all b (builtin_mem_all b)
      rw [e'] at g2
      rw [g2] at this
      simp at this
  · rintro ⟨h1, h2⟩
    apply addDefs_complete
    · rw [decls_keys]; exact h1
    · intro e he
      obtain ⟨g1, g2, g3⟩ := h2 e.1 (by rw [← decls_keys]; exact List.mem_map.2 ⟨e, he, rfl⟩)
      refine ⟨g1, ?_⟩
      cases hg : builtinTable.get e.1 with
      | none => rfl
      | some d =>
        exfalso
        have := List.all_eq_true.1 builtinTable_entries _ (Table.get_mem' hg)
        unfold builtinEntryB at this
        cases d with
        | builtin b => simp only [beq_iff_eq] at this; exact g3 b this
        | _ => simp only [Bool.and_eq_true, beq_iff_eq] at this; exact g2 this.1

end Abieos
