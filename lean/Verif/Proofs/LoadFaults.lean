import Verif.Spec.LoadFaults
import Verif.Props.Loader
/-
The errors of the loader are the faults of the definition.
-/
namespace Abieos
open Spec

/-! ## A fault excludes a meaning, and there is only one -/

theorem Spec.TypeFault.no_meaning {D : AbiDef} (hu : ∀ k d d', Declares D k d → Declares D k d' → d = d') {k : Bytes} {e : Err} (h : TypeFault D k e) :
    ∀ p, ¬ Denotes D k p := by
  induction h with
  | unknown h1 h2 =>
    intro p hd
    cases hd with
    | declared h _ => exact h1 _ h
    | typedef h _ _ => exact h1 _ h
    | optional _ _ _ => exact (h2 _).1 rfl
    | array _ _ _ => exact (h2 _).2.1 rfl
    | extension _ _ _ => exact (h2 _).2.2 rfl
  | inside hn _ ih =>
    intro p hd
    rename_i a b e _
    generalize ha : a = a' at hd
    cases hd with
    | declared h hna =>
      subst ha
      cases hn with
      | typedef h' => exact hna _ (hu _ _ _ h h')
      | optional h' => exact h' _ h
      | array h' => exact h' _ h
      | extension h' => exact h' _ h
    | typedef h hd' _ =>
      subst ha
      cases hn with
      | typedef h' => cases hu _ _ _ h h'; exact ih _ hd'
      | optional h' => exact h' _ h
      | array h' => exact h' _ h
      | extension h' => exact h' _ h
    | optional h hd' _ =>
      cases hn with
      | typedef h' => subst ha; exact h _ h'
      | optional h' => cases last_inj ha; exact ih _ hd'
      | array h' => exact opt_ne_arr _ _ ha.symm
      | extension h' => exact opt_ne_ext _ _ ha.symm
    | array h hd' _ =>
      cases hn with
      | typedef h' => subst ha; exact h _ h'
      | optional h' => exact opt_ne_arr _ _ ha
      | array h' => cases List.append_cancel_right ha; exact ih _ hd'
      | extension h' => exact arr_ne_ext _ _ ha.symm
    | extension h hd' _ =>
      cases hn with
      | typedef h' => subst ha; exact h _ h'
      | optional h' => exact opt_ne_ext _ _ ha
      | array h' => exact arr_ne_ext _ _ ha
      | extension h' => cases last_inj ha; exact ih _ hd'
  | optional h1 h2 h3 =>
    intro p hd
    rename_i b q
    generalize ha : b ++ str "?" = a' at hd
    cases hd with
    | declared h _ => subst ha; exact h1 _ h
    | typedef h _ _ => subst ha; exact h1 _ h
    | optional _ h4 h5 => cases last_inj ha; cases h2.unique hu h4; exact h5 h3
    | array _ _ _ => exact opt_ne_arr _ _ ha
    | extension _ _ _ => exact opt_ne_ext _ _ ha
  | array h1 h2 h3 =>
    intro p hd
    rename_i b q
    generalize ha : b ++ str "[]" = a' at hd
    cases hd with
    | declared h _ => subst ha; exact h1 _ h
    | typedef h _ _ => subst ha; exact h1 _ h
    | optional _ _ _ => exact opt_ne_arr _ _ ha.symm
    | array _ h4 h5 => cases List.append_cancel_right ha; cases h2.unique hu h4; exact h5 h3
    | extension _ _ _ => exact arr_ne_ext _ _ ha
  | extension h1 h2 h3 =>
    intro p hd
    rename_i b q
    generalize ha : b ++ str "$" = a' at hd
    cases hd with
    | declared h _ => subst ha; exact h1 _ h
    | typedef h _ _ => subst ha; exact h1 _ h
    | optional _ _ _ => exact opt_ne_ext _ _ ha.symm
    | array _ _ _ => exact arr_ne_ext _ _ ha.symm
    | extension _ h4 h5 => cases last_inj ha; cases h2.unique hu h4; exact h5 h3
  | typedef h1 h2 h3 =>
    intro p hd
    rename_i b t q
    cases hd with
    | declared h hna => exact hna _ (hu _ _ _ h h1)
    | typedef h h4 h5 => cases hu _ _ _ h h1; cases h2.unique hu h4; exact h5 h3
    | optional h _ _ => exact h _ h1
    | array h _ _ => exact h _ h1
    | extension h _ _ => exact h _ h1

theorem Spec.Needs.unique {D : AbiDef} (hu : ∀ k d d', Declares D k d → Declares D k d' → d = d') {a b c : Bytes} (h : Needs D a b) (h' : Needs D a c) : b = c := by
  cases h with
  | typedef h =>
    cases h' with
    | typedef h' => cases hu _ _ _ h h'; rfl
    | optional h' => exact absurd h (h' _)
    | array h' => exact absurd h (h' _)
    | extension h' => exact absurd h (h' _)
  | optional h =>
    generalize ha : b ++ str "?" = a at h'
    cases h' with
    | typedef h' => subst ha; exact absurd h' (h _)
    | optional h' => exact last_inj ha
    | array h' => exact absurd ha (opt_ne_arr _ _)
    | extension h' => exact absurd ha (opt_ne_ext _ _)
  | array h =>
    generalize ha : b ++ str "[]" = a at h'
    cases h' with
    | typedef h' => subst ha; exact absurd h' (h _)
    | optional h' => exact absurd ha.symm (opt_ne_arr _ _)
    | array h' => exact List.append_cancel_right ha
    | extension h' => exact absurd ha (arr_ne_ext _ _)
  | extension h =>
    generalize ha : b ++ str "$" = a at h'
    cases h' with
    | typedef h' => subst ha; exact absurd h' (h _)
    | optional h' => exact absurd ha.symm (opt_ne_ext _ _)
    | array h' => exact absurd ha.symm (arr_ne_ext _ _)
    | extension h' => exact last_inj ha

/-- What is wrong with a text itself, not with what it is made of. -/
theorem Spec.TypeFault.cases' {D : AbiDef} {k : Bytes} {e : Err} (h : TypeFault D k e) :
    (e = .unknown_type ∧ Undeclared D k ∧ NoSuffix k) ∨ (∃ b, Needs D k b ∧ TypeFault D b e) ∨
    (∃ b p, Needs D k b ∧ Denotes D b p ∧ ((e = .invalid_nesting ∧ Undeclared D k) ∨ (e = .extension_typedef ∧ ¬ Undeclared D k))) := by
  cases h with
  | unknown h1 h2 => exact .inl ⟨rfl, h1, h2⟩
  | inside h1 h2 => exact .inr (.inl ⟨_, h1, h2⟩)
  | optional h1 h2 h3 => exact .inr (.inr ⟨_, _, .optional h1, h2, .inl ⟨rfl, h1⟩⟩)
  | array h1 h2 h3 => exact .inr (.inr ⟨_, _, .array h1, h2, .inl ⟨rfl, h1⟩⟩)
  | extension h1 h2 h3 => exact .inr (.inr ⟨_, _, .extension h1, h2, .inl ⟨rfl, h1⟩⟩)
  | typedef h1 h2 h3 => exact .inr (.inr ⟨_, _, .typedef h1, h2, .inr ⟨rfl, fun h => h _ h1⟩⟩)

theorem needs_not_unknown {D : AbiDef} {k b : Bytes} (h : Needs D k b) (hu : Undeclared D k) (hs : NoSuffix k) : False := by
  cases h with
  | typedef h => exact hu _ h
  | optional h => exact (hs _).1 rfl
  | array h => exact (hs _).2.1 rfl
  | extension h => exact (hs _).2.2 rfl

theorem Spec.TypeFault.unique {D : AbiDef} (hu : ∀ k d d', Declares D k d → Declares D k d' → d = d') {k : Bytes} {e : Err} (h : TypeFault D k e) :
    ∀ {e' : Err}, TypeFault D k e' → e = e' := by
  have top : ∀ {k : Bytes} {e e' : Err}, (∀ b, Needs D k b → TypeFault D b e → ∀ {e' : Err}, TypeFault D b e' → e = e') → TypeFault D k e → TypeFault D k e' → e = e' := by
    intro k e e' ih h h'
    rcases h.cases' with ⟨rfl, h1, h2⟩ | ⟨b, h1, h2⟩ | ⟨b, p, h1, h2, h3⟩
    · rcases h'.cases' with ⟨rfl, g1, g2⟩ | ⟨b, g1, g2⟩ | ⟨b, p, g1, g2, g3⟩
      · rfl
      · exact (needs_not_unknown g1 h1 h2).elim
      · exact (needs_not_unknown g1 h1 h2).elim
    · rcases h'.cases' with ⟨rfl, g1, g2⟩ | ⟨b', g1, g2⟩ | ⟨b', p, g1, g2, g3⟩
      · exact (needs_not_unknown h1 g1 g2).elim
      · cases h1.unique hu g1; exact ih _ h1 h2 g2
      · cases h1.unique hu g1; exact absurd g2 (h2.no_meaning hu p)
    · rcases h'.cases' with ⟨rfl, g1, g2⟩ | ⟨b', g1, g2⟩ | ⟨b', p', g1, g2, g3⟩
      · exact (needs_not_unknown h1 g1 g2).elim
      · cases h1.unique hu g1; exact absurd h2 (g2.no_meaning hu p)
      · rcases h3 with ⟨rfl, h3⟩ | ⟨rfl, h3⟩ <;> rcases g3 with ⟨rfl, g3⟩ | ⟨rfl, g3⟩
        · rfl
        · exact absurd h3 g3
        · exact absurd g3 h3
        · rfl
  induction h with
  | inside hn hf ih =>
    intro e' h'
    exact top (fun b' hb' _ => by cases hn.unique hu hb'; exact ih) (.inside hn hf) h'
  | unknown h1 h2 => intro e' h'; exact top (fun b hb _ => (needs_not_unknown hb h1 h2).elim) (.unknown h1 h2) h'
  | optional h1 h2 h3 =>
    intro e' h'
    exact top (fun b hb hf => by cases hb.unique hu (.optional h1); exact absurd h2 (hf.no_meaning hu _)) (.optional h1 h2 h3) h'
  | array h1 h2 h3 =>
    intro e' h'
    exact top (fun b hb hf => by cases hb.unique hu (.array h1); exact absurd h2 (hf.no_meaning hu _)) (.array h1 h2 h3) h'
  | extension h1 h2 h3 =>
    intro e' h'
    exact top (fun b hb hf => by cases hb.unique hu (.extension h1); exact absurd h2 (hf.no_meaning hu _)) (.extension h1 h2 h3) h'
  | typedef h1 h2 h3 =>
    intro e' h'
    exact top (fun b hb hf => by cases hb.unique hu (.typedef h1); exact absurd h2 (hf.no_meaning hu _)) (.typedef h1 h2 h3) h'

theorem Spec.TypesFault.unique {D : AbiDef} (hu : ∀ k d d', Declares D k d → Declares D k d' → d = d') {ts : List Bytes} {e e' : Err} (h : TypesFault D ts e)
    (h' : TypesFault D ts e') : e = e' := by
  induction h with
  | here h =>
    cases h' with
    | here h' => exact h.unique hu h'
    | later hd _ => exact absurd hd (h.no_meaning hu _)
  | later hd _ ih =>
    cases h' with
    | here h' => exact absurd hd (h'.no_meaning hu _)
    | later _ h' => exact ih h'

theorem Spec.TypesFault.no_meaning {D : AbiDef} (hu : ∀ k d d', Declares D k d → Declares D k d' → d = d') {ts : List Bytes} {e : Err} (h : TypesFault D ts e) :
    ∀ (fs : List FieldDef) (l : List Field), fs.map (·.type) = ts → ¬ FieldsOf D fs l := by
  induction h with
  | here h =>
    intro fs l hm hf
    cases hf with
    | nil => cases hm
    | cons hd _ =>
      simp only [List.map_cons, List.cons.injEq] at hm
      obtain ⟨rfl, -⟩ := hm
      exact h.no_meaning hu _ hd
  | later _ _ ih =>
    intro fs l hm hf
    cases hf with
    | nil => cases hm
    | cons hd hf =>
      simp only [List.map_cons, List.cons.injEq] at hm
      exact ih _ _ hm.2 hf

theorem Spec.StructFault.no_meaning {D : AbiDef} (hu : ∀ k d d', Declares D k d → Declares D k d' → d = d') {s : StructDef} {e : Err} (h : StructFault D s e) :
    ∀ l, ¬ StructFields D s l := by
  induction h with
  | base hb h =>
    intro l hl
    cases hl with
    | root h1 _ => exact hb h1
    | derived _ hd _ _ _ => exact h.no_meaning hu _ hd
    | fromBuiltin _ hd _ _ => exact h.no_meaning hu _ hd
  | noStruct hb h h1 h2 =>
    intro l hl
    cases hl with
    | root h1 _ => exact hb h1
    | derived _ hd h3 _ _ => cases h.unique hu hd; exact h1 _ h3
    | fromBuiltin _ hd h3 _ => cases h.unique hu hd; exact h2 _ h3
  | inherited hb h h1 _ ih =>
    intro l hl
    cases hl with
    | root h1 _ => exact hb h1
    | derived _ hd h3 h4 _ => cases h.unique hu hd; cases hu _ _ _ h1 h3; exact ih _ h4
    | fromBuiltin _ hd h3 _ => cases h.unique hu hd; cases hu _ _ _ h1 h3
  | root hb h =>
    intro l hl
    cases hl with
    | root _ hf => exact h.no_meaning hu _ _ rfl hf
    | derived h1 _ _ _ _ => exact h1 hb
    | fromBuiltin h1 _ _ _ => exact h1 hb
  | own hb h h1 _ h2 =>
    intro l hl
    cases hl with
    | root h1 _ => exact hb h1
    | derived _ _ _ _ hf => exact h2.no_meaning hu _ _ rfl hf
    | fromBuiltin _ _ _ hf => exact h2.no_meaning hu _ _ rfl hf
  | ownBuiltin hb h h1 h2 =>
    intro l hl
    cases hl with
    | root h1 _ => exact hb h1
    | derived _ _ _ _ hf => exact h2.no_meaning hu _ _ rfl hf
    | fromBuiltin _ _ _ hf => exact h2.no_meaning hu _ _ rfl hf

theorem Spec.StructFault.unique {D : AbiDef} (hu : ∀ k d d', Declares D k d → Declares D k d' → d = d') {s : StructDef} {e : Err} (h : StructFault D s e) :
    ∀ {e' : Err}, StructFault D s e' → e = e' := by
  induction h with
  | base hb h =>
    intro e' h'
    cases h' with
    | base _ h' => exact h.unique hu h'
    | noStruct _ hd _ _ => exact absurd hd (h.no_meaning hu _)
    | inherited _ hd _ _ => exact absurd hd (h.no_meaning hu _)
    | root h1 _ => exact absurd h1 hb
    | own _ hd _ _ _ => exact absurd hd (h.no_meaning hu _)
    | ownBuiltin _ hd _ _ => exact absurd hd (h.no_meaning hu _)
  | noStruct hb h h1 h2 =>
    intro e' h'
    cases h' with
    | base _ h' => exact absurd h (h'.no_meaning hu _)
    | noStruct _ hd _ _ => rfl
    | inherited _ hd h3 _ => cases h.unique hu hd; exact absurd h3 (h1 _)
    | root h1 _ => exact absurd h1 hb
    | own _ hd h3 _ _ => cases h.unique hu hd; exact absurd h3 (h1 _)
    | ownBuiltin _ hd h3 _ => cases h.unique hu hd; exact absurd h3 (h2 _)
  | inherited hb h h1 h2 ih =>
    intro e' h'
    cases h' with
    | base _ h' => exact absurd h (h'.no_meaning hu _)
    | noStruct _ hd h3 _ => cases h.unique hu hd; exact absurd h1 (h3 _)
    | inherited _ hd h3 h4 => cases h.unique hu hd; cases hu _ _ _ h1 h3; exact ih h4
    | root h1 _ => exact absurd h1 hb
    | own _ hd h3 h4 _ => cases h.unique hu hd; cases hu _ _ _ h1 h3; exact absurd h4 (h2.no_meaning hu _)
    | ownBuiltin _ hd h3 _ => cases h.unique hu hd; cases hu _ _ _ h1 h3
  | root hb h =>
    intro e' h'
    cases h' with
    | root _ h' => exact h.unique hu h'
    | base h1 _ => exact absurd hb h1
    | noStruct h1 _ _ _ => exact absurd hb h1
    | inherited h1 _ _ _ => exact absurd hb h1
    | own h1 _ _ _ _ => exact absurd hb h1
    | ownBuiltin h1 _ _ _ => exact absurd hb h1
  | own hb h h1 h2 h3 =>
    intro e' h'
    cases h' with
    | base _ h' => exact absurd h (h'.no_meaning hu _)
    | noStruct _ hd h3 _ => cases h.unique hu hd; exact absurd h1 (h3 _)
    | inherited _ hd h3 h4 => cases h.unique hu hd; cases hu _ _ _ h1 h3; exact absurd h2 (h4.no_meaning hu _)
    | root h1 _ => exact absurd h1 hb
    | own _ _ _ _ h' => exact h3.unique hu h'
    | ownBuiltin _ _ _ h' => exact h3.unique hu h'
  | ownBuiltin hb h h1 h2 =>
    intro e' h'
    cases h' with
    | base _ h' => exact absurd h (h'.no_meaning hu _)
    | noStruct _ hd _ h3 => cases h.unique hu hd; exact absurd h1 (h3 _)
    | inherited _ hd h3 h4 => cases h.unique hu hd; cases hu _ _ _ h1 h3
    | root h1 _ => exact absurd h1 hb
    | own _ _ _ _ h' => exact h2.unique hu h'
    | ownBuiltin _ _ _ h' => exact h2.unique hu h'

theorem declFault_cases {D : AbiDef} {k : Bytes} {e : Err} (h : DeclFault D k e) :
    (∃ t, Declares D k (.aliasDef t) ∧ TypeFault D k e) ∨ (∃ s, Declares D k (.structDef s) ∧ StructFault D s e) ∨
    ∃ v, Declares D k (.variantDef v) ∧ TypesFault D v.types e := by
  cases h with
  | typedef h1 h2 => exact .inl ⟨_, .typedef h1, h2⟩
  | struct h1 h2 => exact .inr (.inl ⟨_, .struct h1, h2⟩)
  | variant h1 h2 => exact .inr (.inr ⟨_, .variant h1, h2⟩)

theorem Spec.DeclFault.unique {D : AbiDef} (hu : ∀ k d d', Declares D k d → Declares D k d' → d = d') {k : Bytes} {e e' : Err} (h : DeclFault D k e)
    (h' : DeclFault D k e') : e = e' := by
  rcases declFault_cases h with ⟨t, h1, h2⟩ | ⟨s, h1, h2⟩ | ⟨v, h1, h2⟩ <;> rcases declFault_cases h' with ⟨t', g1, g2⟩ | ⟨s', g1, g2⟩ | ⟨v', g1, g2⟩ <;>
    cases hu _ _ _ h1 g1
  · exact h2.unique hu g2
  · exact h2.unique hu g2
  · exact h2.unique hu g2

theorem Spec.DeclFault.no_meaning {D : AbiDef} (hu : ∀ k d d', Declares D k d → Declares D k d' → d = d') {k : Bytes} {e : Err} (h : DeclFault D k e) (d : TData) :
    ¬ Meaning D k d := by
  intro hm
  rcases declFault_cases h with ⟨t, h1, h2⟩ | ⟨s, h1, h2⟩ | ⟨v, h1, h2⟩
  · cases hm with
    | typedef g1 g2 => exact h2.no_meaning hu _ g2
    | optional g _ _ => exact g _ h1
    | array g _ _ => exact g _ h1
    | extension g _ _ => exact g _ h1
    | builtin g => cases hu _ _ _ h1 g
    | extendedAsset g => cases hu _ _ _ h1 g
    | struct g _ => cases hu _ _ _ h1 g
    | variant g _ => cases hu _ _ _ h1 g
  · cases hm with
    | typedef g _ => cases hu _ _ _ h1 g
    | optional g _ _ => exact g _ h1
    | array g _ _ => exact g _ h1
    | extension g _ _ => exact g _ h1
    | builtin g => cases hu _ _ _ h1 g
    | extendedAsset g => cases hu _ _ _ h1 g
    | struct g g2 => cases hu _ _ _ h1 g; exact h2.no_meaning hu _ g2
    | variant g _ => cases hu _ _ _ h1 g
  · cases hm with
    | typedef g _ => cases hu _ _ _ h1 g
    | optional g _ _ => exact g _ h1
    | array g _ _ => exact g _ h1
    | extension g _ _ => exact g _ h1
    | builtin g => cases hu _ _ _ h1 g
    | extendedAsset g => cases hu _ _ _ h1 g
    | struct g _ => cases hu _ _ _ h1 g
    | variant g g2 => cases hu _ _ _ h1 g; exact h2.no_meaning hu _ _ (by rw [List.map_map]; exact List.map_id _) g2

/-! ## The errors of the functions -/

/-- A lookup that fails, fails for a fault of the text or for its depth. -/
theorem getType_fault {D : AbiDef} : ∀ (n : Nat) (name : Bytes) (T : Table) (e : Err), Inv D T → (getType n name T).1 = .error e →
    TypeFault D name e ∨ (e = .recursion_limit_reached ∧ DeepText D n name) := by
  intro n
  induction n with
  | zero =>
    intro name T e h he
    unfold getType at he
    cases he
    exact .inr ⟨rfl, .zero _⟩
  | succ n ih =>
    intro name T e h he
    have next : ∀ {b : Bytes} {e' : Err} {T' : Table}, Needs D name b → getType n b T = (.error e', T') →
        TypeFault D name e' ∨ (e' = .recursion_limit_reached ∧ DeepText D (n + 1) name) := by
      intro b e' T' hn hg
      rcases ih b T e' h (by rw [hg]) with hf | ⟨hr, hd⟩
      · exact .inl (.inside hn hf)
      · exact .inr ⟨hr, .step hn hd⟩
    cases hk : T.get name with
    | none =>
      have hun := h.undeclared hk
      by_cases h1 : endsWith name (str "?") = true
      · obtain ⟨b, rfl⟩ := endsWith_iff.1 h1
        rw [getType_opt hk] at he
        obtain ⟨s1, -, s3⟩ := getType_sound n b T h
        generalize hg : getType n b T = r at he s1 s3
        obtain ⟨r, T'⟩ := r
        cases r with
        | error e' => cases he; exact next (.optional hun) hg
        | ok p =>
          obtain ⟨q1, q2⟩ := s3 p rfl
          simp only at he
          split at he
          · rename_i hw
            cases he
            exact .inl (.optional hun q1 ((s1.wrapper q2).1 hw))
          · cases he
      · by_cases h2 : endsWith name (str "[]") = true
        · obtain ⟨b, rfl⟩ := endsWith_iff.1 h2
          rw [getType_arr hk] at he
          obtain ⟨s1, -, s3⟩ := getType_sound n b T h
          generalize hg : getType n b T = r at he s1 s3
          obtain ⟨r, T'⟩ := r
          cases r with
          | error e' => cases he; exact next (.array hun) hg
          | ok p =>
            obtain ⟨q1, q2⟩ := s3 p rfl
            simp only at he
            split at he
            · rename_i hw
              cases he
              exact .inl (.array hun q1 ((s1.wrapper q2).1 hw))
            · cases he
        · by_cases h3 : endsWith name (str "$") = true
          · obtain ⟨b, rfl⟩ := endsWith_iff.1 h3
            rw [getType_ext hk] at he
            obtain ⟨s1, -, s3⟩ := getType_sound n b T h
            generalize hg : getType n b T = r at he s1 s3
            obtain ⟨r, T'⟩ := r
            cases r with
            | error e' => cases he; exact next (.extension hun) hg
            | ok p =>
              obtain ⟨q1, q2⟩ := s3 p rfl
              simp only at he
              split at he
              · rename_i hw
                cases he
                exact .inl (.extension hun q1 ((s1.ext q2).1 hw))
              · cases he
          · unfold getType at he
            simp only [hk, h1, h2, h3, Bool.false_eq_true, if_false] at he
            cases he
            refine .inl (.unknown hun fun b => ⟨fun hb => h1 (endsWith_iff.2 ⟨b, hb⟩), fun hb => h2 (endsWith_iff.2 ⟨b, hb⟩),
              fun hb => h3 (endsWith_iff.2 ⟨b, hb⟩)⟩)
    | some d =>
      unfold getType at he
      simp only [hk] at he
      split at he
      · rename_i hc; cases hc
      · cases he
      · rename_i t hc
        cases hc
        have hd := h.pending _ _ hk rfl
        obtain ⟨s1, -, s3⟩ := getType_sound n t T h
        generalize hg : getType n t T = r at he s1 s3
        obtain ⟨r, T'⟩ := r
        cases r with
        | error e' => cases he; exact next (.typedef hd) hg
        | ok p =>
          obtain ⟨q1, q2⟩ := s3 p rfl
          simp only at he
          split at he
          · rename_i hw
            cases he
            exact .inl (.typedef hd q1 ((s1.ext q2).1 hw))
          · cases he
      · cases he

theorem getFields_fault {D : AbiDef} (n : Nat) : ∀ (fs : List FieldDef) (T : Table) (e : Err), Inv D T → (getFields n fs T).1 = .error e →
    TypesFault D (fs.map (·.type)) e ∨ (e = .recursion_limit_reached ∧ ∃ f ∈ fs, DeepText D n f.type) := by
  intro fs
  induction fs with
  | nil => intro T e h he; cases he
  | cons f fs ih =>
    intro T e h he
    unfold getFields at he
    have hf := fun e => getType_fault n f.type T e h
    obtain ⟨s1, -, s3⟩ := getType_sound n f.type T h
    generalize getType n f.type T = r at he hf s1 s3
    obtain ⟨r, T'⟩ := r
    cases r with
    | error e' =>
      cases he
      rcases hf e rfl with hf | ⟨hr, hd⟩
      · exact .inl (.here hf)
      · exact .inr ⟨hr, f, by simp, hd⟩
    | ok p =>
      simp only at he
      have ih := fun e => ih T' e s1
      generalize getFields n fs T' = r at he ih
      obtain ⟨r, T''⟩ := r
      cases r with
      | error e' =>
        cases he
        rcases ih e rfl with hf | ⟨hr, g, hg, hd⟩
        · exact .inl (.later (s3 p rfl).1 hf)
        · exact .inr ⟨hr, g, by simp [hg], hd⟩
      | ok l => cases he

theorem resolveStruct_fault {D : AbiDef} : ∀ (n : Nat) (s : StructDef) (T : Table) (e : Err), Inv D T → (resolveStruct n s T).1 = .error e →
    StructFault D s e ∨ (e = .recursion_limit_reached ∧ DeepStruct D n s) := by
  intro n
  induction n with
  | zero =>
    intro s T e h he
    unfold resolveStruct at he
    cases he
    exact .inr ⟨rfl, .zero _⟩
  | succ n ih =>
    intro s T e h he
    have own : ∀ (T0 : Table) (base : List Field), Inv D T0 → (TypesFault D (s.fields.map (·.type)) e → StructFault D s e) →
        (match getFields n s.fields T0 with
          | (.error e, T') => (Except.error e, T')
          | (.ok l, T') => (.ok (base ++ l), T')).1 = .error e → StructFault D s e ∨ (e = .recursion_limit_reached ∧ DeepStruct D (n + 1) s) := by
      intro T0 base h0 hs he
      have hf := fun e => getFields_fault n s.fields T0 e h0
      generalize getFields n s.fields T0 = r at he hf
      obtain ⟨r, T'⟩ := r
      cases r with
      | error e' =>
        cases he
        rcases hf e rfl with hf | ⟨hr, g, hg, hd⟩
        · exact .inl (hs hf)
        · exact .inr ⟨hr, .field hg hd⟩
      | ok l => cases he
    unfold resolveStruct at he
    simp only at he
    split at he
    · rename_i hb
      exact own T [] h (.root hb) he
    · rename_i hb
      have hf := fun e => getType_fault n s.base T e h
      obtain ⟨h1, h2, h3⟩ := getType_sound n s.base T h
      generalize getType n s.base T = r at h1 h2 h3 he hf
      obtain ⟨r, T1⟩ := r
      cases r with
      | error e' =>
        cases he
        rcases hf e rfl with hf | ⟨hr, hd⟩
        · exact .inl (.base hb hf)
        · exact .inr ⟨hr, .base hb hd⟩
      | ok p =>
        obtain ⟨g1, g2⟩ := h3 p rfl
        simp only at h1 h2 g2 he
        split at he
        · rename_i bd hk
          have hd := h1.pending _ _ hk rfl
          have ih := fun e => ih bd T1 e h1
          obtain ⟨e1, e2, e3⟩ := resolveStruct_sound n bd T1 h1
          generalize resolveStruct n bd T1 = r at e1 e2 e3 he ih
          obtain ⟨r, T2⟩ := r
          cases r with
          | error e' =>
            cases he
            rcases ih e rfl with hf | ⟨hr, hx⟩
            · exact .inl (.inherited hb g1 hd hf)
            · exact .inr ⟨hr, .inherited hb g1 hd hx⟩
          | ok fs =>
            obtain ⟨l1, l2⟩ := e3 fs rfl
            simp only at e1 e2 l2 he
            obtain ⟨d', c1, c2, -⟩ := e2.keep _ _ hk
            have hc : (TData.struct fs).cls = d'.cls := c2.symm
            exact own (T2.set p (.struct fs)) fs (e1.set c1 hc rfl (.struct hd l1) (by simpa [TData.ptrs] using l2)) (.own hb g1 hd l1) he
        · rename_i fs hk
          refine own T1 fs h1 (fun hf => ?_) he
          cases h1.meaning _ _ hk rfl with
          | extendedAsset hd => exact .ownBuiltin hb g1 hd hf
          | struct hd hs => exact .own hb g1 hd hs hf
        · rename_i n1 n2
          cases he
          refine .inl (.noStruct hb g1 (fun b hd => ?_) fun fs hd => ?_)
          · obtain ⟨d, hk⟩ := h1.decls _ _ hd
            cases hr : d.resolved with
            | false => cases h1.unique _ _ _ hd (h1.pending _ _ hk hr); exact n1 _ hk
            | true =>
              cases h1.meaning _ _ hk hr with
              | struct g _ => exact n2 _ hk
              | builtin g => cases h1.unique _ _ _ hd g
              | extendedAsset g => cases h1.unique _ _ _ hd g
              | variant g _ => cases h1.unique _ _ _ hd g
              | typedef g _ => cases h1.unique _ _ _ hd g
              | optional g _ _ => exact g _ hd
              | array g _ _ => exact g _ hd
              | extension g _ _ => exact g _ hd
          · obtain ⟨d, hk⟩ := h1.decls _ _ hd
            cases hr : d.resolved with
            | false => cases h1.unique _ _ _ hd (h1.pending _ _ hk hr); cases hr
            | true =>
              cases h1.meaning _ _ hk hr with
              | struct g _ => exact n2 _ hk
              | builtin g => cases h1.unique _ _ _ hd g
              | extendedAsset g => exact n2 _ hk
              | variant g _ => cases h1.unique _ _ _ hd g
              | typedef g _ => cases h1.unique _ _ _ hd g
              | optional g _ _ => exact g _ hd
              | array g _ _ => exact g _ hd
              | extension g _ _ => exact g _ hd

theorem declares_aliasDef {D : AbiDef} {k t : Bytes} (h : Declares D k (.aliasDef t)) : ∃ x ∈ D.types, x.newName = k ∧ x.type = t := by
  generalize hd : TData.aliasDef t = d at h
  cases h <;> cases hd
  exact ⟨_, ‹_›, rfl, rfl⟩

theorem declares_structDef {D : AbiDef} {k : Bytes} {s : StructDef} (h : Declares D k (.structDef s)) : s ∈ D.structs ∧ s.name = k := by
  generalize hd : TData.structDef s = d at h
  cases h <;> cases hd
  exact ⟨‹_›, rfl⟩

theorem declares_variantDef {D : AbiDef} {k : Bytes} {v : VariantDef} (h : Declares D k (.variantDef v)) : v ∈ D.variants ∧ v.name = k := by
  generalize hd : TData.variantDef v = d at h
  cases h <;> cases hd
  exact ⟨‹_›, rfl⟩

theorem fill_fault {D : AbiDef} {k : Bytes} {d : TData} {T : Table} (h : Inv D T) (hk : T.get k = some d) {e : Err} (he : (fill k d T).1 = .error e) :
    DeclFault D k e ∨ (e = .recursion_limit_reached ∧ TooDeep D) := by
  unfold fill at he
  split at he
  · rename_i t
    have hd := h.pending _ _ hk rfl
    obtain ⟨x, hx, rfl, rfl⟩ := declares_aliasDef hd
    have hf := fun e => getType_fault 31 x.type T e h
    obtain ⟨s1, -, s3⟩ := getType_sound 31 x.type T h
    generalize getType 31 x.type T = r at s1 s3 hf he
    obtain ⟨r, T'⟩ := r
    cases r with
    | error e' =>
      cases he
      rcases hf e rfl with hf | ⟨hr, hd'⟩
      · exact .inl (.typedef hx (.inside (.typedef hd) hf))
      · exact .inr ⟨hr, .inl ⟨x, hx, hd'⟩⟩
    | ok p =>
      obtain ⟨g1, g2⟩ := s3 p rfl
      simp only at he
      split at he
      · rename_i hw
        cases he
        exact .inl (.typedef hx (.typedef hd g1 ((s1.ext g2).1 hw)))
      · cases he
  · rename_i sd
    obtain ⟨hs, rfl⟩ := declares_structDef (h.pending _ _ hk rfl)
    have hf := fun e => resolveStruct_fault 32 sd T e h
    generalize resolveStruct 32 sd T = r at hf he
    obtain ⟨r, T'⟩ := r
    cases r with
    | error e' =>
      cases he
      rcases hf e rfl with hf | ⟨hr, hd'⟩
      · exact .inl (.struct hs hf)
      · exact .inr ⟨hr, .inr (.inl ⟨sd, hs, hd'⟩)⟩
    | ok p => cases he
  · rename_i vd
    obtain ⟨hs, rfl⟩ := declares_variantDef (h.pending _ _ hk rfl)
    have hf := fun e => getFields_fault 31 (vd.types.map fun t => ⟨t, t⟩) T e h
    have er : resolveVariant 32 vd T = getFields 31 (vd.types.map fun t => ⟨t, t⟩) T := rfl
    rw [er] at he
    generalize getFields 31 (vd.types.map fun t => ⟨t, t⟩) T = r at hf he
    obtain ⟨r, T'⟩ := r
    cases r with
    | error e' =>
      cases he
      rcases hf e rfl with hf | ⟨hr, f, hf, hd'⟩
      · rw [List.map_map] at hf
        exact .inl (.variant hs (by rw [← List.map_id vd.types]; exact hf))
      · obtain ⟨t, ht, rfl⟩ := List.mem_map.1 hf
        exact .inr ⟨hr, .inr (.inr ⟨vd, hs, t, ht, hd'⟩)⟩
    | ok p => cases he
  · cases he

theorem loop_fault {D : AbiDef} {s : FillState} (h : LoopInv D s) {e : Err} (he : Ends stepFill s (.error e)) :
    FirstFault D e ∨ (e = .recursion_limit_reached ∧ TooDeep D) := by
  obtain ⟨n, hn⟩ := he
  induction n generalizing s with
  | zero => cases hn
  | succ n ih =>
    unfold iter at hn
    split at hn
    · rename_i e' hs
      cases hn
      unfold stepFill at hs
      split at hs
      · cases hs
      · rename_i k d hx
        obtain ⟨h1, h2, h3⟩ := next_some h.inv.sorted hx
        have hf := fill_fault h.inv h1 (e := e)
        generalize fill k d s.table = r at hs hf
        obtain ⟨r, T'⟩ := r
        cases r with
        | ok u => cases hs
        | error e' =>
          cases hs
          rcases hf rfl with hf | hf
          · refine .inl ⟨k, hf, fun k' e' hlt hf' => ?_⟩
            have hdec : ∃ d', Declares D k' d' := by
              rcases declFault_cases hf' with ⟨t, g, -⟩ | ⟨t, g, -⟩ | ⟨t, g, -⟩ <;> exact ⟨_, g⟩
            obtain ⟨d', hdec⟩ := hdec
            obtain ⟨d', hk'⟩ := h.inv.decls _ _ hdec
            by_cases ha : After s.last k'
            · rcases h3 k' d' hk' ha with rfl | hg
              · exact bytes_lt_irrefl _ hlt
              · exact bytes_lt_irrefl _ (bytes_lt_trans hlt hg)
            · exact hf'.no_meaning h.inv.unique d' (h.inv.meaning _ _ hk' (h.done _ _ hk' ha))
          · exact .inr hf
    · cases hn
    · rename_i s1 hs
      exact ih (loopInv_step h hs).1 hn

end Abieos
