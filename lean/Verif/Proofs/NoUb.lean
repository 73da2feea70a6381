import Verif.Props.AbiDefJson
import Verif.Props.AbiDefBin
import Verif.Props.Loader
/-
Reading and loading ABI definitions has no undefined behaviour.
-/
namespace Abieos

/-- Not undefined. -/
def Defined {α : Type} (r : Res α) : Prop := r ≠ .error .ub

theorem Defined.ok {α : Type} (a : α) : Defined (.ok a : Res α) := fun h => nomatch h

theorem Defined.error {α : Type} {e : Err} (h : e ≠ .ub) : Defined (.error e : Res α) := fun h' => h (Except.error.inj h')

theorem Defined.bind {α β : Type} {x : Res α} {f : α → Res β} (h : Defined x) (hf : ∀ a, Defined (f a)) : Defined (x >>= f) := by
  cases x with
  | error e => exact .error fun he => h (by rw [he])
  | ok a => exact hf a

theorem Defined.map {α β : Type} {x : Res α} {f : α → β} (h : Defined x) : Defined (x.map f) := by
  cases x with
  | error e => exact .error fun he => h (by rw [he])
  | ok a => exact .ok _

theorem defined_check (c : Bool) {e : Err} (h : e ≠ .ub) : Defined (check c e) := by
  unfold check; split
  · exact .ok _
  · exact .error h

/-! ## Binary -/

theorem defined_readBytes (n : Nat) (s : Bytes) : Defined (readBytes n s) := by
  unfold readBytes; split
  · exact .ok _
  · exact .error (by decide)

theorem defined_varuintLoop (w lim : Nat) : ∀ (s : Bytes) (shift dest : Nat), Defined (varuintFromBinLoop w lim shift dest s)
  | s, shift, dest => by
    rw [varuintFromBinLoop.eq_def]
    simp only
    by_cases h : shift < lim
    · rw [dif_pos h]
      cases s with
      | nil => exact .error (e := .overrun) (by decide)
      | cons b s =>
        simp only
        split
        · exact defined_varuintLoop w lim s _ _
        · exact .ok _
    · rw [dif_neg h]
      exact .error (by decide)

theorem defined_varuint (s : Bytes) : Defined (varuint32FromBin s) := defined_varuintLoop _ _ _ _ _

theorem defined_varuint64 (s : Bytes) : Defined (varuint64FromBin s) := defined_varuintLoop _ _ _ _ _

/-- The reader has no undefined behaviour on any input. -/
def DefinedR {α : Type} (r : Reader α) : Prop := ∀ s, Defined (r s)

theorem defined_text : DefinedR textFromBin := fun _ => (defined_varuint _).bind fun _ => defined_readBytes _ _

theorem defined_all {α : Type} {r : Reader α} (h : DefinedR r) : ∀ n, DefinedR (allFromBin r n)
  | 0 => fun _ => .ok _
  | n + 1 => fun _ => (h _).bind fun _ => (defined_all h n _).bind fun _ => .ok _

theorem defined_vec {α : Type} {r : Reader α} (h : DefinedR r) : DefinedR (vecFromBin r) :=
  fun _ => (defined_varuint _).bind fun _ => defined_all h _ _

theorem defined_chars : DefinedR charsFromBin := fun _ => (defined_varuint64 _).bind fun _ => (defined_check _ (by decide)).bind fun _ =>
  (defined_check _ (by decide)).bind fun _ => defined_readBytes _ _

theorem defined_word (n : Nat) : DefinedR (wordFromBin n) := fun _ => (defined_readBytes _ _).bind fun _ => .ok _

theorem defined_maybe {α : Type} (d : α) {r : Reader α} (h : DefinedR r) : DefinedR (maybeFromBin d r) := fun s => by
  unfold maybeFromBin; split
  · exact .ok _
  · exact h s

theorem defined_typeDef : DefinedR typeDefFromBin := fun _ => (defined_text _).bind fun _ => (defined_text _).bind fun _ => .ok _
theorem defined_fieldDef : DefinedR fieldDefFromBin := fun _ => (defined_text _).bind fun _ => (defined_text _).bind fun _ => .ok _
theorem defined_structDef : DefinedR structDefFromBin := fun _ => (defined_text _).bind fun _ => (defined_text _).bind fun _ =>
  (defined_vec defined_fieldDef _).bind fun _ => .ok _
theorem defined_actionDef : DefinedR actionDefFromBin := fun _ => (defined_word _ _).bind fun _ => (defined_text _).bind fun _ =>
  (defined_text _).bind fun _ => .ok _
theorem defined_tableDef : DefinedR tableDefFromBin := fun _ => (defined_word _ _).bind fun _ => (defined_text _).bind fun _ =>
  (defined_vec defined_text _).bind fun _ => (defined_vec defined_text _).bind fun _ => (defined_text _).bind fun _ => .ok _
theorem defined_clause : DefinedR clauseFromBin := fun _ => (defined_text _).bind fun _ => (defined_text _).bind fun _ => .ok _
theorem defined_errorMessage : DefinedR errorFromBin := fun _ => (defined_word _ _).bind fun _ => (defined_text _).bind fun _ => .ok _
theorem defined_ext : DefinedR extFromBin := fun _ => (defined_word _ _).bind fun _ => (defined_chars _).bind fun _ => .ok _
theorem defined_variantDef : DefinedR variantDefFromBin := fun _ => (defined_text _).bind fun _ => (defined_vec defined_text _).bind fun _ => .ok _

theorem defined_abiDefFromBin : DefinedR abiDefFromBin := fun _ => (defined_text _).bind fun _ =>
  (defined_vec defined_typeDef _).bind fun _ => (defined_vec defined_structDef _).bind fun _ => (defined_vec defined_actionDef _).bind fun _ =>
  (defined_vec defined_tableDef _).bind fun _ => (defined_vec defined_clause _).bind fun _ => (defined_vec defined_errorMessage _).bind fun _ =>
  (defined_vec defined_ext _).bind fun _ => (defined_maybe _ (defined_vec defined_variantDef) _).bind fun _ => .ok _

/-! ## JSON -/

/-- No undefined behaviour on any document. -/
def DefinedJ {α : Type} (r : TokReader α) : Prop := ∃ g, Does r g ∧ ∀ a v, Defined (g a v)

theorem definedJ_str : DefinedJ strFromJson := ⟨_, does_str, fun a v => by cases v <;> first | exact .ok _ | exact .error (by decide)⟩

theorem definedJ_name : DefinedJ nameFromJson := ⟨_, does_name, fun a v => by cases v <;> first | exact .ok _ | exact .error (by decide)⟩

theorem defined_fromJsonUInt (s : Bytes) : Defined (fromJsonInt ⟨false, 64⟩ s) := by
  intro h
  rcases c16_from_json_int_error ⟨false, 64⟩ (by simp [IntTy.Std]) s _ h with h | h <;> cases h

theorem definedJ_uint64 : DefinedJ uint64FromJson := ⟨_, does_uint64, fun a v => by
  cases v <;> first | exact (defined_fromJsonUInt _).map | exact .error (by decide)⟩

theorem definedJ_vec {α : Type} {d : α} {r : TokReader α} (h : DefinedJ r) : DefinedJ (vecFromJson d r) := by
  obtain ⟨g, h1, h2⟩ := h
  refine ⟨_, does_vec h1, fun a v => ?_⟩
  have : ∀ l acc, Defined (elemsSem d g l acc) := by
    intro l
    induction l with
    | nil => exact fun _ => .ok _
    | cons v l ih => exact fun _ => (h2 _ _).bind fun _ => ih _
  cases v <;> first | exact this _ _ | exact .error (by decide)

theorem definedJ_obj {α : Type} {f : Bytes → Option (TokReader α)} (h : ∀ k r, f k = some r → DefinedJ r) : DefinedJ (objFromJson f) := by
  refine ⟨_, does_obj (fun k r hk => ?_), fun a v => ?_⟩
  · obtain ⟨g, h1, -⟩ := h k r hk
    exact does_sem h1
  · have : ∀ l a, Defined (membersSem f l a) := by
      intro l
      induction l with
      | nil => exact fun _ => .ok _
      | cons e l ih =>
        obtain ⟨k, v⟩ := e
        intro a
        rw [membersSem]
        split
        · rename_i r hr
          obtain ⟨g, h1, h2⟩ := h k r hr
          rw [h1.sem]
          exact (h2 _ _).bind fun _ => ih _
        · exact ih _
    cases v <;> first | exact this _ _ | exact .error (by decide)

theorem definedJ_member {α β : Type} {get : α → β} {set : α → β → α} {r : TokReader β} (h : DefinedJ r) : DefinedJ (member get set r) := by
  obtain ⟨g, h1, h2⟩ := h
  exact ⟨_, does_member h1, fun a v => (h2 _ _).map⟩

theorem definedJ_pair : DefinedJ pairFromJson := ⟨_, does_pair, fun _ _ => .error (by decide)⟩

/-- closes `f k = some r → DefinedJ r` for a chain of conditions -/
macro "defined_keys" lems:term,* : tactic => `(tactic| (
  intro k r hk
  simp only [typeKey, fieldKey, structKey, actionKey, tableKey, clauseKey, errorKey, variantKey, abiKey] at hk
  repeat' split at hk
  all_goals first
    | (injection hk with hk; subst hk; first $[| exact definedJ_member $lems]*)
    | cases hk))

theorem definedJ_type : DefinedJ (objFromJson typeKey) := definedJ_obj (by defined_keys definedJ_str)
theorem definedJ_field : DefinedJ (objFromJson fieldKey) := definedJ_obj (by defined_keys definedJ_str)
theorem definedJ_struct : DefinedJ (objFromJson structKey) := definedJ_obj (by defined_keys definedJ_str, definedJ_vec definedJ_field)
theorem definedJ_action : DefinedJ (objFromJson actionKey) := definedJ_obj (by defined_keys definedJ_str, definedJ_name)
theorem definedJ_table : DefinedJ (objFromJson tableKey) := definedJ_obj (by defined_keys definedJ_str, definedJ_name, definedJ_vec definedJ_str)
theorem definedJ_clause : DefinedJ (objFromJson clauseKey) := definedJ_obj (by defined_keys definedJ_str)
theorem definedJ_errorMessage : DefinedJ (objFromJson errorKey) := definedJ_obj (by defined_keys definedJ_str, definedJ_uint64)
theorem definedJ_variant : DefinedJ (objFromJson variantKey) := definedJ_obj (by defined_keys definedJ_str, definedJ_vec definedJ_str)
theorem definedJ_abi : DefinedJ (objFromJson abiKey) := definedJ_obj (by
  defined_keys definedJ_str, definedJ_vec definedJ_type, definedJ_vec definedJ_struct, definedJ_vec definedJ_action, definedJ_vec definedJ_table,
    definedJ_vec definedJ_clause, definedJ_vec definedJ_errorMessage, definedJ_vec definedJ_pair, definedJ_vec definedJ_variant)

theorem defined_abiDefFromJson (v : JVal) : Defined (abiDefFromJson v.toks) := by
  obtain ⟨g, h1, h2⟩ := definedJ_abi
  have := h1 v AbiDef.empty []
  rw [List.append_nil] at this
  rw [abiDefFromJson, this]
  exact (h2 _ _).map.bind fun _ => .ok _

/-! ## Loading -/

theorem defined_getType : ∀ (n : Nat) (name : Bytes) (T : Table), Defined (getType n name T).1
  | 0, _, _ => .error (by decide)
  | n + 1, name, T => by
    have ih := fun name => defined_getType n name T
    unfold getType
    split
    · split
      · have := ih (chop name 1)
        generalize getType n (chop name 1) T = r at this
        obtain ⟨r, T'⟩ := r
        cases r with
        | error e => exact .error fun h => this (by rw [h])
        | ok p => simp only; split <;> first | exact .error (by decide) | exact .ok _
      · split
        · have := ih (chop name 2)
          generalize getType n (chop name 2) T = r at this
          obtain ⟨r, T'⟩ := r
          cases r with
          | error e => exact .error fun h => this (by rw [h])
          | ok p => simp only; split <;> first | exact .error (by decide) | exact .ok _
        · split
          · have := ih (chop name 1)
            generalize getType n (chop name 1) T = r at this
            obtain ⟨r, T'⟩ := r
            cases r with
            | error e => exact .error fun h => this (by rw [h])
            | ok p => simp only; split <;> first | exact .error (by decide) | exact .ok _
          · exact .error (by decide)
    · exact .ok _
    · rename_i target _
      have := ih target
      generalize getType n target T = r at this
      obtain ⟨r, T'⟩ := r
      cases r with
      | error e => exact .error fun h => this (by rw [h])
      | ok p => simp only; split <;> first | exact .error (by decide) | exact .ok _
    · exact .ok _

theorem defined_getFields (n : Nat) : ∀ (fs : List FieldDef) (T : Table), Defined (getFields n fs T).1
  | [], _ => .ok _
  | f :: fs, T => by
    unfold getFields
    have := defined_getType n f.type T
    generalize getType n f.type T = r at this
    obtain ⟨r, T'⟩ := r
    cases r with
    | error e => exact .error fun h => this (by rw [h])
    | ok p =>
      simp only
      have := defined_getFields n fs T'
      generalize getFields n fs T' = r at this
      obtain ⟨r, T''⟩ := r
      cases r with
      | error e => exact .error fun h => this (by rw [h])
      | ok p => exact .ok _

theorem defined_resolveStruct : ∀ (n : Nat) (d : StructDef) (T : Table), Defined (resolveStruct n d T).1
  | 0, _, _ => .error (by decide)
  | n + 1, d, T => by
    have own : ∀ (base : List Field) (T : Table), Defined (match getFields n d.fields T with
        | (.error e, T') => ((.error e, T') : Res (List Field) × Table)
        | (.ok l, T') => (.ok (base ++ l), T')).1 := by
      intro base T
      have := defined_getFields n d.fields T
      generalize getFields n d.fields T = r at this
      obtain ⟨r, T''⟩ := r
      cases r with
      | error e => exact .error fun h => this (by rw [h])
      | ok p => exact .ok _
    unfold resolveStruct
    simp only
    split
    · exact own _ _
    · have := defined_getType n d.base T
      generalize getType n d.base T = r at this
      obtain ⟨r, T'⟩ := r
      cases r with
      | error e => exact .error fun h => this (by rw [h])
      | ok p =>
        simp only
        split
        · rename_i bd _
          have := defined_resolveStruct n bd T'
          generalize resolveStruct n bd T' = r at this
          obtain ⟨r, T''⟩ := r
          cases r with
          | error e => exact .error fun h => this (by rw [h])
          | ok p => exact own _ _
        · exact own _ _
        · exact .error (by decide)

theorem defined_fill (k : Bytes) (d : TData) (T : Table) : Defined (fill k d T).1 := by
  unfold fill
  split
  · rename_i t
    have := defined_getType 31 t T
    generalize getType 31 t T = r at this
    obtain ⟨r, T'⟩ := r
    cases r with
    | error e => exact .error fun h => this (by rw [h])
    | ok p => simp only; split <;> first | exact .error (by decide) | exact .ok _
  · rename_i sd
    have := defined_resolveStruct 32 sd T
    generalize resolveStruct 32 sd T = r at this
    obtain ⟨r, T'⟩ := r
    cases r with
    | error e => exact .error fun h => this (by rw [h])
    | ok p => exact .ok _
  · rename_i vd
    have : Defined (resolveVariant 32 vd T).1 := defined_getFields _ _ _
    generalize resolveVariant 32 vd T = r at this
    obtain ⟨r, T'⟩ := r
    cases r with
    | error e => exact .error fun h => this (by rw [h])
    | ok p => exact .ok _
  · exact .ok _

theorem defined_iter {σ : Type} {step : σ → Res (Option σ)} (h : ∀ s, Defined (step s)) : ∀ (n : Nat) (s : σ) (r : Res σ), iter step n s = some r → Defined r
  | 0, _, _, h' => by simp [iter] at h'
  | n + 1, s, r, h' => by
    unfold iter at h'
    have := h s
    split at h'
    · rename_i e he
      cases h'
      exact .error fun h => this (by rw [he, h])
    · cases h'; exact .ok _
    · exact defined_iter h n _ r h'

theorem defined_addDefs : ∀ (l : List (Bytes × TData)) (T : Table), Defined (addDefs l T)
  | [], _ => .ok _
  | (k, d) :: l, T => by
    unfold addDefs
    split
    · exact .error (by decide)
    · split
      · exact .error (by decide)
      · exact defined_addDefs l _

theorem defined_load {D : AbiDef} {r : Res Table} (h : LoadTypes D r) : Defined r := by
  unfold LoadTypes at h
  split at h
  · rename_i e he
    subst h
    have := defined_addDefs D.decls builtinTable
    exact .error fun h => this (by rw [he, h])
  · obtain ⟨r', ⟨n, h1⟩, rfl⟩ := h
    refine Defined.map (defined_iter (fun s => ?_) n _ _ h1)
    unfold stepFill
    split
    · exact .ok _
    · rename_i k d _
      have := defined_fill k d s.table
      generalize fill k d s.table = r at this
      obtain ⟨r, T'⟩ := r
      cases r with
      | error e => exact .error fun h => this (by rw [h])
      | ok p => exact .ok _

end Abieos
