import Verif.Proofs.LoadFaults
import Verif.Props.Messages
import Verif.Props.LoaderExample
/-
C73: what a refused ABI definition is told.
-/
namespace Abieos
open Spec Relation

/-- **C73.** If a definition whose names can be declared is refused, then for the reason why the first of its declarations without a meaning has none, in the
order of the names; or for its depth. -/
theorem c73_reason {D : AbiDef} (hn : NamesOk D) {e : Err} (h : LoadTypes D (.error e)) :
    FirstFault D e ∨ (e = .recursion_limit_reached ∧ TooDeep D) := by
  obtain ⟨T, hT⟩ := (addDefs_iff D).2 hn
  unfold LoadTypes at h
  rw [hT] at h
  obtain ⟨r, hr, he⟩ := h
  cases r with
  | ok s => cases he
  | error e' => cases he; exact loop_fault (loopInv_init hT) hr

/-- There is at most one reason. -/
theorem c73_one_reason {D : AbiDef} (hn : NamesOk D) {e e' : Err} (h : FirstFault D e) (h' : FirstFault D e') : e = e' := by
  obtain ⟨k, h1, h2⟩ := h
  obtain ⟨k', g1, g2⟩ := h'
  have : k = k' := by
    by_contra hne
    by_cases hlt : k < k'
    · exact g2 _ _ hlt h1
    · exact h2 _ _ (bytes_lt_of_not hlt (Ne.symm hne)) g1
  subst this
  exact h1.unique (unique_of_namesOk hn) g1

/-- **C73.** A definition with a declaration without a meaning is refused, for the reason why the first one has none, or for its depth. -/
theorem c73_refused {D : AbiDef} (hn : NamesOk D) {k : Bytes} {e : Err} (h : DeclFault D k e) :
    ∃ e', LoadTypes D (.error e') ∧ (FirstFault D e' ∨ (e' = .recursion_limit_reached ∧ TooDeep D)) := by
  obtain ⟨r, hr, -⟩ := c24_terminates D
  cases r with
  | error e' => exact ⟨e', hr, c73_reason hn hr⟩
  | ok T =>
    obtain ⟨hi, hres⟩ := load_result hr
    have hdec : ∃ d', Declares D k d' := by
      rcases declFault_cases h with ⟨t, g, -⟩ | ⟨t, g, -⟩ | ⟨t, g, -⟩ <;> exact ⟨_, g⟩
    obtain ⟨d', hdec⟩ := hdec
    obtain ⟨d', hk⟩ := hi.decls _ _ hdec
    exact absurd (hi.meaning _ _ hk (hres _ _ hk)) (h.no_meaning hi.unique _)

/-- **C73.** A definition that is not too deep is refused exactly for that reason. -/
theorem c73_told {D : AbiDef} (hn : NamesOk D) (hd : ¬ TooDeep D) (e : Err) : LoadTypes D (.error e) ↔ FirstFault D e := by
  constructor
  · intro h
    exact (c73_reason hn h).resolve_right fun h => hd h.2
  · rintro ⟨k, h1, h2⟩
    obtain ⟨e', h3, h4⟩ := c73_refused hn h1
    cases c73_one_reason hn ⟨k, h1, h2⟩ (h4.resolve_right fun h => hd h.2)
    exact h3

/-- The names are finitely many: if something has no meaning, there is a first. -/
theorem firstFault_exists {D : AbiDef} {k : Bytes} {e : Err} (h : DeclFault D k e) : ∃ e', FirstFault D e' := by
  classical
  have mem : ∀ k e, DeclFault D k e → k ∈ declaredNames D := by
    intro k e h
    unfold declaredNames
    cases h with
    | typedef h _ => exact List.mem_append_left _ (List.mem_append_left _ (List.mem_map.2 ⟨_, h, rfl⟩))
    | struct h _ => exact List.mem_append_left _ (List.mem_append_right _ (List.mem_map.2 ⟨_, h, rfl⟩))
    | variant h _ => exact List.mem_append_right _ (List.mem_map.2 ⟨_, h, rfl⟩)
  generalize hl : ((declaredNames D).filter fun j => decide (j < k)).length = n
  induction n using Nat.strongRecOn generalizing k e with
  | _ n ih =>
    by_cases hf : ∃ k' e', k' < k ∧ DeclFault D k' e'
    · obtain ⟨k', e', hlt, hk'⟩ := hf
      refine ih _ ?_ hk' rfl
      subst hl
      have hsub : ((declaredNames D).filter fun j => decide (j < k')).Sublist ((declaredNames D).filter fun j => decide (j < k)) := by
        have he : ((declaredNames D).filter fun j => decide (j < k')) = ((declaredNames D).filter fun j => decide (j < k)).filter fun j => decide (j < k') := by
          rw [List.filter_filter]
          apply List.filter_congr
          intro j _
          by_cases hj : j < k'
          · simp [hj, bytes_lt_trans hj hlt]
          · simp [hj]
        rw [he]
        exact List.filter_sublist
      rcases Nat.lt_or_eq_of_le hsub.length_le with h | h
      · exact h
      · exfalso
        have he := hsub.eq_of_length h
        have : k' ∈ (declaredNames D).filter fun j => decide (j < k) := List.mem_filter.2 ⟨mem _ _ hk', by simpa using hlt⟩
        rw [← he, List.mem_filter] at this
        exact bytes_lt_irrefl k' (by simpa using this.2)
    · exact ⟨e, k, h, fun k' e' hlt hk' => hf ⟨k', e', hlt, hk'⟩⟩

/-- **C73.** A definition that is not too deep loads exactly if its names can be declared and all its declarations have a meaning. -/
theorem c73_loads {D : AbiDef} (hn : NamesOk D) (hd : ¬ TooDeep D) : (∃ T, LoadTypes D (.ok T)) ↔ ∀ k e, ¬ DeclFault D k e := by
  constructor
  · rintro ⟨T, h⟩ k e hf
    obtain ⟨e', h', -⟩ := c73_refused hn hf
    cases load_unique h h'
  · intro hf
    obtain ⟨r, hr, -⟩ := c24_terminates D
    cases r with
    | ok T => exact ⟨T, hr⟩
    | error e =>
      obtain ⟨k, h1, -⟩ := (c73_told hn hd e).1 hr
      exact absurd h1 (hf k e)

/-- **C73.** If only circular typedefs or circular bases are wrong, the reason is the depth. -/
theorem c73_circular {D : AbiDef} (hn : NamesOk D) (hf : ∀ k e, ¬ DeclFault D k e) {a : Bytes} (hc : TransGen (Needs D) a a ∨ TransGen (Inherits D) a a) :
    LoadTypes D (.error .recursion_limit_reached) := by
  have : ∃ e, LoadTypes D (.error e) := hc.elim c24_no_alias_cycles c24_no_inheritance_cycles
  obtain ⟨e, he⟩ := this
  rcases c73_reason hn he with ⟨k, h, -⟩ | ⟨rfl, -⟩
  · exact absurd h (hf k e)
  · exact he

/-- The reasons, and how they are told. -/
theorem typeFault_kinds {D : AbiDef} {k : Bytes} {e : Err} (h : TypeFault D k e) : e = .unknown_type ∨ e = .invalid_nesting ∨ e = .extension_typedef := by
  induction h with
  | inside _ _ ih => exact ih
  | _ => simp

theorem typesFault_kinds {D : AbiDef} {ts : List Bytes} {e : Err} (h : TypesFault D ts e) : e = .unknown_type ∨ e = .invalid_nesting ∨ e = .extension_typedef := by
  induction h with
  | here h => exact typeFault_kinds h
  | later _ _ ih => exact ih

theorem structFault_kinds {D : AbiDef} {s : StructDef} {e : Err} (h : StructFault D s e) :
    (e = .unknown_type ∨ e = .invalid_nesting ∨ e = .extension_typedef) ∨ e = .base_not_a_struct := by
  induction h with
  | base _ h => exact .inl (typeFault_kinds h)
  | noStruct _ _ _ _ => exact .inr rfl
  | inherited _ _ _ _ ih => exact ih
  | root _ h => exact .inl (typesFault_kinds h)
  | own _ _ _ _ h => exact .inl (typesFault_kinds h)
  | ownBuiltin _ _ _ h => exact .inl (typesFault_kinds h)

theorem declFault_kinds {D : AbiDef} {k : Bytes} {e : Err} (h : DeclFault D k e) :
    (e = .unknown_type ∨ e = .invalid_nesting ∨ e = .extension_typedef) ∨ e = .base_not_a_struct := by
  cases h with
  | typedef _ h => exact .inl (typeFault_kinds h)
  | struct _ h => exact structFault_kinds h
  | variant _ h => exact .inl (typesFault_kinds h)

/-- **C73.** The call that asks to load such a definition fails and tells the reason. -/
theorem c73_says {env : Env} {c : Ctx} {q : Call} {k : Nat} {D : AbiDef} (hq : AsksToLoad env q k D) (hn : NamesOk D) (hd : ¬ TooDeep D) {e : Err}
    (hf : FirstFault D e) {w : Bytes} (hw : MessageOf e w) : Says env c q w :=
  c67_load hq ((c73_told hn hd e).2 hf) hw

/-- **C73.** A definition that is too deep may be refused with `Recursion limit reached` instead. -/
theorem c73_says_any {env : Env} {c : Ctx} {q : Call} {k : Nat} {D : AbiDef} (hq : AsksToLoad env q k D) (hn : NamesOk D) {j : Bytes} {e : Err}
    (hf : DeclFault D j e) : (∃ e' w, FirstFault D e' ∧ MessageOf e' w ∧ Says env c q w) ∨ (TooDeep D ∧ Says env c q (str "Recursion limit reached")) := by
  obtain ⟨e', h1, h2⟩ := c73_refused hn hf
  rcases h2 with h2 | ⟨rfl, h2⟩
  · refine .inl ⟨e', str e'.what, h2, ?_, ?_⟩
    · obtain ⟨i, h3, -⟩ := h2
      rcases declFault_kinds h3 with (rfl | rfl | rfl) | rfl <;> exact what_messageOf _ (by decide) (by decide)
    · obtain ⟨i, h3, -⟩ := h2
      refine c67_load hq h1 ?_
      rcases declFault_kinds h3 with (rfl | rfl | rfl) | rfl <;> exact what_messageOf _ (by decide) (by decide)
  · exact .inr ⟨h2, c67_load hq h1 (what_messageOf _ (by decide) (by decide))⟩

/-- **C73.** Circular typedefs or bases in a definition that is right otherwise are told as `Recursion limit reached`. -/
theorem c73_says_circular {env : Env} {c : Ctx} {q : Call} {k : Nat} {D : AbiDef} (hq : AsksToLoad env q k D) (hn : NamesOk D) (hf : ∀ k e, ¬ DeclFault D k e)
    {a : Bytes} (hc : TransGen (Needs D) a a ∨ TransGen (Inherits D) a a) : Says env c q (str "Recursion limit reached") :=
  c67_load hq (c73_circular hn hf hc) (what_messageOf _ (by decide) (by decide))

/-! ## An example -/
namespace LoadFaultsExample
open Abieos.LoaderExample

/-- If each step makes a number smaller, the number bounds the depth. -/
theorem deepText_rank {D : AbiDef} (r : Bytes → Nat) (hr : ∀ a b, Needs D a b → r b < r a) {n : Nat} {k : Bytes} (h : DeepText D n k) : n ≤ r k := by
  induction h with
  | zero => exact Nat.zero_le _
  | step hn _ ih => have := hr _ _ hn; omega

/-- Two structs with a fault each. The one declared last has the smaller name, and counts. -/
def D : AbiDef := with' [] [⟨str "b", [], [⟨str "x", str "int8[]?"⟩]⟩, ⟨str "a", str "zzz", []⟩]

theorem undeclared {k : Bytes} (h : (k == str "a" || k == str "b" || k == str "extended_asset" || Builtin.all.any fun b => k == b.typeName) = false) :
    Undeclared D k := by
  intro d hd
  rw [← Bool.not_eq_true] at h
  apply h
  simp only [Bool.or_eq_true, beq_iff_eq, List.any_eq_true]
  cases hd with
  | builtin b => exact .inr ⟨b, builtin_mem_all b, rfl⟩
  | extendedAsset => exact .inl (.inr rfl)
  | typedef ht => simp [D, with'] at ht
  | struct ht => simp [D, with'] at ht; rcases ht with rfl | rfl <;> simp
  | variant ht => simp [D, with'] at ht

theorem noSuffix {k : Bytes} (h : (endsWith k (str "?") || endsWith k (str "[]") || endsWith k (str "$")) = false) : NoSuffix k := by
  simp only [Bool.or_eq_false_iff] at h
  obtain ⟨⟨h1, h2⟩, h3⟩ := h
  intro b
  refine ⟨fun e => ?_, fun e => ?_, fun e => ?_⟩
  · rw [endsWith_iff.2 ⟨b, e⟩] at h1; cases h1
  · rw [endsWith_iff.2 ⟨b, e⟩] at h2; cases h2
  · rw [endsWith_iff.2 ⟨b, e⟩] at h3; cases h3

theorem fault_a : DeclFault D (str "a") .unknown_type :=
  .struct (s := ⟨str "a", str "zzz", []⟩) (by decide) (.base (by decide) (.unknown (undeclared (by decide +kernel)) (noSuffix (by decide +kernel))))

theorem fault_b : DeclFault D (str "b") .invalid_nesting :=
  .struct (s := ⟨str "b", [], [⟨str "x", str "int8[]?"⟩]⟩) (by decide) (.root rfl
    (.here (.optional (b := str "int8[]") (undeclared (by decide +kernel)) (.array (b := str "int8") (undeclared (by decide +kernel))
      (.declared (.builtin .int8) (by simp)) (fun h => h _ (.builtin .int8))) (undeclared (by decide +kernel)))))

theorem first : FirstFault D .unknown_type := by
  refine ⟨str "a", fault_a, fun k' e' hlt h => ?_⟩
  cases h with
  | typedef ht => simp [D, with'] at ht
  | variant ht => simp [D, with'] at ht
  | struct ht =>
    simp only [D, with', List.mem_cons, List.not_mem_nil, or_false] at ht
    rcases ht with rfl | rfl <;> revert hlt <;> decide

theorem names : NamesOk D := (addDefs_iff D).1 (by
  cases h : addDefs D.decls builtinTable with
  | ok T => exact ⟨T, rfl⟩
  | error e =>
    have : (match addDefs D.decls builtinTable with | .ok _ => true | .error _ => false) = true := by decide +kernel
    rw [h] at this; cases this)

theorem needs_shorter (a b : Bytes) (h : Needs D a b) : b.length < a.length := by
  cases h with
  | typedef h =>
    obtain ⟨x, hx, -⟩ := declares_aliasDef h
    simp [D, with'] at hx
  | optional _ => simp [str]
  | array _ => simp [str]
  | extension _ => simp [str]

theorem shallow : ¬ TooDeep D := by
  have deep : ∀ {n k}, DeepText D n k → n ≤ k.length := fun h => deepText_rank (D := D) List.length needs_shorter h
  rintro (⟨t, ht, -⟩ | ⟨s, hs, h⟩ | ⟨v, hv, -⟩)
  · simp [D, with'] at ht
  · simp only [D, with', List.mem_cons, List.not_mem_nil, or_false] at hs
    generalize hn : 32 = n at h
    rcases hs with rfl | rfl
    · cases h with
      | zero => cases hn
      | base hb _ => exact hb rfl
      | inherited hb _ _ _ => exact hb rfl
      | field hf hd =>
        simp only [List.mem_cons, List.not_mem_nil, or_false] at hf
        subst hf
        have := deep hd
        have h7 : (str "int8[]?").length = 7 := rfl
        simp only [h7] at this
        omega
    · cases h with
      | zero => cases hn
      | base hb hd =>
        have := deep hd
        have h3 : (str "zzz").length = 3 := rfl
        simp only [h3] at this
        omega
      | inherited hb hd _ _ =>
        exact (TypeFault.unknown (D := D) (undeclared (k := str "zzz") (by decide +kernel)) (noSuffix (by decide +kernel))).no_meaning
          (unique_of_namesOk names) _ hd
      | field hf _ => cases hf
  · simp [D, with'] at hv

example : LoadTypes D (.error .unknown_type) := (c73_told names shallow _).2 first

/-- The hypotheses of `c73_circular` are met by the circular definition of C24. -/
theorem cyclic_no_fault {k : Bytes} {e : Err} (h : TypeFault cyclic k e) :
    k ≠ str "a" ∧ k ≠ str "b" ∧ k ≠ str "b" ++ str "[]" ∧ k ≠ str "a" ++ str "?" := by
  have hn : NamesOk cyclic := (addDefs_iff cyclic).1 (by
    cases h : addDefs cyclic.decls builtinTable with
    | ok T => exact ⟨T, rfl⟩
    | error e =>
      have : (match addDefs cyclic.decls builtinTable with | .ok _ => true | .error _ => false) = true := by decide +kernel
      rw [h] at this; cases this)
  have hu := unique_of_namesOk hn
  have na : Needs cyclic (str "a") (str "b" ++ str "[]") := .typedef (.typedef (t := ⟨str "a", str "b[]"⟩) (by decide))
  have nb : Needs cyclic (str "b") (str "a" ++ str "?") := .typedef (.typedef (t := ⟨str "b", str "a?"⟩) (by decide))
  have nba : Needs cyclic (str "b" ++ str "[]") (str "b") := .array (cyclic_undeclared (by decide +kernel))
  have nao : Needs cyclic (str "a" ++ str "?") (str "a") := .optional (cyclic_undeclared (by decide +kernel))
  have no : ∀ {x y : Bytes} {p : Ptr}, Needs cyclic x y → (x = str "a" ∨ x = str "b" ∨ x = str "b" ++ str "[]" ∨ x = str "a" ++ str "?") → ¬ Denotes cyclic y p := by
    intro x y p hxy hx hd
    have hw := denotes_acc hu hd
    have hc : TransGen (Needs cyclic) y y := by
      rcases hx with rfl | rfl | rfl | rfl
      · cases na.unique hu hxy; exact .head nba (.head nb (.head nao (.single na)))
      · cases nb.unique hu hxy; exact .head nao (.head na (.head nba (.single nb)))
      · cases nba.unique hu hxy; exact .head nb (.head nao (.head na (.single nba)))
      · cases nao.unique hu hxy; exact .head na (.head nba (.head nb (.single nao)))
    have acc_no : ∀ z, Acc (fun b a => Needs cyclic a b) z → ¬ TransGen (Needs cyclic) z z := by
      intro z hz
      induction hz with
      | intro z _ ih =>
        intro hzz
        cases TransGen.head'_iff.1 hzz with
        | intro w hw =>
          exact ih w hw.1 (Relation.TransGen.tail' hw.2 hw.1)
    exact acc_no _ hw hc
  induction h with
  | unknown h1 h2 =>
    refine ⟨?_, ?_, ?_, ?_⟩ <;> rintro rfl
    · exact needs_not_unknown na h1 h2
    · exact needs_not_unknown nb h1 h2
    · exact needs_not_unknown nba h1 h2
    · exact needs_not_unknown nao h1 h2
  | inside h1 _ ih =>
    refine ⟨?_, ?_, ?_, ?_⟩ <;> rintro rfl
    · cases na.unique hu h1; exact ih.2.2.1 rfl
    · cases nb.unique hu h1; exact ih.2.2.2 rfl
    · cases nba.unique hu h1; exact ih.2.1 rfl
    · cases nao.unique hu h1; exact ih.1 rfl
  | optional h1 h2 _ =>
    refine ⟨fun h => ?_, fun h => ?_, fun h => ?_, fun h => ?_⟩ <;> exact no (.optional h1) (by simp [h]) h2
  | array h1 h2 _ =>
    refine ⟨fun h => ?_, fun h => ?_, fun h => ?_, fun h => ?_⟩ <;> exact no (.array h1) (by simp [h]) h2
  | extension h1 h2 _ =>
    refine ⟨fun h => ?_, fun h => ?_, fun h => ?_, fun h => ?_⟩ <;> exact no (.extension h1) (by simp [h]) h2
  | typedef h1 h2 _ =>
    refine ⟨fun h => ?_, fun h => ?_, fun h => ?_, fun h => ?_⟩ <;> exact no (.typedef h1) (by simp [h]) h2

example : ∀ k e, ¬ DeclFault cyclic k e := by
  intro k e h
  cases h with
  | typedef ht hf =>
    have := cyclic_no_fault hf
    simp only [cyclic, with', List.mem_cons, List.not_mem_nil, or_false] at ht
    rcases ht with rfl | rfl
    · exact this.1 rfl
    · exact this.2.1 rfl
  | struct ht => simp [cyclic, with'] at ht
  | variant ht => simp [cyclic, with'] at ht

end LoadFaultsExample
end Abieos
