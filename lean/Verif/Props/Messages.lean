import Verif.Spec.CallMessages
import Verif.Props.Malformed
import Verif.Proofs.Shown
/-!
**C67.** The error texts of failed calls.
-/
namespace Abieos
open Spec

theorem what_messageOf (e : Err) (h1 : e ≠ .ub) (h2 : e ≠ .alloc) : MessageOf e (str e.what) := by
  unfold MessageOf
  refine ⟨e.what, ?_, rfl⟩
  cases e with
  | ub => exact absurd rfl h1
  | alloc => exact absurd rfl h2
  | text m => cases m <;> decide
  | _ => decide

theorem says_of {env : Env} {c : Ctx} {q : Call} {w : Bytes} (h : ∀ o, Step env (some c) q o → ∃ c' r, o = .done (some c') r ∧ Failure r ∧ c'.lastError = w) :
    Says env c q w := by
  intro o ho
  obtain ⟨c', r, h1, h2, h3⟩ := h o ho
  exact ⟨c', r, h1, h2, by rw [← h3]; rfl⟩

theorem handled_says {ev : Ret} {c : Ctx} {f : Ctx → Out → Prop} {w : Bytes} (hev : Failure ev)
    (h : ∀ x, f c x → (∃ c', x = .throws c' w) ∨ ∃ c' r, x = .returns c' r ∧ Failure r ∧ c'.lastError = w) :
    ∀ o, Handled ev (some c) f o → ∃ c' r, o = .done (some c') r ∧ Failure r ∧ c'.lastError = w := by
  intro o ho
  obtain ⟨x, h1, rfl⟩ := handled_iff.1 ho
  rcases h x h1 with ⟨c', rfl⟩ | ⟨c', r, rfl, h2, h3⟩
  · exact ⟨_, _, rfl, hev, rfl⟩
  · exact ⟨_, _, rfl, h2, h3⟩

theorem failure_false : Failure (.bool false) := rfl
theorem failure_none : Failure (.str none) := rfl

theorem hex_says {env : Env} {c : Ctx} {k : Nat} {t s : Option Bytes} {b w : Bytes} (hb : unhexLoop (cstr s) = some b)
    (h : ∀ o, CallConvertBin env k t (some b) (some c) o → ∃ c' r, o = .done (some c') r ∧ Failure r ∧ c'.lastError = w) :
    ∀ o, Step env (some c) (.hexToJson k t s) o → ∃ c' r, o = .done (some c') r ∧ Failure r ∧ c'.lastError = w := by
  intro o ho
  obtain ⟨x, h1, rfl⟩ := handled_iff.1 ho
  unfold ConvertHex at h1
  simp only [hb] at h1
  obtain ⟨y, h2, rfl⟩ := h1
  obtain ⟨c', r, rfl, h3, h4⟩ := h _ h2
  exact ⟨c', r, rfl, h3, h4⟩

theorem hexLoad_says {env : Env} {c : Ctx} {k : Nat} {s : Option Bytes} {b w : Bytes} (hb : unhexLoop (cstr s) = some b)
    (h : ∀ o, CallSetAbiBin k (some b) (some c) o → ∃ c' r, o = .done (some c') r ∧ Failure r ∧ c'.lastError = w) :
    ∀ o, Step env (some c) (.setAbiHex k s) o → ∃ c' r, o = .done (some c') r ∧ Failure r ∧ c'.lastError = w := by
  intro o ho
  obtain ⟨x, h1, rfl⟩ := handled_iff.1 ho
  unfold SetAbiHex at h1
  simp only [hb] at h1
  obtain ⟨y, h2, rfl⟩ := h1
  obtain ⟨c', r, rfl, h3, h4⟩ := h _ h2
  exact ⟨c', r, rfl, h3, h4⟩

/-- **C67.** As long as nothing was loaded for a contract, calls about it say so, except those that decode binary data, which only say that
decoding failed. -/
theorem c67_not_loaded {env : Env} {h : List (Call × Ret)} {c : Ctx} (hc : Calls env (some Ctx.init) h (some c)) {k : Nat}
    (hn : ∀ q D, ¬ FirstLoad env h k q D) :
    (∀ q, ((∃ n, q = .typeForAction k n) ∨ (∃ n, q = .typeForTable k n) ∨ (∃ t j, q = .jsonToBin k t j) ∨ ∃ t j, q = .jsonToBinReorderable k t j) →
      Says env c q (str "contract \"" ++ nameToString k ++ str "\" is not loaded")) ∧
    (∀ t d, Says env c (.binToJson k t d) (str "binary decode error")) ∧
    ∀ t s b, unhexLoop (cstr s) = some b → Says env c (.hexToJson k t s) (str "binary decode error") := by
  have ha : c.contracts.lookup k = none := by
    rcases (calls_hasDef hc).2.2 k rfl with ⟨q, D, h1, -⟩ | ⟨h1, -⟩
    · exact absurd h1 (hn q D)
    · exact h1
  have hbin : ∀ t d o, CallConvertBin env k t d (some c) o → ∃ c' r, o = .done (some c') r ∧ Failure r ∧ c'.lastError = str "binary decode error" := by
    intro t d
    refine handled_says failure_none fun x hx => ?_
    unfold ConvertBin at hx
    simp only [Ctx.lookup_setError, ha] at hx
    subst hx
    exact .inr ⟨_, _, rfl, rfl, rfl⟩
  refine ⟨?_, fun t d => says_of (hbin t d), fun t s b hb => says_of (hex_says hb (hbin t _))⟩
  rintro q (⟨n, rfl⟩ | ⟨n, rfl⟩ | ⟨t, j, rfl⟩ | ⟨t, j, rfl⟩)
  · refine says_of (handled_says failure_none fun x hx => ?_)
    unfold TypeForAction at hx
    simp only [ha] at hx
    exact .inl ⟨_, hx⟩
  · refine says_of (handled_says failure_none fun x hx => ?_)
    unfold TypeForTable at hx
    simp only [ha] at hx
    exact .inl ⟨_, hx⟩
  · refine says_of (handled_says failure_false fun x hx => ?_)
    unfold ConvertJson at hx
    simp only [Ctx.lookup_setError, ha] at hx
    subst hx
    exact .inr ⟨_, _, rfl, rfl, rfl⟩
  · refine says_of (handled_says failure_false fun x hx => ?_)
    unfold ConvertJson at hx
    simp only [Ctx.lookup_setError, ha] at hx
    subst hx
    exact .inr ⟨_, _, rfl, rfl, rfl⟩

/-- **C67.** A name that is no action or no table of the contract: the text says which. -/
theorem c67_no_such {env : Env} {h : List (Call × Ret)} {c : Ctx} (hc : Calls env (some Ctx.init) h (some c)) {k : Nat} {q : Call} {D : AbiDef}
    (hf : FirstLoad env h k q D) (n : Nat) :
    ((∀ t, ¬ ActionType D n t) →
      Says env c (.typeForAction k n) (str "contract \"" ++ nameToString k ++ str "\" does not have action \"" ++ nameToString n ++ str "\"")) ∧
    ((∀ t, ¬ TableType D n t) →
      Says env c (.typeForTable k n) (str "contract \"" ++ nameToString k ++ str "\" does not have table \"" ++ nameToString n ++ str "\"")) := by
  obtain ⟨a, h1, -, h3, h4⟩ := firstLoad_has hc hf
  constructor
  · intro hn
    have hl : D.actionTypes.lookup n = none := by
      cases hl : D.actionTypes.lookup n with
      | none => rfl
      | some t => exact absurd ((lookup_last ActionDef.name ActionDef.type D.actions n t).1 hl) (hn t)
    refine says_of (handled_says failure_none fun x hx => ?_)
    unfold TypeForAction at hx
    simp only [h1, h3, hl] at hx
    exact .inl ⟨_, hx⟩
  · intro hn
    have hl : D.tableTypes.lookup n = none := by
      cases hl : D.tableTypes.lookup n with
      | none => rfl
      | some t => exact absurd ((lookup_last TableDef.name TableDef.type D.tables n t).1 hl) (hn t)
    refine says_of (handled_says failure_none fun x hx => ?_)
    unfold TypeForTable at hx
    simp only [h1, h4, hl] at hx
    exact .inl ⟨_, hx⟩

/-! ## Texts that denote no type -/

theorem denotes_opt {D : AbiDef} {b : Bytes} {q : Ptr} (hu : Undeclared D (b ++ str "?")) (h : Denotes D (b ++ str "?") q) :
    ∃ p, Denotes D b p ∧ ¬ Undeclared D p := by
  generalize hk : b ++ str "?" = k at h hu
  cases h with
  | declared h1 => exact absurd h1 (hu _)
  | typedef h1 => exact absurd h1 (hu _)
  | optional h1 h2 h3 => cases List.append_cancel_right hk; exact ⟨_, h2, h3⟩
  | array h1 => exact absurd hk (opt_ne_arr _ _)
  | extension h1 => exact absurd hk (opt_ne_ext _ _)

theorem denotes_arr {D : AbiDef} {b : Bytes} {q : Ptr} (hu : Undeclared D (b ++ str "[]")) (h : Denotes D (b ++ str "[]") q) :
    ∃ p, Denotes D b p ∧ ¬ Undeclared D p := by
  generalize hk : b ++ str "[]" = k at h hu
  cases h with
  | declared h1 => exact absurd h1 (hu _)
  | typedef h1 => exact absurd h1 (hu _)
  | optional h1 h2 h3 => exact absurd hk.symm (opt_ne_arr _ _)
  | array h1 h2 h3 => cases List.append_cancel_right hk; exact ⟨_, h2, h3⟩
  | extension h1 => exact absurd hk (arr_ne_ext _ _)

theorem denotes_ext {D : AbiDef} {b : Bytes} {q : Ptr} (hu : Undeclared D (b ++ str "$")) (h : Denotes D (b ++ str "$") q) :
    ∃ p, Denotes D b p ∧ ¬ IsExtText D p := by
  generalize hk : b ++ str "$" = k at h hu
  cases h with
  | declared h1 => exact absurd h1 (hu _)
  | typedef h1 => exact absurd h1 (hu _)
  | optional h1 h2 h3 => exact absurd hk.symm (opt_ne_ext _ _)
  | array h1 h2 h3 => exact absurd hk.symm (arr_ne_ext _ _)
  | extension h1 h2 h3 => cases List.append_cancel_right hk; exact ⟨_, h2, h3⟩

theorem Spec.NoType.undeclared {D : AbiDef} {n : Nat} {k : Bytes} {m : String} (h : NoType D n k m) : Undeclared D k := by
  cases h <;> assumption

theorem Spec.NoType.not_denotes {D : AbiDef} (hu : ∀ k p q, Denotes D k p → Denotes D k q → p = q) {n : Nat} {k : Bytes} {m : String} (h : NoType D n k m) :
    ∀ p, ¬ Denotes D k p := by
  induction h with
  | unknown h1 h2 =>
    intro p hp
    cases hp with
    | declared h3 => exact h1 _ h3
    | typedef h3 => exact h1 _ h3
    | optional => exact (h2 _).1 rfl
    | array => exact (h2 _).2.1 rfl
    | extension => exact (h2 _).2.2 rfl
  | inOptional h1 h2 ih => intro p hp; obtain ⟨q, hq, -⟩ := denotes_opt h1 hp; exact ih q hq
  | inArray h1 h2 ih => intro p hp; obtain ⟨q, hq, -⟩ := denotes_arr h1 hp; exact ih q hq
  | inExtension h1 h2 ih => intro p hp; obtain ⟨q, hq, -⟩ := denotes_ext h1 hp; exact ih q hq
  | optional h1 h2 h3 => intro p hp; obtain ⟨q, hq, hn⟩ := denotes_opt h1 hp; rw [hu _ _ _ hq h2] at hn; exact hn h3
  | array h1 h2 h3 => intro p hp; obtain ⟨q, hq, hn⟩ := denotes_arr h1 hp; rw [hu _ _ _ hq h2] at hn; exact hn h3
  | extension h1 h2 h3 => intro p hp; obtain ⟨q, hq, hn⟩ := denotes_ext h1 hp; rw [hu _ _ _ hq h2] at hn; exact hn h3

theorem Loaded.get_none {D : AbiDef} {T : Table} (h : Loaded D T) {k : Bytes} (hu : Undeclared D k) (hn : ∀ p, ¬ Denotes D k p) : T.get k = none := by
  cases hg : T.get k with
  | none => rfl
  | some d =>
    cases h.1.meaning _ _ hg (h.2 _ _ hg) with
    | builtin h5 => exact absurd h5 (hu _)
    | extendedAsset h5 => exact absurd h5 (hu _)
    | struct h5 => exact absurd h5 (hu _)
    | variant h5 => exact absurd h5 (hu _)
    | typedef h5 => exact absurd h5 (hu _)
    | optional h1 h2 h3 => exact absurd (.optional h1 h2 h3) (hn _)
    | array h1 h2 h3 => exact absurd (.array h1 h2 h3) (hn _)
    | extension h1 h2 h3 => exact absurd (.extension h1 h2 h3) (hn _)

/-- What is denoted is found in three steps. -/
theorem getType_three {D : AbiDef} {T : Table} (h : Loaded D T) {k : Bytes} {p : Ptr} (hd : Denotes D k p) (n : Nat) : (getType (n + 3) k T).1 = .ok p := by
  by_cases hx : IsExtText D k
  · cases hd with
    | declared h1 => exact absurd h1 (hx.1 _)
    | typedef h1 => exact absurd h1 (hx.1 _)
    | optional h1 => obtain ⟨-, b, hb⟩ := hx; exact absurd hb (opt_ne_ext _ _)
    | array h1 => obtain ⟨-, b, hb⟩ := hx; exact absurd hb (arr_ne_ext _ _)
    | extension h1 h2 h3 =>
      have hb : ¬ IsExtText D _ := fun hb => h3 (by rw [denotes_undeclared hb.1 h2]; exact hb)
      exact getType_wrap h.1 (p := _) (getType_noext h h2 hb _) (fun T' i hp => by simpa using mt (i.ext hp).1 h3) getType_ext h1
  · exact getType_noext h hd hx _

theorem getType_noType {D : AbiDef} {T : Table} (h : Loaded D T) {n : Nat} {k : Bytes} {m : String} (hn : NoType D n k m) :
    ∀ f, ∃ e : Err, (getType (n + 1 + f) k T).1 = .error e ∧ e.what = m := by
  have hu : ∀ k p q, Denotes D k p → Denotes D k q → p = q := fun k p q => Denotes.unique h.1.unique
  induction hn with
  | unknown h1 h2 =>
    intro f
    have hg := h.get_none h1 (NoType.not_denotes hu (.unknown h1 h2))
    refine ⟨.unknown_type, ?_, rfl⟩
    rw [Nat.add_comm, getType, hg]
    simp only
    rw [if_neg fun h => by obtain ⟨c, hc⟩ := endsWith_iff.1 h; exact (h2 c).1 hc,
      if_neg fun h => by obtain ⟨c, hc⟩ := endsWith_iff.1 h; exact (h2 c).2.1 hc,
      if_neg fun h => by obtain ⟨c, hc⟩ := endsWith_iff.1 h; exact (h2 c).2.2 hc]
  | @inOptional n b m h1 h2 ih =>
    intro f
    have hg := h.get_none h1 (NoType.not_denotes hu (.inOptional h1 h2))
    obtain ⟨e, he, hw⟩ := ih f
    refine ⟨e, ?_, hw⟩
    rw [show n + 1 + 1 + f = (n + 1 + f) + 1 by omega, getType_opt hg]
    generalize getType (n + 1 + f) b T = r at he
    obtain ⟨r, T'⟩ := r
    cases he
    rfl
  | @inArray n b m h1 h2 ih =>
    intro f
    have hg := h.get_none h1 (NoType.not_denotes hu (.inArray h1 h2))
    obtain ⟨e, he, hw⟩ := ih f
    refine ⟨e, ?_, hw⟩
    rw [show n + 1 + 1 + f = (n + 1 + f) + 1 by omega, getType_arr hg]
    generalize getType (n + 1 + f) b T = r at he
    obtain ⟨r, T'⟩ := r
    cases he
    rfl
  | @inExtension n b m h1 h2 ih =>
    intro f
    have hg := h.get_none h1 (NoType.not_denotes hu (.inExtension h1 h2))
    obtain ⟨e, he, hw⟩ := ih f
    refine ⟨e, ?_, hw⟩
    rw [show n + 1 + 1 + f = (n + 1 + f) + 1 by omega, getType_ext hg]
    generalize getType (n + 1 + f) b T = r at he
    obtain ⟨r, T'⟩ := r
    cases he
    rfl
  | @optional b p h1 h2 h3 =>
    intro f
    have hg := h.get_none h1 (NoType.not_denotes hu (.optional h1 h2 h3))
    refine ⟨.invalid_nesting, ?_, rfl⟩
    have he := getType_three h h2 f
    obtain ⟨i, -, hs⟩ := getType_sound (f + 3) b T h.1
    have hs := (hs p he).2
    rw [show 3 + 1 + f = (f + 3) + 1 by omega, getType_opt hg]
    generalize getType (f + 3) b T = r at he hs i
    obtain ⟨r, T'⟩ := r
    cases he
    simp only
    rw [if_pos ((i.wrapper hs).2 h3)]
  | @array b p h1 h2 h3 =>
    intro f
    have hg := h.get_none h1 (NoType.not_denotes hu (.array h1 h2 h3))
    refine ⟨.invalid_nesting, ?_, rfl⟩
    have he := getType_three h h2 f
    obtain ⟨i, -, hs⟩ := getType_sound (f + 3) b T h.1
    have hs := (hs p he).2
    rw [show 3 + 1 + f = (f + 3) + 1 by omega, getType_arr hg]
    generalize getType (f + 3) b T = r at he hs i
    obtain ⟨r, T'⟩ := r
    cases he
    simp only
    rw [if_pos ((i.wrapper hs).2 h3)]
  | @extension b p h1 h2 h3 =>
    intro f
    have hg := h.get_none h1 (NoType.not_denotes hu (.extension h1 h2 h3))
    refine ⟨.invalid_nesting, ?_, rfl⟩
    have he := getType_three h h2 f
    obtain ⟨i, -, hs⟩ := getType_sound (f + 3) b T h.1
    have hs := (hs p he).2
    rw [show 3 + 1 + f = (f + 3) + 1 by omega, getType_ext hg]
    generalize getType (f + 3) b T = r at he hs i
    obtain ⟨r, T'⟩ := r
    cases he
    simp only
    rw [if_pos ((i.ext hs).2 h3)]

theorem getType_errors {T : Table} (hr : ∀ k d, T.get k = some d → d.resolved = true) : ∀ (n : Nat) (k : Bytes) (e : Err), (getType n k T).1 = .error e →
    e = .unknown_type ∨ e = .invalid_nesting ∨ e = .recursion_limit_reached := by
  intro n
  induction n with
  | zero => intro k e h; cases h; simp
  | succ n ih =>
    have wrap : ∀ (b : Bytes) (bad : Table → Ptr → Bool) (res : Ptr → Table → Res Ptr × Table) (e : Err), (∀ p T', (res p T').1 ≠ .error e) →
        (match getType n b T with
          | (.error e, T') => ((.error e, T') : Res Ptr × Table)
          | (.ok p, T') => if bad T' p then (.error .invalid_nesting, T') else res p T').1 = .error e →
        e = .unknown_type ∨ e = .invalid_nesting ∨ e = .recursion_limit_reached := by
      intro b bad res e hres h
      have ih := ih b
      generalize getType n b T = r at h ih
      obtain ⟨r, T'⟩ := r
      cases r with
      | error e' => cases h; exact ih _ rfl
      | ok p =>
        simp only at h
        split at h
        · cases h; simp
        · exact absurd h (hres _ _)
    intro k e h
    rw [getType] at h
    split at h
    · split at h
      · exact wrap _ (fun T' p => T'.isWrapperAt p) (fun p T' => (.ok k, T'.emplace k (.optional p))) e (fun _ _ h => by cases h) h
      · split at h
        · exact wrap _ (fun T' p => T'.isWrapperAt p) (fun p T' => (.ok k, T'.emplace k (.array p))) e (fun _ _ h => by cases h) h
        · split at h
          · exact wrap _ (fun T' p => T'.isExtAt p) (fun p T' => (.ok k, T'.emplace k (.extension p))) e (fun _ _ h => by cases h) h
          · cases h; simp
    · cases h
    · rename_i ht; cases hr _ _ ht
    · cases h

/-- The call cannot find the type, and says why. -/
theorem conversion_says {env : Env} {c : Ctx} {k : Nat} {a : Abi} {type : Bytes} {e : Err} (ha : c.contracts.lookup k = some a)
    (he : (lookupType type a.types).1 = .error e) (hub : e ≠ .ub) {q : Call} (hq : ConvertsType q k type) : Says env c q (str e.what) := by
  have hj : ∀ {conv broken} {json : Bytes} (x : Out), ConvertJson env conv broken k type json c x → (∃ c', x = .throws c' (str e.what)) ∨
      ∃ c' r, x = .returns c' r ∧ Failure r ∧ c'.lastError = str e.what := by
    intro conv broken json x hx
    unfold ConvertJson at hx
    simp only [Ctx.lookup_setError, ha] at hx
    generalize lookupType type a.types = r at hx he
    obtain ⟨r, T⟩ := r
    cases he
    simp only at hx
    rw [failed, if_neg hub] at hx
    exact .inl ⟨_, hx⟩
  have hb : ∀ {t d} o, cstr t = type → CallConvertBin env k t d (some c) o → ∃ c' r, o = .done (some c') r ∧ Failure r ∧ c'.lastError = str e.what := by
    intro t d o ht
    refine handled_says failure_none (fun x hx => ?_) o
    rw [ht] at hx
    unfold ConvertBin at hx
    simp only [Ctx.lookup_setError, ha] at hx
    generalize lookupType type a.types = r at hx he
    obtain ⟨r, T⟩ := r
    cases he
    simp only at hx
    rw [failed, if_neg hub] at hx
    exact .inl ⟨_, hx⟩
  cases q with
  | jsonToBin k' t j =>
    obtain ⟨rfl, rfl⟩ := hq
    exact says_of (handled_says failure_false fun x hx => hj x hx)
  | jsonToBinReorderable k' t j =>
    obtain ⟨rfl, rfl⟩ := hq
    exact says_of (handled_says failure_false fun x hx => hj x hx)
  | binToJson k' t d =>
    obtain ⟨rfl, ht⟩ := hq
    exact says_of fun o => hb o ht
  | hexToJson k' t s =>
    obtain ⟨rfl, ht, b, hs⟩ := hq
    exact says_of (hex_says hs fun o => hb o ht)
  | _ => cases hq

/-- **C67.** A conversion for a type text that denotes no type of the definition says why, as long as it has at most 31 suffixes. -/
theorem c67_no_type {env : Env} {h : List (Call × Ret)} {c : Ctx} (hc : Calls env (some Ctx.init) h (some c)) {k : Nat} {q : Call} {D : AbiDef}
    (hf : FirstLoad env h k q D) {type : Bytes} {n : Nat} {m : String} (ht : NoType D n type m) (hn : n ≤ 31) {q' : Call} (hq : ConvertsType q' k type) :
    Says env c q' (str m) := by
  obtain ⟨a, h1, h2, -⟩ := firstLoad_has hc hf
  obtain ⟨e, he, rfl⟩ := getType_noType (loaded_of h2) ht (31 - n)
  rw [show n + 1 + (31 - n) = 32 by omega] at he
  refine conversion_says h1 he ?_ hq
  rcases getType_errors (loaded_of h2).2 _ _ _ he with rfl | rfl | rfl <;> decide

/-- **C67.** A conversion for any type text that denotes no type says `Unknown type`, `Invalid nesting` or `Recursion limit reached`. -/
theorem c67_no_type_any {env : Env} {h : List (Call × Ret)} {c : Ctx} (hc : Calls env (some Ctx.init) h (some c)) {k : Nat} {q : Call} {D : AbiDef}
    (hf : FirstLoad env h k q D) {type : Bytes} (ht : ∀ p, ¬ Denotes D type p) {q' : Call} (hq : ConvertsType q' k type) :
    Says env c q' (str "Unknown type") ∨ Says env c q' (str "Invalid nesting") ∨ Says env c q' (str "Recursion limit reached") := by
  obtain ⟨a, h1, h2, -⟩ := firstLoad_has hc hf
  cases he : (lookupType type a.types).1 with
  | ok p => exact absurd ((c26_lookup h2 type p).1 he) (ht p)
  | error e =>
    rcases getType_errors (loaded_of h2).2 _ _ _ he with rfl | rfl | rfl
    · exact .inl (conversion_says h1 he (by decide) hq)
    · exact .inr (.inl (conversion_says h1 he (by decide) hq))
    · exact .inr (.inr (conversion_says h1 he (by decide) hq))

theorem denotes_of_declared {D : AbiDef} {T : Table} (hD : LoadTypes D (.ok T)) {k : Bytes} (hu : ¬ Undeclared D k) : ∃ p, Denotes D k p := by
  simp only [Undeclared, not_forall, not_not] at hu
  obtain ⟨d, hd⟩ := hu
  by_cases ht : ∃ t, d = .aliasDef t
  · obtain ⟨t, rfl⟩ := ht
    have hl := load_result hD
    obtain ⟨d', h1⟩ := hl.1.decls _ _ hd
    cases hl.1.meaning _ _ h1 (hl.2 _ _ h1) with
    | builtin h5 => exact ⟨_, .declared h5 fun _ h => by cases h⟩
    | extendedAsset h5 => exact ⟨_, .declared h5 fun _ h => by cases h⟩
    | struct h5 => exact ⟨_, .declared h5 fun _ h => by cases h⟩
    | variant h5 => exact ⟨_, .declared h5 fun _ h => by cases h⟩
    | typedef h5 h6 => exact ⟨_, h6⟩
    | optional h5 => exact absurd hd (h5 _)
    | array h5 => exact absurd hd (h5 _)
    | extension h5 => exact absurd hd (h5 _)
  · exact ⟨k, .declared hd fun t h => ht ⟨t, h⟩⟩

/-- **C67.** If a definition can be loaded, each text denotes a type of it, or there is a reason why not. -/
theorem c67_type_or_reason {D : AbiDef} {T : Table} (hD : LoadTypes D (.ok T)) : ∀ (n : Nat) (k : Bytes), k.length ≤ n →
    (∃ p, Denotes D k p) ∨ ∃ j m, NoType D j k m ∧ j ≤ n + 3 := by
  intro n
  induction n with
  | zero =>
    intro k hk
    by_cases hu : Undeclared D k
    · refine .inr ⟨0, _, .unknown hu fun b => ?_, by omega⟩
      have : k = [] := List.length_eq_zero_iff.1 (by omega)
      subst this
      refine ⟨fun h => ?_, fun h => ?_, fun h => ?_⟩ <;> (have := congrArg List.length h; rw [List.length_append] at this; revert this; show 0 = b.length + _ → False; first | exact fun h => by have : (str "?").length = 1 := rfl; omega | exact fun h => by have : (str "[]").length = 2 := rfl; omega | exact fun h => by have : (str "$").length = 1 := rfl; omega)
    · exact .inl (denotes_of_declared hD hu)
  | succ n ih =>
    intro k hk
    by_cases hu : Undeclared D k
    · by_cases h1 : ∃ b, k = b ++ str "?"
      · obtain ⟨b, rfl⟩ := h1
        have hl : (str "?").length = 1 := rfl
        rw [List.length_append] at hk
        rcases ih b (by omega) with ⟨p, hp⟩ | ⟨j, m, h2, h3⟩
        · by_cases hw : Undeclared D p
          · exact .inr ⟨3, _, .optional hu hp hw, by omega⟩
          · exact .inl ⟨_, .optional hu hp hw⟩
        · exact .inr ⟨_, _, .inOptional hu h2, by omega⟩
      by_cases h2 : ∃ b, k = b ++ str "[]"
      · obtain ⟨b, rfl⟩ := h2
        have hl : (str "[]").length = 2 := rfl
        rw [List.length_append] at hk
        rcases ih b (by omega) with ⟨p, hp⟩ | ⟨j, m, h2, h3⟩
        · by_cases hw : Undeclared D p
          · exact .inr ⟨3, _, .array hu hp hw, by omega⟩
          · exact .inl ⟨_, .array hu hp hw⟩
        · exact .inr ⟨_, _, .inArray hu h2, by omega⟩
      by_cases h3 : ∃ b, k = b ++ str "$"
      · obtain ⟨b, rfl⟩ := h3
        have hl : (str "$").length = 1 := rfl
        rw [List.length_append] at hk
        rcases ih b (by omega) with ⟨p, hp⟩ | ⟨j, m, h2, h3⟩
        · by_cases hw : IsExtText D p
          · exact .inr ⟨3, _, .extension hu hp hw, by omega⟩
          · exact .inl ⟨_, .extension hu hp hw⟩
        · exact .inr ⟨_, _, .inExtension hu h2, by omega⟩
      · exact .inr ⟨0, _, .unknown hu fun b => ⟨fun h => h1 ⟨b, h⟩, fun h => h2 ⟨b, h⟩, fun h => h3 ⟨b, h⟩⟩, by omega⟩
    · exact .inl (denotes_of_declared hD hu)

/-! ## Conversions -/

theorem messageOf_what {e : Err} {w : Bytes} (h : MessageOf e w) : e ≠ .ub ∧ w = str e.what := by
  obtain ⟨s, h1, rfl⟩ := h
  have : ∀ x ∈ streamMessages ++ jsonMessages ++ abiMessages ++ checkMessages, x.1 ≠ .ub ∧ x.2 = x.1.what := by decide
  obtain ⟨h2, h3⟩ := this _ h1
  exact ⟨h2, by rw [← h3]⟩

theorem refuses_iff {env : Env} {conv : Table → Leaves → Ptr → JVal → Res Bytes → Prop} {broken : Table → Leaves → Ptr → List Tok → Option Err → Prop}
    (hc : Conv conv broken) {D : AbiDef} {T : Table} (hT : LoadedThen D T) {type json : Bytes} {e : Err} :
    Refuses env conv D type json e ↔ ∃ p v, (lookupType type T).1 = .ok p ∧ env.read json = some v ∧
      conv (lookupType type T).2 env.leaves p v (.error e) := by
  have key : ∀ {T T' : Table}, LoadedThen D T → LoadedThen D T' → ∀ {p : Ptr} {v : JVal}, (lookupType type T).1 = .ok p →
      conv (lookupType type T).2 env.leaves p v (.error e) → (lookupType type T').1 = .ok p ∧ conv (lookupType type T').2 env.leaves p v (.error e) := by
    intro T T' h h' p v hp hr
    have hp' := (c26_lookup h' type p).2 ((c26_lookup h type p).1 hp)
    exact ⟨hp', hc.agree (loaded_of (h.lookup type)) (loaded_of (h'.lookup type)) (c26_found h hp) (c26_found h' hp') hr⟩
  constructor
  · rintro ⟨T0, p, v, h1, h2, h3, h4⟩
    obtain ⟨g1, g2⟩ := key ⟨T0, [], h1, rfl⟩ hT h2 h4
    exact ⟨p, v, g1, h3, g2⟩
  · rintro ⟨p, v, h2, h3, h4⟩
    obtain ⟨T0, names, h1, -⟩ := id hT
    obtain ⟨g1, g2⟩ := key hT ⟨T0, [], h1, rfl⟩ h2 h4
    exact ⟨T0, p, v, h1, g1, h3, g2⟩

theorem decodesTo_iff {env : Env} {D : AbiDef} {T : Table} (hT : LoadedThen D T) {type bin : Bytes} {r : Res (Bytes × Bytes)} :
    DecodesTo env D type bin r ↔ ∃ p, (lookupType type T).1 = .ok p ∧ BinToJson (lookupType type T).2 env.leaves p bin r := by
  have key : ∀ {T T' : Table}, LoadedThen D T → LoadedThen D T' → ∀ {p : Ptr}, (lookupType type T).1 = .ok p →
      BinToJson (lookupType type T).2 env.leaves p bin r →
      (lookupType type T').1 = .ok p ∧ BinToJson (lookupType type T').2 env.leaves p bin r := by
    intro T T' h h' p hp hr
    have hp' := (c26_lookup h' type p).2 ((c26_lookup h type p).1 hp)
    have l := loaded_of (h.lookup type)
    have l' := loaded_of (h'.lookup type)
    exact ⟨hp', (agree_binToJson (agree_loaded l l') l.wf l'.wf ⟨c26_found h hp, c26_found h' hp'⟩ _ _ _).2 hr⟩
  constructor
  · rintro ⟨T0, p, h1, h2, h4⟩
    obtain ⟨g1, g2⟩ := key ⟨T0, [], h1, rfl⟩ hT h2 h4
    exact ⟨p, g1, g2⟩
  · rintro ⟨p, h2, h4⟩
    obtain ⟨T0, names, h1, -⟩ := id hT
    obtain ⟨g1, g2⟩ := key hT ⟨T0, [], h1, rfl⟩ h2 h4
    exact ⟨T0, p, h1, g1, g2⟩

theorem convertJson_tells {env : Env} {conv : Table → Leaves → Ptr → JVal → Res Bytes → Prop} {broken : Table → Leaves → Ptr → List Tok → Option Err → Prop}
    (hconv : Conv conv broken) {c : Ctx} {k : Nat} {D : AbiDef} (hd : HasDef c k D) {type json : Bytes} {e : Err} (hub : e ≠ .ub)
    (hr : Refuses env conv D type json e) : ∀ o, Handled (.bool false) (some c) (ConvertJson env conv broken k type json) o →
      ∃ c' r, o = .done (some c') r ∧ Failure r ∧ c'.lastError = str e.what := by
  obtain ⟨a, ha, h2, -⟩ := hd
  obtain ⟨p, v, g1, g2, g3⟩ := (refuses_iff hconv h2).1 hr
  have hv := c26_found h2 g1
  have hl := loaded_of (h2.lookup type)
  refine handled_says failure_false fun x hx => ?_
  unfold ConvertJson at hx
  simp only [Ctx.lookup_setError, ha] at hx
  generalize lookupType type a.types = r at hx g1 g3 hv hl
  obtain ⟨r, T⟩ := r
  cases g1
  simp only [g2] at hx
  obtain ⟨r, h3, rfl⟩ := hx
  obtain ⟨r', -, hu⟩ := hconv.total (L := env.leaves) v hl.wf hv
  have : r = .error e := (hu _ h3).trans (hu _ g3).symm
  subst this
  simp only
  rw [failed, if_neg hub]
  exact .inl ⟨_, rfl⟩

theorem convertJson_says {env : Env} {conv : Table → Leaves → Ptr → JVal → Res Bytes → Prop} {broken : Table → Leaves → Ptr → List Tok → Option Err → Prop}
    (hconv : Conv conv broken) {c : Ctx} {k : Nat} {D : AbiDef} (hd : HasDef c k D) {type json : Bytes} {e : Err} {w : Bytes} (hw : MessageOf e w)
    (hr : Refuses env conv D type json e) : ∀ o, Handled (.bool false) (some c) (ConvertJson env conv broken k type json) o →
      ∃ c' r, o = .done (some c') r ∧ Failure r ∧ c'.lastError = w := by
  obtain ⟨hub, rfl⟩ := messageOf_what hw
  exact convertJson_tells hconv hd hub hr

/-- **C67.** If the conversion of a document ends with an error, the error to be fetched is that error's text. -/
theorem c67_document {env : Env} {h : List (Call × Ret)} {c : Ctx} (hc : Calls env (some Ctx.init) h (some c)) {k : Nat} {q : Call} {D : AbiDef}
    (hf : FirstLoad env h k q D) {type json : Option Bytes} {e : Err} {w : Bytes} (hw : MessageOf e w) :
    (Refuses env JsonToBin D (cstr type) (cstr json) e → Says env c (.jsonToBin k type json) w) ∧
    (Refuses env JsonToBinReorderable D (cstr type) (cstr json) e → Says env c (.jsonToBinReorderable k type json) w) :=
  ⟨fun hr => says_of (convertJson_says conv_jsonToBin (firstLoad_has hc hf) hw hr),
    fun hr => says_of (convertJson_says conv_reorderable (firstLoad_has hc hf) hw hr)⟩

theorem convertBin_says {env : Env} {c : Ctx} {k : Nat} {D : AbiDef} (hd : HasDef c k D) {t : Option Bytes} {d : Option Bytes} {w : Bytes}
    (hr : (∃ e, MessageOf e w ∧ DecodesTo env D (cstr t) (d.getD []) (.error e)) ∨
      (w = str "Extra data" ∧ ∃ x rest, rest ≠ [] ∧ DecodesTo env D (cstr t) (d.getD []) (.ok (x, rest)))) :
    ∀ o, CallConvertBin env k t d (some c) o → ∃ c' r, o = .done (some c') r ∧ Failure r ∧ c'.lastError = w := by
  obtain ⟨a, ha, h2, -⟩ := hd
  have hl := loaded_of (h2.lookup (cstr t))
  have key : ∀ r0, DecodesTo env D (cstr t) (d.getD []) r0 → ∀ x, ConvertBin env k (cstr t) (d.getD []) c x → ∃ T, x = match r0 with
      | .error e => failed ((c.setError (str "binary decode error")).setTypes k T) e
      | .ok (t, rest) => if rest = [] then .returns { (c.setError (str "binary decode error")).setTypes k T with resultStr := t } (.str (some (cut t)))
        else .throws { (c.setError (str "binary decode error")).setTypes k T with resultStr := t } (str "Extra data") := by
    intro r0 h0 x hx
    obtain ⟨p, g1, g3⟩ := (decodesTo_iff h2).1 h0
    have hv := c26_found h2 g1
    unfold ConvertBin at hx
    simp only [Ctx.lookup_setError, ha] at hx
    generalize lookupType (cstr t) a.types = r at hx g1 g3 hv hl
    obtain ⟨r, T⟩ := r
    cases g1
    simp only at hx
    obtain ⟨r, h3, rfl⟩ := hx
    obtain ⟨r', -, hu⟩ := c32_bin_to_json_terminates (L := env.leaves) hl.wf hv (d.getD [])
    have : r = r0 := (hu _ h3).trans (hu _ g3).symm
    subst this
    refine ⟨T, ?_⟩
    cases r with
    | error e => rfl
    | ok q => rfl
  refine handled_says failure_none fun x hx => ?_
  rcases hr with ⟨e, hw, hr⟩ | ⟨rfl, x', rest, hne, hr⟩
  · obtain ⟨hub, rfl⟩ := messageOf_what hw
    obtain ⟨T, rfl⟩ := key _ hr x hx
    simp only
    rw [failed, if_neg hub]
    exact .inl ⟨_, rfl⟩
  · obtain ⟨T, rfl⟩ := key _ hr x hx
    simp only
    rw [if_neg hne]
    exact .inl ⟨_, rfl⟩

/-- **C67.** If decoding ends with an error, the error to be fetched is that error's text; if it leaves bytes over, it is `Extra data`. -/
theorem c67_binary {env : Env} {h : List (Call × Ret)} {c : Ctx} (hc : Calls env (some Ctx.init) h (some c)) {k : Nat} {q : Call} {D : AbiDef}
    (hf : FirstLoad env h k q D) {type : Option Bytes} {bin w : Bytes}
    (hr : (∃ e, MessageOf e w ∧ DecodesTo env D (cstr type) bin (.error e)) ∨
      (w = str "Extra data" ∧ ∃ t rest, rest ≠ [] ∧ DecodesTo env D (cstr type) bin (.ok (t, rest)))) :
    Says env c (.binToJson k type (some bin)) w ∧ (bin = [] → Says env c (.binToJson k type none) w) ∧
    ∀ hex, unhexLoop (cstr hex) = some bin → Says env c (.hexToJson k type hex) w := by
  refine ⟨says_of (convertBin_says (firstLoad_has hc hf) hr), fun hb => says_of (convertBin_says (firstLoad_has hc hf) ?_), fun hex hb =>
    says_of (hex_says hb (convertBin_says (firstLoad_has hc hf) hr))⟩
  subst hb
  exact hr

/-- **C67.** A text that is not an even number of hex digits is refused as such. -/
theorem c67_not_hex {env : Env} {c : Ctx} {k : Nat} {type hex : Option Bytes} (hn : ¬ ((cstr hex).length % 2 = 0 ∧ ∀ d ∈ cstr hex, IsHexDigit d)) :
    Says env c (.setAbiHex k hex) (str "expected hex string") ∧ Says env c (.hexToJson k type hex) (str "expected hex string") := by
  have hu : unhexLoop (cstr hex) = none := by
    cases hu : unhexLoop (cstr hex) with
    | none => rfl
    | some b => exact absurd ((c03_hex_accepts_iff _).1 ⟨b, (c03_unhex_same _ _).1 hu⟩) hn
  constructor
  · refine says_of (handled_says failure_false fun x hx => ?_)
    unfold SetAbiHex at hx
    simp only [hu] at hx
    subst hx
    exact .inr ⟨_, _, rfl, rfl, rfl⟩
  · refine says_of (handled_says failure_none fun x hx => ?_)
    unfold ConvertHex at hx
    simp only [hu] at hx
    subst hx
    exact .inr ⟨_, _, rfl, rfl, rfl⟩

/-! ## Loading -/

/-- **C67.** Without data there is nothing to load. -/
theorem c67_no_data {env : Env} {c : Ctx} {k : Nat} : Says env c (.setAbiBin k none) (str "no data") ∧ Says env c (.setAbiBin k (some [])) (str "no data") ∧
    ∀ hex, cstr hex = [] → Says env c (.setAbiHex k hex) (str "no data") := by
  have key : ∀ d : Option Bytes, d.getD [] = [] → ∀ o, CallSetAbiBin k d (some c) o → ∃ c' r, o = .done (some c') r ∧ Failure r ∧ c'.lastError = str "no data" := by
    intro d hd
    refine handled_says failure_false fun x hx => ?_
    unfold SetAbiBin at hx
    rw [hd] at hx
    simp only [if_true] at hx
    subst hx
    exact .inr ⟨_, _, rfl, rfl, rfl⟩
  refine ⟨says_of (key _ rfl), says_of (key _ rfl), fun hex hb => says_of (hexLoad_says (b := []) ?_ (key _ rfl))⟩
  rw [hb]
  rfl

theorem setAbiBin_version {c : Ctx} {k : Nat} {b v rest : Bytes} (hb : textFromBin b = .ok (v, rest)) (hv : ¬ ∃ minor, v = str "eosio::abi/1." ++ minor) :
    ∀ o, CallSetAbiBin k (some b) (some c) o → ∃ c' r, o = .done (some c') r ∧ Failure r ∧ c'.lastError = str "unsupported abi version" := by
  have hne : b ≠ [] := by
    rintro rfl
    unfold textFromBin at hb
    rw [show varuint32FromBin [] = .error .overrun by unfold varuint32FromBin; rw [varuintFromBinLoop.eq_def]; rfl] at hb
    cases hb
  refine handled_says failure_false fun x hx => ?_
  unfold SetAbiBin at hx
  simp only [Option.getD_some] at hx
  rw [if_neg hne, hb] at hx
  simp only at hx
  rw [if_neg (mt (versionOk_iff v).1 hv)] at hx
  subst hx
  exact .inr ⟨_, _, rfl, rfl, rfl⟩

/-- **C67.** A definition whose version does not begin with `eosio::abi/1.` is refused as such; in binary form whatever follows the version. -/
theorem c67_version {env : Env} {c : Ctx} {k : Nat} :
    (∀ text v D, env.read (cstr text) = some v → AbiDoc v D → (¬ ∃ minor, D.version = str "eosio::abi/1." ++ minor) →
      Says env c (.setAbi k text) (str "unsupported abi version")) ∧
    ∀ size v rest, SizeRead v.length size → (¬ ∃ minor, v = str "eosio::abi/1." ++ minor) →
      Says env c (.setAbiBin k (some (size ++ (v ++ rest)))) (str "unsupported abi version") ∧
      ∀ hex, unhexLoop (cstr hex) = some (size ++ (v ++ rest)) → Says env c (.setAbiHex k hex) (str "unsupported abi version") := by
  constructor
  · intro text v D hr hD hv
    refine says_of (handled_says failure_false fun x hx => ?_)
    unfold SetAbi at hx
    simp only [hr, (c50_reads_description v D).2 hD] at hx
    rw [if_neg (mt (versionOk_iff _).1 hv)] at hx
    subst hx
    exact .inr ⟨_, _, rfl, rfl, rfl⟩
  · intro size v rest hs hv
    have hb : textFromBin (size ++ (v ++ rest)) = .ok (v, rest) := by
      unfold textFromBin
      rw [varuint32_iff.2 ⟨size, rfl, hs⟩]
      exact readBytes_append _ _ _ rfl
    exact ⟨says_of (setAbiBin_version hb hv), fun hex hx => says_of (hexLoad_says hx (setAbiBin_version hb hv))⟩

theorem install_says {c : Ctx} {k : Nat} {D : AbiDef} {e : Err} (he : LoadTypes D (.error e)) (hub : e ≠ .ub) {x : Out} (hx : Install c k D x) :
    ∃ c', x = .throws c' (str e.what) := by
  obtain ⟨r, h1, rfl⟩ := hx
  cases load_unique h1 he
  simp only
  rw [failed, if_neg hub]
  exact ⟨_, rfl⟩

/-- **C67.** If a definition with the right version cannot be loaded, the error to be fetched is the text of the loader's error. -/
theorem c67_load {env : Env} {c : Ctx} {q : Call} {k : Nat} {D : AbiDef} (hq : AsksToLoad env q k D) {e : Err} (he : LoadTypes D (.error e)) {w : Bytes}
    (hw : MessageOf e w) : Says env c q w := by
  obtain ⟨hub, rfl⟩ := messageOf_what hw
  obtain ⟨hv, hq⟩ := hq
  have hbin : ∀ b, HoldsDef b D → ∀ o, CallSetAbiBin k (some b) (some c) o → ∃ c' r, o = .done (some c') r ∧ Failure r ∧ c'.lastError = str e.what := by
    rintro b ⟨rest, hb⟩
    obtain ⟨r, ht⟩ := abiDef_version hb
    have hne : b ≠ [] := by
      rintro rfl
      unfold textFromBin at ht
      rw [show varuint32FromBin [] = .error .overrun by unfold varuint32FromBin; rw [varuintFromBinLoop.eq_def]; rfl] at ht
      cases ht
    refine handled_says failure_false fun x hx => ?_
    unfold SetAbiBin at hx
    simp only [Option.getD_some] at hx
    rw [if_neg hne, ht] at hx
    simp only at hx
    rw [if_pos ((versionOk_iff _).2 hv), hb] at hx
    exact .inl (install_says he hub hx)
  cases q with
  | setAbi k' text =>
    obtain ⟨rfl, v, hr, hD⟩ := hq
    refine says_of (handled_says failure_false fun x hx => ?_)
    unfold SetAbi at hx
    simp only [hr, (c50_reads_description v D).2 hD] at hx
    rw [if_pos ((versionOk_iff _).2 hv)] at hx
    exact .inl (install_says he hub hx)
  | setAbiBin k' data =>
    obtain ⟨rfl, b, rfl, hb⟩ := hq
    exact says_of (hbin b hb)
  | setAbiHex k' hex =>
    obtain ⟨rfl, b, hx, hb⟩ := hq
    exact says_of (hexLoad_says hx (hbin b hb))
  | _ => cases hq

theorem addDefs_bad : ∀ (l : List (Bytes × TData)) (T : Table) (before after : List Bytes) (k : Bytes), l.map (·.1) = before ++ k :: after →
    before.Nodup → (∀ j ∈ before, j ≠ [] ∧ T.get j = none) → (k = [] ∨ k ∈ before ∨ T.get k ≠ none) →
    addDefs l T = .error (if k = [] then .missing_name else .redefined_type) := by
  intro l
  induction l with
  | nil => intro T before after k h; cases before <;> cases h
  | cons e l ih =>
    intro T before after k h hn hb hk
    obtain ⟨j, d⟩ := e
    cases before with
    | nil =>
      simp only [List.map_cons, List.nil_append, List.cons.injEq] at h
      obtain ⟨rfl, -⟩ := h
      rw [addDefs]
      split
      · rfl
      · rename_i hne
        rcases hk with hk | hk | hk
        · exact absurd hk hne
        · cases hk
        · rw [if_pos (by cases hg : T.get j with | none => exact absurd hg hk | some _ => rfl)]
    | cons i before =>
      simp only [List.map_cons, List.cons_append, List.cons.injEq] at h
      obtain ⟨rfl, h⟩ := h
      obtain ⟨h1, h2⟩ := hb j (by simp)
      rw [addDefs, if_neg h1, h2]
      simp only [Option.isSome_none, Bool.false_eq_true, if_false]
      obtain ⟨h3, h4⟩ := List.nodup_cons.1 hn
      have hg : ∀ i, T.get i = none → (T.emplace j d).get i = if i = j then some d else none := by
        intro i hi
        rw [Table.get_emplace, hi]
      refine ih _ before after k h h4 (fun i hi => ?_) ?_
      · obtain ⟨h5, h6⟩ := hb i (by simp [hi])
        refine ⟨h5, ?_⟩
        rw [hg _ h6, if_neg fun h : i = j => h3 (h ▸ hi)]
      · rcases hk with hk | hk | hk
        · exact .inl hk
        · rcases List.mem_cons.1 hk with rfl | hk
          · exact .inr (.inr (by rw [hg _ h2, if_pos rfl]; simp))
          · exact .inr (.inl hk)
        · refine .inr (.inr ?_)
          rw [Table.get_emplace]
          split
          · simp
          · rename_i hn; exact absurd hn hk

/-- **C67.** The first name of a definition that cannot be declared decides what is said: `Missing name` if it is empty, `Redefined type` otherwise. -/
theorem c67_names {env : Env} {c : Ctx} {q : Call} {k : Nat} {D : AbiDef} (hq : AsksToLoad env q k D) {before : List Bytes} {n : Bytes}
    (hn : FirstBadName D before n) : Says env c q (if n = [] then str "Missing name" else str "Redefined type") := by
  obtain ⟨⟨after, h1⟩, h2, h3, h4⟩ := hn
  have hbn : ∀ j, builtinTable.get j = none ↔ ¬ BuiltinName j := by
    intro j
    constructor
    · rintro hj (rfl | ⟨b, rfl⟩)
      · rw [builtinTable_get_xasset] at hj; cases hj
      · have := List.all_eq_true.1 builtinTable_get_all b (builtin_mem_all b)
        rw [hj] at this
        simp at this
    · intro hj
      cases hg : builtinTable.get j with
      | none => rfl
      | some d =>
        exfalso
        have hd := builtinTable_get ⟨[], [], [], [], [], [], [], [], []⟩ hg
        cases hd with
        | builtin b => exact hj (.inr ⟨b, rfl⟩)
        | extendedAsset => exact hj (.inl rfl)
        | typedef h => cases h
        | struct h => cases h
        | variant h => cases h
  have ha := addDefs_bad D.decls builtinTable before after n (by rw [decls_keys]; exact h1) h2 (fun j hj => ⟨(h3 j hj).1, (hbn j).2 (h3 j hj).2⟩)
    (h4.imp id (Or.imp id fun h hn => (hbn n).1 hn h))
  have hl : LoadTypes D (.error (if n = [] then .missing_name else .redefined_type)) := by
    unfold LoadTypes
    rw [ha]
  refine c67_load hq hl ?_
  split
  · exact what_messageOf .missing_name (by decide) (by decide)
  · exact what_messageOf .redefined_type (by decide) (by decide)

/-- **C67.** The JSON reader's messages (C66) are the texts of its error codes. -/
theorem c67_reader_messages (w : Bytes) : SyntaxMessage w ↔ ∃ m ∈ readerMessages, w = str m := by
  have : syntaxErrors = readerMessages := by decide
  unfold SyntaxMessage
  rw [this]

/-! ## Examples -/

namespace CApiExample
open Abieos.Example Abieos.LoaderExample

/-- Nothing was loaded for `alice`. -/
example : ∃ c, Calls env (some Ctx.init) loads (some c) ∧
    Says env c (.jsonToBin (stringToName (str "alice")) (some (str "s")) (some json)) (str "contract \"alice\" is not loaded") := by
  obtain ⟨c, hc⟩ := loads_calls
  refine ⟨c, hc, ?_⟩
  have hn : ∀ q D, ¬ FirstLoad env loads (stringToName (str "alice")) q D := by
    rintro q D ⟨h1, before, after, h2, -⟩
    have hm : (q, Ret.bool true) ∈ loads := by rw [h2]; simp
    simp only [loads, List.mem_cons, Prod.mk.injEq, and_true, List.not_mem_nil, or_false] at hm
    rcases hm with rfl | rfl | rfl <;> (obtain ⟨-, h, -⟩ := h1; revert h; decide)
  have := (c67_not_loaded hc hn).1 _ (.inr (.inr (.inl ⟨some (str "s"), some json, rfl⟩)))
  rwa [show str "contract \"" ++ nameToString (stringToName (str "alice")) ++ str "\" is not loaded" = str "contract \"alice\" is not loaded" by decide] at this

theorem undeclared_of {D : AbiDef} {T : Table} (hD : LoadTypes D (.ok T)) {k : Bytes} (h : (T.get k).isNone = true) : Undeclared D k := by
  intro d hd
  obtain ⟨d', h1⟩ := (load_result hD).1.decls _ _ hd
  rw [h1] at h
  cases h

theorem noSuffix_of {k : Bytes} (h : (!endsWith k (str "?") && !endsWith k (str "[]") && !endsWith k (str "$")) = true) : NoSuffix k := by
  intro b
  simp only [Bool.and_eq_true, Bool.not_eq_true'] at h
  refine ⟨?_, ?_, ?_⟩ <;> rintro rfl
  · exact absurd (endsWith_append b _) (by rw [h.1.1]; decide)
  · exact absurd (endsWith_append b _) (by rw [h.1.2]; decide)
  · exact absurd (endsWith_append b _) (by rw [h.2]; decide)

/-- `nope[]` is unknown, and an optional array is not allowed. -/
theorem noTypes : NoType abiDef 1 (str "nope" ++ str "[]") "Unknown type" ∧ NoType abiDef 3 (str "string" ++ str "[]" ++ str "?") "Invalid nesting" := by
  constructor
  · exact .inArray (undeclared_of abi_loads (by decide +kernel)) (.unknown (undeclared_of abi_loads (by decide +kernel)) (noSuffix_of (by decide)))
  · have hd : Denotes abiDef (str "string" ++ str "[]") (str "string" ++ str "[]") :=
      (c26_lookup ⟨T1, [], abi_loads, rfl⟩ _ _).1 (by decide +kernel)
    exact .optional (undeclared_of abi_loads (by decide +kernel)) hd (undeclared_of abi_loads (by decide +kernel))

example : ∃ c, Calls env (some Ctx.init) loads (some c) ∧
    Says env c (.jsonToBin 5 (some (str "nope" ++ str "[]")) (some json)) (str "Unknown type") ∧
    Says env c (.binToJson 5 (some (str "string" ++ str "[]" ++ str "?")) none) (str "Invalid nesting") := by
  obtain ⟨c, hc⟩ := loads_calls
  exact ⟨c, hc, c67_no_type hc first5 noTypes.1 (by decide) ⟨rfl, by decide⟩, c67_no_type hc first5 noTypes.2 (by decide) ⟨rfl, by decide⟩⟩

/-- A number that is no `uint8`. -/
example : ∃ c, Calls env (some Ctx.init) loads (some c) ∧
    Says env c (.jsonToBin 5 (some (str "s")) (some (str "{\"a\":[300],\"b\":\"x\"}"))) (str "number is out of range") := by
  obtain ⟨c, hc⟩ := loads_calls
  refine ⟨c, hc, (c67_document hc first5 (what_messageOf .number_out_of_range (by decide) (by decide))).1 ?_⟩
  exact ⟨T1, str "s", _, abi_loads, by decide +kernel, reads_doc (d := .obj [(str "a", .arr [.str (str "300")]), (str "b", .str (str "x"))]) (by decide +kernel),
    tokens_error 40 (by decide +kernel)⟩

/-- A struct that is declared twice, and one with the name of a builtin type. -/
def twice : AbiDef := { abiDef with structs := [⟨str "s", [], []⟩, ⟨str "s", [], []⟩] }

example : FirstBadName twice [str "s"] (str "s") ∧ FirstBadName { abiDef with structs := [⟨str "bool", [], []⟩] } [] (str "bool") := by
  refine ⟨⟨⟨[], rfl⟩, by decide, ?_, .inr (.inl (by simp))⟩, ⟨⟨[], rfl⟩, by decide, by simp, .inr (.inr (.inr ⟨.bool, rfl⟩))⟩⟩
  intro j hj
  rw [List.mem_singleton.1 hj]
  refine ⟨by decide, ?_⟩
  rintro (h | ⟨b, h⟩)
  · revert h; decide
  · cases b <;> revert h <;> decide

end CApiExample

end Abieos
