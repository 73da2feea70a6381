import Verif.Proofs.KeyFaults
import Verif.Proofs.ShortText
import Verif.Props.Messages
import Verif.Props.Wire
import Verif.Props.Defined
import Verif.Props.Truncated
/-
C70: what a refused document is told, read off the definition.
-/
namespace Abieos
open Spec Reader

/-! ## Short documents -/

theorem utf8Bytes_length (n : Nat) : (utf8Bytes n).length ≤ 4 ∧ (n < 128 → (utf8Bytes n).length = 1) := by
  unfold utf8Bytes
  refine ⟨?_, fun h => by rw [if_pos h]; rfl⟩
  split
  · simp
  · split
    · simp
    · split <;> simp

theorem charText_length {t : Bytes} {n : Nat} (h : CharText t n) : (utf8Bytes n).length ≤ t.length := by
  have h4 := (utf8Bytes_length n).1
  cases h with
  | unescaped => exact Nat.le_refl _
  | simple e c h =>
    have : c.toNat < 128 := by
      simp only [simpleEscapes, List.mem_cons, Prod.mk.injEq, List.not_mem_nil, or_false] at h
      rcases h with ⟨-, rfl⟩ | ⟨-, rfl⟩ | ⟨-, rfl⟩ | ⟨-, rfl⟩ | ⟨-, rfl⟩ | ⟨-, rfl⟩ | ⟨-, rfl⟩ | ⟨-, rfl⟩ <;> decide
    rw [(utf8Bytes_length _).2 this]; simp
  | unicode h _ =>
    obtain ⟨a, b, c, d, -, -, -, -, rfl, -⟩ := h
    simp; omega
  | pair h1 h2 _ _ _ _ => simp; omega

theorem charsText_length {t s : Bytes} (h : CharsText t s) : s.length ≤ t.length := by
  induction h with
  | nil => simp
  | cons h _ ih => have := charText_length h; simp; omega

theorem jsonText_shortTexts {t : Bytes} {v : JVal} (h : JsonText t v) : t.length < 2147483648 → ShortTexts v := by
  refine JsonText.rec (motive_1 := fun t v _ => t.length < 2147483648 → ShortTexts v) (motive_2 := fun t l _ => t.length < 2147483648 → ShortTexts.go l)
    (motive_3 := fun t l _ => t.length < 2147483648 → ShortTexts.goM l) ?_ ?_ ?_ ?_ ?_ ?_ ?_ ?_ ?_ ?_ ?_ ?_ ?_ h
  · intro _; simp [ShortTexts]
  · intro _; simp [ShortTexts]
  · intro _; simp [ShortTexts]
  · intro t _ h; simpa [ShortTexts] using h
  · rintro t s ⟨b, h1, rfl⟩ h
    have := charsText_length h1
    simp at h
    simp [ShortTexts]; omega
  · intros; simp [ShortTexts, ShortTexts.go]
  · intro t l _ ih h; simp at h; rw [ShortTexts]; exact ih (by omega)
  · intros; simp [ShortTexts, ShortTexts.goM]
  · intro t l _ ih h; simp at h; rw [ShortTexts]; exact ih (by omega)
  · intro w t w' v _ _ _ ih h; simp at h; exact ⟨ih (by omega), trivial⟩
  · intro w t w' r v l _ _ _ _ ih1 ih2 h; simp at h; exact ⟨ih1 (by omega), ih2 (by omega)⟩
  · intro w k w1 w2 t w' s v _ _ _ _ _ _ ih h; simp at h; exact ⟨ih (by omega), trivial⟩
  · intro w k w1 w2 t w' r s v l _ _ _ _ _ _ _ ih1 ih2 h; simp at h; exact ⟨ih1 (by omega), ih2 (by omega)⟩

theorem isJson_short {t : Bytes} {v : JVal} (h : IsJson t v) (hl : t.length < 2147483648) : ShortArrays v ∧ ShortTexts v := by
  obtain ⟨w, u, w', rfl, -, h, -⟩ := h
  simp at hl
  have := toks_le h
  exact ⟨short_of_toks v (by omega), jsonText_shortTexts h (by omega)⟩

theorem shortTexts_go {l : List JVal} : ShortTexts.go l ↔ ∀ v ∈ l, ShortTexts v := by
  induction l with
  | nil => simp [ShortTexts.go]
  | cons v l ih => simp [ShortTexts.go, ih]

theorem shortTexts_goM {l : List (Bytes × JVal)} : ShortTexts.goM l ↔ ∀ k v, (k, v) ∈ l → ShortTexts v := by
  induction l with
  | nil => simp [ShortTexts.goM]
  | cons p l ih =>
    obtain ⟨k, v⟩ := p
    simp only [ShortTexts.goM, ih, List.mem_cons, Prod.mk.injEq]
    constructor
    · rintro ⟨h1, h2⟩ k' v' (⟨-, rfl⟩ | h)
      · exact h1
      · exact h2 _ _ h
    · intro h; exact ⟨h k v (.inl ⟨rfl, rfl⟩), fun k' v' h' => h k' v' (.inr h')⟩

theorem inherited_short : Inherited (fun v => ShortArrays v ∧ ShortTexts v) where
  arr := by
    rintro l ⟨h1, h2⟩
    rw [ShortArrays] at h1
    rw [ShortTexts] at h2
    exact ⟨h1.1, fun v hv => ⟨shortArrays_go.1 h1.2 v hv, shortTexts_go.1 h2 v hv⟩⟩
  obj := by
    rintro ms ⟨h1, h2⟩ k v hv
    rw [ShortArrays] at h1
    rw [ShortTexts] at h2
    exact ⟨shortArrays_goM.1 h1 k v hv, shortTexts_goM.1 h2 k v hv⟩

/-! ## The calls -/

/-- A conversion says what its result says, and nothing else. -/
theorem conv_says_iff {env : Env} {conv : Table → Leaves → Ptr → JVal → Res Bytes → Prop} {broken : Table → Leaves → Ptr → List Tok → Option Err → Prop}
    (hconv : Conv conv broken) {c : Ctx} {k : Nat} {D : AbiDef} (hd : HasDef c k D) {type json : Bytes} {p : Ptr} {v : JVal} {r0 : Res Bytes}
    (hT : ∀ T, LoadedThen D T → (lookupType type T).1 = .ok p ∧ conv (lookupType type T).2 env.leaves p v r0) (hr : env.read json = some v) (hub : r0 ≠ .error .ub)
    (hex : ∃ o, Handled (.bool false) (some c) (ConvertJson env conv broken k type json) o) (w : Bytes) :
    (∀ o, Handled (.bool false) (some c) (ConvertJson env conv broken k type json) o → ∃ c' r, o = .done (some c') r ∧ Failure r ∧ c'.lastError = w) ↔
      ∃ e, r0 = .error e ∧ w = str e.what := by
  obtain ⟨a, ha, h2, h3⟩ := id hd
  obtain ⟨hp, hc⟩ := hT _ h2
  have hval := c26_found h2 hp
  have hl := loaded_of (h2.lookup type)
  constructor
  · intro h
    obtain ⟨o, ho⟩ := hex
    obtain ⟨c', r, rfl, hf, hw⟩ := h o ho
    cases r0 with
    | error e =>
      refine ⟨e, rfl, ?_⟩
      obtain ⟨c2, r2, g1, -, g3⟩ := convertJson_tells hconv hd (fun h => hub (by rw [h])) ((refuses_iff hconv h2).2 ⟨p, v, hp, hr, hc⟩) _ ho
      injection g1 with g1
      injection g1 with g1
      rw [← hw, g1, g3]
    | ok b =>
      exfalso
      obtain ⟨r', -, hu⟩ := hconv.total (L := env.leaves) v hl.wf hval
      have hend := convertJson_end ho
      cases hend with
      | notLoaded h => rw [ha] at h; cases h
      | noType h g => rw [ha] at h; injection h with h; subst h; rw [hp] at g; cases g
      | failed h g1 g2 =>
        rw [ha] at h; injection h with h; subst h
        rw [hp] at g1; injection g1 with g1; subst g1
        obtain ⟨e, g⟩ := g2 v hr
        cases (hu _ g).trans (hu _ hc).symm
      | converted => cases hf
  · rintro ⟨e, rfl, rfl⟩
    exact convertJson_tells hconv hd (fun h => hub (by rw [h])) ((refuses_iff hconv h2).2 ⟨p, v, hp, hr, hc⟩)

theorem says_iff {env : Env} {c : Ctx} {q : Call} {w : Bytes} :
    Says env c q w ↔ ∀ o, Step env (some c) q o → ∃ c' r, o = .done (some c') r ∧ Failure r ∧ c'.lastError = w := by
  constructor
  · intro h o ho
    obtain ⟨c', r, h1, h2, h3⟩ := h o ho
    exact ⟨c', r, h1, h2, getError_last h3⟩
  · exact says_of

section
variable {F : Floats} {D : AbiDef} {h : List (Call × Ret)} {c : Ctx} {k : Nat} {q : Call}

/-- **C70.** What a document refused by the reorderable conversion is told: exactly the faults that can be found in it. -/
theorem c70_reorderable (hc : Calls (libEnv F) (some Ctx.init) h (some c)) (hf : FirstLoad (libEnv F) h k q D) (hsm : SmallDef D) (hva : SmallVariants D)
    {type json : Option Bytes} {p : Ptr} {v : JVal} (hp : Denotes D (cstr type) p) (hj : IsJson (cstr json) v) (hl : (cstr json).length < 2147483648) (w : Bytes) :
    Says (libEnv F) c (.jsonToBinReorderable k type json) w ↔
      ∃ m, w = str m ∧ ((levels v ≤ 128 ∧ Fault D (StoredScalar F) (ScalarFault F) true p v m) ∨ (128 < levels v ∧ m = "Unspecific syntax error")) := by
  have hd := firstLoad_has hc hf
  obtain ⟨a, ha, h2, -⟩ := id hd
  have hlk := (c26_lookup h2 (cstr type) p).2 hp
  have hval := c26_found h2 hlk
  have h2' := h2.lookup (cstr type)
  have hwf := (c26_resolved h2').1
  have hq := isJson_short hj hl
  have hr : (libEnv F).read (cstr json) = some v := by
    rw [show (libEnv F).read = Reader.read from rfl, c53_read_iff, takeWhile_cstr]; exact hj
  have hS : ∀ k s b, (builtins F).toBin k s = .ok b ↔ StoredScalar F k s b := c52_scalar_to_binary F
  generalize hT : (lookupType (cstr type) a.types).2 = T at *
  have hdefd : ∀ n, 3 * (norm v).height + 2 < n → encR T (builtins F) n true p (norm v) ≠ .error .ub := by
    intro n hn g
    have := T.rank_le p
    exact (defined_encR hwf (small_of_def h2' hsm) (leafDefined_builtins F) n (norm v) p hval (shortArrays_norm v hq.1) (by omega) true) g
  let N := 3 * (norm v).height + 3
  obtain ⟨r0, hr0⟩ : ∃ r0, r0 = if levels v ≤ maxStack then (encR T (builtins F) N true p (norm v)).map (·.1) else .error .unspecific_syntax_error := ⟨_, rfl⟩
  have hconv0 : JsonToBinReorderable T (builtins F) p v r0 := (reorderable_iff hwf hval v r0 N (by omega)).2 hr0
  have hub : r0 ≠ .error .ub := by
    rw [hr0]
    split
    · intro g
      cases he : encR T (builtins F) N true p (norm v) with
      | ok x => rw [he] at g; cases g
      | error e =>
        rw [he] at g
        injection g with g
        exact hdefd N (by omega) (by rw [he, g])
    · intro g; cases g
  rw [says_iff]
  refine (conv_says_iff conv_reorderable hd (r0 := r0) (p := p) (v := v) ?_ hr hub (c38_returns hc (.jsonToBinReorderable k type json)) w).trans ?_
  · intro T' hT'
    have g1 := (c26_lookup hT' (cstr type) p).2 hp
    refine ⟨g1, ?_⟩
    exact conv_reorderable.agree (loaded_of h2') (loaded_of (hT'.lookup _)) hval (c26_found hT' g1) hconv0
  · constructor
    · rintro ⟨e, rfl, rfl⟩
      refine ⟨_, rfl, ?_⟩
      by_cases hlv : levels v ≤ 128
      · rw [if_pos (show levels v ≤ maxStack from hlv)] at hr0
        refine .inl ⟨hlv, ?_⟩
        cases he : encR T (builtins F) N true p (norm v) with
        | ok x => rw [he] at hr0; cases hr0
        | error e' =>
          rw [he] at hr0
          injection hr0 with hr0
          subst hr0
          exact encR_fault h2' hsm hva (fun k s b => (hS k s b).1) inherited_short (fun k v e hq he hu => (scalar_fails hq.2).1 ⟨e, hu, rfl, he⟩) N true p v e he
            (fun g => hub (by rw [g])) hval hq
      · rw [if_neg (show ¬ levels v ≤ maxStack from hlv)] at hr0
        injection hr0 with hr0
        subst hr0
        exact .inr ⟨by omega, rfl⟩
    · rintro ⟨m, rfl, ⟨hlv, hfl⟩ | ⟨hlv, rfl⟩⟩
      · obtain ⟨M, e, h1, rfl, h3⟩ := fault_encR h2' hsm hva (fun k s b => (hS k s b).2) inherited_short
          (fun k v m hq hb => (scalar_fails hq.2).2 hb) hfl hval hq
        refine ⟨e, ?_, rfl⟩
        have h4 := (reorderable_iff (L := builtins F) hwf hval v r0 (N + M) (by omega)).1 hconv0
        rw [if_pos (show levels v ≤ maxStack from hlv), h3 _ (by omega)] at h4
        exact h4
      · rw [if_neg (show ¬ levels v ≤ maxStack from by show ¬ levels v ≤ 128; omega)] at hr0
        exact ⟨_, hr0, rfl⟩

/-- **C70.** The same for the conversion that wants the members of objects in the order of the fields. -/
theorem c70_ordered (hc : Calls (libEnv F) (some Ctx.init) h (some c)) (hf : FirstLoad (libEnv F) h k q D) (hsm : SmallDef D) (hdd : DistinctDef D) (hxl : ExtLastDef D)
    (hva : SmallVariants D) {type json : Option Bytes} {p : Ptr} {v : JVal} (hp : Denotes D (cstr type) p) (hj : IsJson (cstr json) v)
    (hl : (cstr json).length < 2147483648) (w : Bytes) :
    Says (libEnv F) c (.jsonToBin k type json) w ↔ ∃ m, w = str m ∧ OrderedFault D (StoredScalar F) (ScalarFault F) 0 true p v m := by
  have hd := firstLoad_has hc hf
  obtain ⟨a, ha, h2, -⟩ := id hd
  have hlk := (c26_lookup h2 (cstr type) p).2 hp
  have hval := c26_found h2 hlk
  have h2' := h2.lookup (cstr type)
  have hwf := (c26_resolved h2').1
  have hq := isJson_short hj hl
  have hr : (libEnv F).read (cstr json) = some v := by
    rw [show (libEnv F).read = Reader.read from rfl, c53_read_iff, takeWhile_cstr]; exact hj
  have hS : ∀ k s b, (builtins F).toBin k s = .ok b ↔ StoredScalar F k s b := c52_scalar_to_binary F
  generalize hT : (lookupType (cstr type) a.types).2 = T at *
  let N := 3 * v.height + 3
  have hdefd : encO T (builtins F) N 0 true p v ≠ .error .ub := by
    intro g
    have := T.rank_le p
    exact (defined_encO hwf (small_of_def h2' hsm) (leafDefined_builtins F) N v p hval hq.1 (by omega) 0 true) g
  obtain ⟨r0, hr0⟩ : ∃ r0, r0 = (encO T (builtins F) N 0 true p v).map (fun x => flat x.1) := ⟨_, rfl⟩
  have hconv0 : JsonToBin T (builtins F) p v r0 := (jsonToBin_iff hwf hval v N (by omega) r0).2 hr0
  have hub : r0 ≠ .error .ub := by
    rw [hr0]
    intro g
    cases he : encO T (builtins F) N 0 true p v with
    | ok x => rw [he] at g; cases g
    | error e =>
      rw [he] at g
      injection g with g
      exact hdefd (by rw [he, g])
  rw [says_iff]
  refine (conv_says_iff conv_jsonToBin hd (r0 := r0) (p := p) (v := v) ?_ hr hub (c38_returns hc (.jsonToBin k type json)) w).trans ?_
  · intro T' hT'
    have g1 := (c26_lookup hT' (cstr type) p).2 hp
    refine ⟨g1, ?_⟩
    exact conv_jsonToBin.agree (loaded_of h2') (loaded_of (hT'.lookup _)) hval (c26_found hT' g1) hconv0
  · constructor
    · rintro ⟨e, rfl, rfl⟩
      refine ⟨_, rfl, ?_⟩
      cases he : encO T (builtins F) N 0 true p v with
      | ok x => rw [he] at hr0; cases hr0
      | error e' =>
        rw [he] at hr0
        injection hr0 with hr0
        subst hr0
        exact encO_fault h2' hsm hdd hxl hva (fun k s b => (hS k s b).1) inherited_short (fun k v e hq he hu => (scalar_fails hq.2).1 ⟨e, hu, rfl, he⟩) N 0 true p v e he
          (fun g => hub (by rw [g])) hval hq (by omega)
    · rintro ⟨m, rfl, hfl⟩
      obtain ⟨M, e, h1, rfl, h3⟩ := fault_encO h2' hsm hdd hxl hva (fun k s b => (hS k s b).2) inherited_short
        (fun k v m hq hb => (scalar_fails hq.2).2 hb) hfl hval hq
      refine ⟨e, ?_, rfl⟩
      have h4 := (jsonToBin_iff (L := builtins F) hwf hval v (N + M) (by omega) r0).1 hconv0
      rw [h3 _ (by omega)] at h4
      exact h4

end

/-! ## Examples -/

namespace FaultsExample
open CApiExample WireExample

theorem smallVariants : SmallVariants abiDef := by
  intro k fs h
  cases h with
  | variant h1 _ =>
    cases h1 with
    | variant h => simp [abiDef] at h

theorem meaning {k : Bytes} {d : TData} (h : T1.get k = some d) : Meaning abiDef k d := (c26_resolved ⟨T1, [], abi_loads, rfl⟩).2 _ _ h

theorem isJson_of {t : Bytes} {v : JVal} (h : env.read (cstr (some t)) = some v) : IsJson (cstr (some t)) v := by
  rw [show env.read = Reader.read from rfl, c53_read_iff, takeWhile_cstr] at h
  exact h

theorem meaning_s : Meaning abiDef (str "s") (.struct [⟨str "a", str "uint8[]"⟩, ⟨str "b", str "string"⟩]) := meaning (by decide +kernel)
theorem meaning_a : Meaning abiDef (str "uint8[]") (.array (str "uint8")) := meaning (by decide +kernel)
theorem meaning_u : Meaning abiDef (str "uint8") (.builtin .uint8) := meaning (by decide +kernel)

theorem large (F : Floats) : ScalarFault F .uint8 (.str (str "300")) "number is out of range" := by
  refine .inl ⟨⟨str "300", [], 300, by decide, .inl ⟨300, ?_, rfl⟩, by simp [InBytes]⟩, rfl⟩
  refine ⟨by decide, by decide, ?_⟩
  rw [show str "300" = [51, 48, 48] by decide]
  simp [decVal, decFrom, digitVal_eq]

/-- A number that is no `uint8`, in both conversions. -/
example : ∃ c, Calls (libEnv noFloats) (some Ctx.init) loads (some c) ∧
    Says (libEnv noFloats) c (.jsonToBinReorderable 5 (some (str "s")) (some (str "{\"b\":\"x\",\"a\":[300]}"))) (str "number is out of range") ∧
    Says (libEnv noFloats) c (.jsonToBin 5 (some (str "s")) (some (str "{\"a\":[300],\"b\":\"x\"}"))) (str "number is out of range") ∧
    Says (libEnv noFloats) c (.jsonToBin 5 (some (str "s")) (some (str "{\"b\":\"x\",\"a\":[300]}"))) (str "Expected field") := by
  obtain ⟨c, hc⟩ := loads_calls
  have h1 : IsJson (cstr (some (str "{\"b\":\"x\",\"a\":[300]}"))) (.obj [(str "b", .str (str "x")), (str "a", .arr [.str (str "300")])]) :=
    isJson_of (reads_doc (by decide +kernel))
  have h2 : IsJson (cstr (some (str "{\"a\":[300],\"b\":\"x\"}"))) (.obj [(str "a", .arr [.str (str "300")]), (str "b", .str (str "x"))]) :=
    isJson_of (reads_doc (by decide +kernel))
  have hs : Denotes abiDef (cstr (some (str "s"))) (str "s") := by rw [cut_s]; exact denotes
  refine ⟨c, hc, (c70_reorderable hc first5 regular.small smallVariants hs h1 (by decide +kernel) _).2 ⟨_, rfl, .inl ⟨by decide +kernel, ?_⟩⟩,
    (c70_ordered hc first5 regular.small regular.distinct regular.extLast smallVariants hs h2 (by decide +kernel) _).2 ⟨_, rfl, ?_⟩,
    (c70_ordered hc first5 regular.small regular.distinct regular.extLast smallVariants hs h1 (by decide +kernel) _).2 ⟨_, rfl, ?_⟩⟩
  · exact .fields meaning_s (.here (x := .arr [.str (str "300")]) (by with_unfolding_all rfl) (.elems meaning_a (.here (.scalar meaning_u (large _)))))
  · exact .members meaning_s (.here (f := ⟨str "a", str "uint8[]"⟩) (by decide) (.elems meaning_a (by decide) (.here (.scalar meaning_u (large _)))))
  · exact .members meaning_s (.other (by decide))

end FaultsExample

end Abieos
