import Verif.Proofs.CApi
import Verif.Props.Hex
import Verif.Props.LoaderExample
/-!
**C38–C40.** The C interface.
-/
namespace Abieos
open Spec

/-! ## What every call keeps -/

/-- Every loaded contract has a definition. -/
def Good (c : Ctx) : Prop := ∀ k a, c.contracts.lookup k = some a → ∃ D, HasDef c k D

theorem convertHex_keeps {env : Env} {k : Nat} {t : Option Bytes} {s : Bytes} {c c' : Ctx} {o : Out} (h : ConvertHex env k t s c o) (ho : o.ctx = some c') :
    Keeps c c' := by
  unfold ConvertHex at h
  split at h
  · subst h; cases ho; exact .refl rfl
  · obtain ⟨x, h1, rfl⟩ := h
    obtain ⟨y, h2, rfl⟩ := handled_iff.1 h1
    cases y with
    | returns c1 r => cases ho; exact convertBin_keeps h2 rfl
    | throws c1 w => cases ho; exact (convertBin_keeps h2 rfl).trans (.refl rfl)
    | undefined => cases ho

theorem handled_keeps {ev : Ret} {c : Ctx} {f : Ctx → Out → Prop} {c' : Option Ctx} {r : Ret} (h : Handled ev (some c) f (.done c' r))
    (hf : ∀ o c1, f c o → o.ctx = some c1 → Keeps c c1) : ∃ c1, c' = some c1 ∧ Keeps c c1 := by
  obtain ⟨x, h1, h2⟩ := handled_iff.1 h
  cases x with
  | returns c1 r => cases h2; exact ⟨_, rfl, hf _ _ h1 rfl⟩
  | throws c1 w => cases h2; exact ⟨_, rfl, (hf _ _ h1 rfl).trans (.refl rfl)⟩
  | undefined => cases h2

/-- A call other than a load keeps all contracts. -/
theorem step_keeps {env : Env} {q : Call} (hq : IsLoad q = false) {c : Ctx} {c' : Option Ctx} {r : Ret} (h : Step env (some c) q (.done c' r)) :
    ∃ c1, c' = some c1 ∧ Keeps c c1 := by
  cases q with
  | getError => cases h; exact ⟨c, rfl, .refl rfl⟩
  | getBinSize => cases h; exact ⟨c, rfl, .refl rfl⟩
  | getBinData => cases h; exact ⟨c, rfl, .refl rfl⟩
  | getBinHex => simp only [Step] at h; exact handled_keeps h (by rintro o c1 rfl h; cases h; exact .refl rfl)
  | stringToName s => cases h; exact ⟨c, rfl, .refl rfl⟩
  | nameToString n => simp only [Step] at h; exact handled_keeps h (by rintro o c1 rfl h; cases h; exact .refl rfl)
  | setAbi k s => cases hq
  | setAbiBin k s => cases hq
  | setAbiHex k s => cases hq
  | typeForAction k n =>
    refine handled_keeps h ?_
    rintro o c1 rfl h
    split at h
    · cases h; exact .refl rfl
    · split at h <;> (cases h; exact .refl rfl)
  | typeForTable k n =>
    refine handled_keeps h ?_
    rintro o c1 rfl h
    split at h
    · cases h; exact .refl rfl
    · split at h <;> (cases h; exact .refl rfl)
  | jsonToBin k t j => exact handled_keeps h fun o c1 => convertJson_keeps
  | jsonToBinReorderable k t j => exact handled_keeps h fun o c1 => convertJson_keeps
  | binToJson k t d => exact handled_keeps h fun o c1 => convertBin_keeps
  | hexToJson k t s => exact handled_keeps h fun o c1 => convertHex_keeps

theorem good_keeps {c c' : Ctx} (hg : Good c) (h : Keeps c c') : Good c' := by
  intro k a ha
  cases hc : c.contracts.lookup k with
  | none => rw [h.2 k hc] at ha; cases ha
  | some b =>
    obtain ⟨D, hD⟩ := hg k b hc
    exact ⟨D, hD.keeps h⟩

theorem lookup_contracts {c c' : Ctx} (h : c'.contracts = c.contracts) (k : Nat) : c'.contracts.lookup k = c.contracts.lookup k := by rw [h]

/-- after a successful load -/
theorem load_has {c c' : Ctx} {k : Nat} {D : AbiDef} {T : Table} (hT : LoadTypes D (.ok T))
    (h : c'.contracts = (c.insert k ⟨D.actionTypes, D.tableTypes, T⟩).contracts) :
    (∀ j E, HasDef c j E → HasDef c' j E) ∧ (c.contracts.lookup k = none → HasDef c' k D) ∧
      ∀ j, j ≠ k → c'.contracts.lookup j = c.contracts.lookup j := by
  have hl := fun j => (lookup_contracts h j).trans (c.lookup_insert k j _)
  refine ⟨?_, ?_, ?_⟩
  · rintro j E ⟨a, h1, h2⟩
    refine ⟨a, ?_, h2⟩
    rw [hl]
    split
    · rename_i he; subst he; simp [h1]
    · exact h1
  · intro hn
    exact ⟨_, by rw [hl, if_pos rfl, hn, Option.getD_none], ⟨T, [], hT, rfl⟩, rfl, rfl⟩
  · intro j hj
    rw [hl, if_neg hj]

/-- Every call keeps the definitions of contracts. -/
theorem step_hasDef {env : Env} {q : Call} {c : Ctx} {c' : Option Ctx} {r : Ret} (h : Step env (some c) q (.done c' r)) :
    ∃ c1, c' = some c1 ∧ (∀ k D, HasDef c k D → HasDef c1 k D) ∧ (Good c → Good c1) ∧
      ∀ k, c.contracts.lookup k = none → (r = .bool true ∧ ∃ D, Loads env q k D ∧ HasDef c1 k D) ∨
        (c1.contracts.lookup k = none ∧ ∀ D, Loads env q k D → r ≠ .bool true) := by
  cases hq : IsLoad q with
  | false =>
    obtain ⟨c1, rfl, hk⟩ := step_keeps hq h
    refine ⟨c1, rfl, fun k D hD => hD.keeps hk, fun hg => good_keeps hg hk, fun k hn => .inr ⟨hk.2 k hn, fun D hD => ?_⟩⟩
    obtain ⟨-, h⟩ := loads_iff.1 hD
    cases q <;> first | exact absurd h id | exact absurd hq (by simp [IsLoad])
  | true =>
    generalize ho : Outcome.done c' r = o at h
    cases load_end hq h with
    | refused h1 h2 h3 h4 =>
      cases ho
      have hk := Keeps.refl h2
      exact ⟨_, rfl, fun k D hD => hD.keeps hk, fun hg => good_keeps hg hk, fun k hn => .inr ⟨hk.2 k hn, fun D hD => absurd ⟨k, D, hD⟩ h1⟩⟩
    | @loaded c1 k D T h1 h2 h3 h4 =>
      cases ho
      obtain ⟨g1, g2, g3⟩ := load_has h2 h4
      refine ⟨_, rfl, g1, fun hg j a ha => ?_, fun j hn => ?_⟩
      · cases hj : c.contracts.lookup j with
        | some b => obtain ⟨E, hE⟩ := hg j b hj; exact ⟨E, g1 _ _ hE⟩
        | none =>
          by_cases hjk : j = k
          · subst hjk; exact ⟨D, g2 hj⟩
          · rw [g3 j hjk, hj] at ha; cases ha
      · by_cases hjk : j = k
        · subst hjk; exact .inl ⟨rfl, D, h1, g2 hn⟩
        · refine .inr ⟨by rw [g3 j hjk, hn], fun E hE => ?_⟩
          obtain ⟨-, a⟩ := loads_iff.1 h1
          obtain ⟨-, b⟩ := loads_iff.1 hE
          cases q <;> first | exact absurd (b.1.symm.trans a.1) hjk | cases hq

theorem calls_ctx {env : Env} {c : Ctx} {h : List (Call × Ret)} {c' : Option Ctx} (hc : Calls env (some c) h c') : ∃ c1, c' = some c1 := by
  generalize hs : some c = s at hc
  induction hc generalizing c with
  | nil => exact ⟨c, hs.symm⟩
  | cons h1 _ ih =>
    subst hs
    obtain ⟨c1, rfl, -⟩ := step_hasDef h1
    exact ih rfl

theorem calls_hasDef {env : Env} {c c' : Ctx} {h : List (Call × Ret)} (hc : Calls env (some c) h (some c')) :
    (∀ k D, HasDef c k D → HasDef c' k D) ∧ (Good c → Good c') ∧ ∀ k, c.contracts.lookup k = none →
      (∃ q D, FirstLoad env h k q D ∧ HasDef c' k D) ∨ (c'.contracts.lookup k = none ∧ ∀ e ∈ h, e.2 = .bool true → ∀ D, ¬ Loads env e.1 k D) := by
  generalize hs : some c = s at hc
  generalize hs' : some c' = s' at hc
  induction hc generalizing c with
  | nil =>
    cases hs'.trans hs.symm
    exact ⟨fun _ _ h => h, fun h => h, fun k hn => .inr ⟨hn, fun e he => by cases he⟩⟩
  | @cons s0 s1 s2 q r l h1 h2 ih =>
    subst hs
    obtain ⟨c1, rfl, a1, a2, a3⟩ := step_hasDef h1
    obtain ⟨b1, b2, b3⟩ := ih rfl hs'
    refine ⟨fun k D hD => b1 k D (a1 k D hD), fun hg => b2 (a2 hg), fun k hn => ?_⟩
    rcases a3 k hn with ⟨rfl, D, hD, hH⟩ | ⟨hn', hno⟩
    · exact .inl ⟨q, D, ⟨hD, [], l, rfl, fun e he => by cases he⟩, b1 k D hH⟩
    · rcases b3 k hn' with ⟨q', D, ⟨hL, before, after, rfl, hbe⟩, hH⟩ | ⟨hn'', hno'⟩
      · refine .inl ⟨q', D, ⟨hL, (q, r) :: before, after, rfl, fun e he hr D' hD' => ?_⟩, hH⟩
        rcases List.mem_cons.1 he with rfl | he
        · exact hno D' hD' hr
        · exact hbe e he hr D' hD'
      · refine .inr ⟨hn'', fun e he hr D hD => ?_⟩
        rcases List.mem_cons.1 he with rfl | he
        · exact hno D hD hr
        · exact hno' e he hr D hD

theorem good_init : Good Ctx.init := fun k a h => by cases h

theorem calls_good {env : Env} {c : Ctx} {h : List (Call × Ret)} (hc : Calls env (some Ctx.init) h (some c)) : Good c :=
  (calls_hasDef hc).2.1 good_init

/-- Definitions denoted by a call are unique. -/
theorem loads_unique {env : Env} {q : Call} {k : Nat} {D D' : AbiDef} (h : Loads env q k D) (h' : Loads env q k D') : D = D' := by
  obtain ⟨-, h⟩ := loads_iff.1 h
  obtain ⟨-, h'⟩ := loads_iff.1 h'
  cases q with
  | setAbi k' t =>
    obtain ⟨-, v, h1, h2⟩ := h
    obtain ⟨-, v', h3, h4⟩ := h'
    rw [h1] at h3; cases h3
    exact c50_unique h2 h4
  | setAbiBin k' t =>
    obtain ⟨-, v, h1, r, h2⟩ := h
    obtain ⟨-, v', h3, r', h4⟩ := h'
    rw [h1] at h3; cases h3
    rw [h2] at h4; cases h4; rfl
  | setAbiHex k' t =>
    obtain ⟨-, v, h1, r, h2⟩ := h
    obtain ⟨-, v', h3, r', h4⟩ := h'
    rw [h1] at h3; cases h3
    rw [h2] at h4; cases h4; rfl
  | _ => cases h

theorem first_unique {α : Type} {P : α → Prop} {x y : α} (hx : P x) (hy : P y) : ∀ (b b' : List α) {a a' : List α}, (∀ e ∈ b, ¬ P e) → (∀ e ∈ b', ¬ P e) →
    b ++ x :: a = b' ++ y :: a' → x = y
  | [], [], _, _, _, _, e => by cases e; rfl
  | [], z :: b', _, _, _, h', e => by cases e; exact absurd hx (h' x (by simp))
  | z :: b, [], _, _, h, _, e => by cases e; exact absurd hy (h y (by simp))
  | z :: b, z' :: b', _, _, h, h', e => by
    injection e with e1 e2
    exact first_unique hx hy b b' (fun e he => h e (List.mem_cons_of_mem _ he)) (fun e he => h' e (List.mem_cons_of_mem _ he)) e2

theorem firstLoad_unique {env : Env} {h : List (Call × Ret)} {k : Nat} {q q' : Call} {D D' : AbiDef} (h1 : FirstLoad env h k q D) (h2 : FirstLoad env h k q' D') :
    D = D' := by
  obtain ⟨a1, b, af, rfl, a2⟩ := h1
  obtain ⟨b1, b', af', e, b2⟩ := h2
  have := first_unique (P := fun e : Call × Ret => e.2 = .bool true ∧ ∃ D, Loads env e.1 k D) ⟨rfl, D, a1⟩ ⟨rfl, D', b1⟩ b b'
    (fun e he => fun ⟨h, D, hD⟩ => a2 e he h D hD) (fun e he => fun ⟨h, D, hD⟩ => b2 e he h D hD) e
  cases this
  exact loads_unique a1 b1

/-- The contract is loaded with the definition of the first successful load. -/
theorem firstLoad_has {env : Env} {c : Ctx} {h : List (Call × Ret)} (hc : Calls env (some Ctx.init) h (some c)) {k : Nat} {q : Call} {D : AbiDef}
    (hf : FirstLoad env h k q D) : HasDef c k D := by
  rcases (calls_hasDef hc).2.2 k rfl with ⟨q', D', h1, h2⟩ | ⟨-, h1⟩
  · rwa [firstLoad_unique hf h1]
  · obtain ⟨h2, b, a, rfl, -⟩ := hf
    exact absurd h2 (h1 (q, .bool true) (by simp) rfl D)

/-! ## C38: errors are reported -/

/-- **C38, null context.** On a null context every call ends in exactly one way, and there is still no context; calls that can fail
return their failure value. `abieos_string_to_name` does not need a context, and `abieos_get_error` says what is wrong. -/
theorem c38_null_context (env : Env) (q : Call) : ∃ r, (∀ o, Step env none q o ↔ o = .done none r) ∧ (CanFail q = true → Failure r) ∧
    (q = .getError → r = .str (some (str "context is null"))) ∧ (∀ s, q = .stringToName (some s) → r = .word (stringToName (cut s))) := by
  cases q <;>
    exact ⟨_, fun o => Iff.rfl, by first | (intro h; cases h; done) | exact fun _ => rfl, by intro h; cases h <;> rfl, by intro s h; cases h <;> rfl⟩

theorem step_exists {env : Env} (q : Call) {c : Ctx} (hg : Good c) : ∃ o, Step env (some c) q o := by
  have hd : ∀ k a, c.contracts.lookup k = some a → ∃ D, LoadedThen D a.types := by
    intro k a ha
    obtain ⟨D, a', h1, h2, -⟩ := hg k a ha
    rw [ha] at h1; cases h1
    exact ⟨D, h2⟩
  have hh : ∀ {ev : Ret} {f : Ctx → Out → Prop}, (∃ o, f c o) → ∃ o, Handled ev (some c) f o := fun ⟨o, h⟩ => ⟨_, o, h, rfl⟩
  cases q with
  | getError => exact ⟨_, rfl⟩
  | getBinSize => exact ⟨_, rfl⟩
  | getBinData => exact ⟨_, rfl⟩
  | getBinHex => simp only [Step]; exact hh ⟨_, rfl⟩
  | stringToName s => exact ⟨_, rfl⟩
  | nameToString n => simp only [Step]; exact hh ⟨_, rfl⟩
  | setAbi k s => exact load_exists rfl _
  | setAbiBin k s => exact load_exists rfl _
  | setAbiHex k s => exact load_exists rfl _
  | typeForAction k n => exact hh ⟨_, rfl⟩
  | typeForTable k n => exact hh ⟨_, rfl⟩
  | jsonToBin k t j => exact hh (convertJson_exists conv_jsonToBin (hd k))
  | jsonToBinReorderable k t j => exact hh (convertJson_exists conv_reorderable (hd k))
  | binToJson k t d => exact hh (convertBin_exists (hd k))
  | hexToJson k t s =>
    refine hh ?_
    unfold ConvertHex
    split
    · exact ⟨_, rfl⟩
    · rename_i b _
      obtain ⟨o, ho⟩ := convertBin_exists (env := env) (type := cstr t) (bin := b) (hd k)
      exact ⟨_, _, ⟨o, ho, rfl⟩, rfl⟩

/-- **C38, every call returns.** After any sequence of calls, whatever their arguments and whether they failed, every call ends. -/
theorem c38_returns {env : Env} {h : List (Call × Ret)} {c : Ctx} (hc : Calls env (some Ctx.init) h (some c)) (q : Call) :
    ∃ o, Step env (some c) q o :=
  step_exists q (calls_good hc)

/-- The call converts with a type of a contract. -/
def IsConversion : Call → Bool
  | .jsonToBin .. | .jsonToBinReorderable .. | .binToJson .. | .hexToJson .. => true
  | _ => false

/-- **C38, defined behaviour.** Calls that load definitions, and all others that do not convert values, have defined behaviour in every
context and for every argument. -/
theorem c38_defined {env : Env} {q : Call} (hq : IsConversion q = false) (c : Option Ctx) : ¬ Step env c q .undefined := by
  intro h
  cases c with
  | none => obtain ⟨r, h1, -⟩ := c38_null_context env q; cases (h1 _).1 h
  | some c =>
    cases q with
    | getError => cases h
    | getBinSize => cases h
    | getBinData => cases h
    | getBinHex => simp only [Step] at h; obtain ⟨x, rfl, h⟩ := handled_iff.1 h; cases h
    | stringToName s => cases h
    | nameToString n => simp only [Step] at h; obtain ⟨x, rfl, h⟩ := handled_iff.1 h; cases h
    | setAbi k s => cases load_end rfl h
    | setAbiBin k s => cases load_end rfl h
    | setAbiHex k s => cases load_end rfl h
    | typeForAction k n =>
      obtain ⟨x, rfl, h⟩ := handled_iff.1 h
      split at h
      · cases h
      · split at h <;> cases h
    | typeForTable k n =>
      obtain ⟨x, rfl, h⟩ := handled_iff.1 h
      split at h
      · cases h
      · split at h <;> cases h
    | _ => cases hq

theorem convertHex_end {env : Env} {k : Nat} {type : Option Bytes} {s : Bytes} {c : Ctx} {o : Outcome}
    (h : Handled (.str none) (some c) (ConvertHex env k type s) o) :
    (unhexLoop s = none ∧ o = .done (some (c.setError (str "expected hex string"))) (.str none)) ∨
      ∃ b, unhexLoop s = some b ∧ CallConvertBin env k type (some b) (some c) o := by
  obtain ⟨x, h1, rfl⟩ := handled_iff.1 h
  unfold ConvertHex at h1
  split at h1
  · rename_i hx
    subst h1
    exact .inl ⟨hx, rfl⟩
  · rename_i b hx
    obtain ⟨y, h2, rfl⟩ := h1
    refine .inr ⟨b, hx, ?_⟩
    obtain ⟨z, h3, rfl⟩ := handled_iff.1 h2
    cases z <;> exact h2

/-- **C38, failures are reported.** Whenever a call on a context returns its failure value, the context is there still and
`abieos_get_error` then returns a text that is not empty. -/
theorem c38_reported {env : Env} {q : Call} {c : Ctx} {c' : Option Ctx} {r : Ret} (h : Step env (some c) q (.done c' r)) (hf : Failure r) :
    ∃ c1 w, c' = some c1 ∧ w ≠ [] ∧ Step env c' .getError (.done c' (.str (some w))) := by
  suffices hs : ∃ c1, c' = some c1 ∧ c1.lastError ≠ [] by
    obtain ⟨c1, rfl, h1⟩ := hs
    exact ⟨c1, c1.lastError, rfl, h1, rfl⟩
  have hload : IsLoad q = true → ∃ c1, c' = some c1 ∧ c1.lastError ≠ [] := by
    intro hq
    generalize ho : Outcome.done c' r = o at h
    cases load_end hq h with
    | refused h1 h2 h3 h4 => cases ho; exact ⟨_, rfl, h4⟩
    | loaded => cases ho; cases hf
  have hjson : ∀ {conv k t j}, JsonEnd env conv k t j c (.done c' r) → ∃ c1, c' = some c1 ∧ c1.lastError ≠ [] := by
    intro conv k t j h
    cases h with
    | notLoaded h1 h2 h3 => exact ⟨_, rfl, by rw [h3, notLoaded]; exact fun h => by simp [str] at h⟩
    | noType h1 h2 h3 h4 => exact ⟨_, rfl, by rw [h4]; exact what_ne _⟩
    | failed h1 h2 h3 h4 h5 => exact ⟨_, rfl, h5⟩
    | converted => cases hf
  have hbin : ∀ {k t d}, BinEnd env k t d c (.done c' r) → ∃ c1, c' = some c1 ∧ c1.lastError ≠ [] := by
    intro k t d h
    cases h with
    | failed h1 h2 => exact ⟨_, rfl, h2⟩
    | decoded => cases hf
  cases q with
  | getError => cases h; cases hf
  | getBinSize => cases h; cases hf
  | getBinData => cases h; cases hf
  | getBinHex => simp only [Step] at h; obtain ⟨x, rfl, h⟩ := handled_iff.1 h; cases h; cases hf
  | stringToName s => cases h; cases hf
  | nameToString n => simp only [Step] at h; obtain ⟨x, rfl, h⟩ := handled_iff.1 h; cases h; cases hf
  | setAbi k s => exact hload rfl
  | setAbiBin k s => exact hload rfl
  | setAbiHex k s => exact hload rfl
  | typeForAction k n =>
    obtain ⟨x, rfl, h⟩ := handled_iff.1 h
    split at h
    · cases h; exact ⟨_, rfl, fun h => by simp [Ctx.setError, notLoaded, str] at h⟩
    · split at h
      · cases h; exact ⟨_, rfl, fun h => by simp [Ctx.setError, noSuch, str] at h⟩
      · cases h; cases hf
  | typeForTable k n =>
    obtain ⟨x, rfl, h⟩ := handled_iff.1 h
    split at h
    · cases h; exact ⟨_, rfl, fun h => by simp [Ctx.setError, notLoaded, str] at h⟩
    · split at h
      · cases h; exact ⟨_, rfl, fun h => by simp [Ctx.setError, noSuch, str] at h⟩
      · cases h; cases hf
  | jsonToBin k t j => exact hjson (convertJson_end h)
  | jsonToBinReorderable k t j => exact hjson (convertJson_end h)
  | binToJson k t d => exact hbin (convertBin_end h)
  | hexToJson k t s =>
    rcases convertHex_end h with ⟨-, h1⟩ | ⟨b, -, h1⟩
    · cases h1; exact ⟨_, rfl, by show str "expected hex string" ≠ []; decide⟩
    · exact hbin (convertBin_end h1)

/-- **C38, failed loads.** A load that fails changes neither the loaded contracts nor the binary result. -/
theorem c38_failed_load {env : Env} {q : Call} (hq : IsLoad q = true) {c c' : Ctx} {r : Ret} (h : Step env (some c) q (.done (some c') r)) (hf : Failure r) :
    c'.contracts = c.contracts ∧ c'.resultBin = c.resultBin := by
  generalize ho : Outcome.done (some c') r = o at h
  cases load_end hq h with
  | refused h1 h2 h3 h4 => cases ho; exact ⟨h2, h3⟩
  | loaded => cases ho; cases hf

/-! ## C39: contracts -/

/-- **C39, what can be loaded.** A loading call succeeds if and only if its argument is a definition that can be used; the context does
not matter. -/
theorem c39_load_iff {env : Env} {q : Call} (hq : IsLoad q = true) {c : Ctx} {c' : Option Ctx} {r : Ret} (h : Step env (some c) q (.done c' r)) :
    r = .bool true ↔ ∃ k D, Loads env q k D := by
  generalize ho : Outcome.done c' r = o at h
  cases load_end hq h with
  | refused h1 h2 h3 h4 => cases ho; exact ⟨fun h => (by cases h), fun h => absurd h h1⟩
  | loaded h1 => cases ho; exact ⟨fun _ => ⟨_, _, h1⟩, fun _ => rfl⟩

theorem lookup_last {α : Type} (f : α → Nat) (g : α → Bytes) (l : List α) (n : Nat) (t : Bytes) :
    ((l.map fun a => (f a, g a)).reverse).lookup n = some t ↔ ∃ b a m, l = b ++ a :: m ∧ f a = n ∧ g a = t ∧ ∀ x ∈ m, f x ≠ n := by
  induction l using List.reverseRecOn with
  | nil => simp
  | append_singleton l x ih =>
    rw [List.map_append, List.reverse_append]
    simp only [List.map_cons, List.map_nil, List.reverse_cons, List.reverse_nil, List.nil_append, List.cons_append, List.lookup_cons]
    by_cases hx : n = f x
    · subst hx
      simp only [BEq.rfl]
      constructor
      · intro h
        exact ⟨l, x, [], rfl, rfl, Option.some.inj h, by simp⟩
      · rintro ⟨b, a, m, e, h1, h2, h3⟩
        rcases List.eq_nil_or_concat m with rfl | ⟨m', y, rfl⟩
        · have := List.append_inj_right' e rfl
          cases this; rw [h2]
        · have e' : l ++ [x] = (b ++ a :: m') ++ [y] := by rw [e]; simp
          have := List.append_inj_right' e' rfl
          cases this
          exact absurd rfl (h3 x (by simp))
    · rw [show (n == f x) = false by simpa using hx]
      simp only
      rw [ih]
      constructor
      · rintro ⟨b, a, m, e, h1, h2, h3⟩
        refine ⟨b, a, m ++ [x], by rw [e]; simp, h1, h2, fun y hy => ?_⟩
        rcases List.mem_append.1 hy with hy | hy
        · exact h3 y hy
        · rw [List.mem_singleton.1 hy]; exact fun h => hx h.symm
      · rintro ⟨b, a, m, e, h1, h2, h3⟩
        rcases List.eq_nil_or_concat m with rfl | ⟨m', y, rfl⟩
        · have := List.append_inj_right' e rfl
          cases this; exact absurd h1.symm hx
        · have e' : l ++ [x] = (b ++ a :: m') ++ [y] := by rw [e]; simp
          have e1 := List.append_inj_left' e' rfl
          exact ⟨b, a, m', e1, h1, h2, fun z hz => h3 z (by simp [hz])⟩

section
variable {env : Env} {h : List (Call × Ret)} {c : Ctx} (hc : Calls env (some Ctx.init) h (some c)) {k : Nat} {q : Call} {D : AbiDef}
  (hf : FirstLoad env h k q D)
include hc hf

/-- **C39, actions.** After any sequence of calls the type of an action of a contract is the one in the definition loaded first for
that contract; if there is none, the call fails. -/
theorem c39_action (n : Nat) (c' : Option Ctx) (r : Ret) : Step env (some c) (.typeForAction k n) (.done c' r) → ∀ t,
    (r = .str (some t) ↔ ∃ t', t = cut t' ∧ ActionType D n t') := by
  intro hs t
  obtain ⟨a, h1, -, h3, -⟩ := firstLoad_has hc hf
  have hl := fun t => lookup_last ActionDef.name ActionDef.type D.actions n t
  change ∀ t, D.actionTypes.lookup n = some t ↔ ActionType D n t at hl
  obtain ⟨x, rfl, hs⟩ := handled_iff.1 hs
  simp only [h1, h3] at hs
  cases hn : D.actionTypes.lookup n with
  | none =>
    simp only [hn] at hs
    cases hs
    exact ⟨fun h => (by cases h), fun ⟨t', _, ht⟩ => by rw [(hl t').2 ht] at hn; cases hn⟩
  | some t0 =>
    simp only [hn] at hs
    cases hs
    constructor
    · intro h; cases h; exact ⟨t0, rfl, (hl t0).1 hn⟩
    · rintro ⟨t', rfl, ht⟩
      rw [(hl t').2 ht] at hn; cases hn; rfl

/-- **C39, tables.** -/
theorem c39_table (n : Nat) (c' : Option Ctx) (r : Ret) : Step env (some c) (.typeForTable k n) (.done c' r) → ∀ t,
    (r = .str (some t) ↔ ∃ t', t = cut t' ∧ TableType D n t') := by
  intro hs t
  obtain ⟨a, h1, -, -, h3⟩ := firstLoad_has hc hf
  have hl := fun t => lookup_last TableDef.name TableDef.type D.tables n t
  change ∀ t, D.tableTypes.lookup n = some t ↔ TableType D n t at hl
  obtain ⟨x, rfl, hs⟩ := handled_iff.1 hs
  simp only [h1, h3] at hs
  cases hn : D.tableTypes.lookup n with
  | none =>
    simp only [hn] at hs
    cases hs
    exact ⟨fun h => (by cases h), fun ⟨t', _, ht⟩ => by rw [(hl t').2 ht] at hn; cases hn⟩
  | some t0 =>
    simp only [hn] at hs
    cases hs
    constructor
    · intro h; cases h; exact ⟨t0, rfl, (hl t0).1 hn⟩
    · rintro ⟨t', rfl, ht⟩
      rw [(hl t').2 ht] at hn; cases hn; rfl

theorem convert_answers {conv : Table → Leaves → Ptr → JVal → Res Bytes → Prop} {broken : Table → Leaves → Ptr → List Tok → Option Err → Prop} (hcv : Conv conv broken) {type json : Bytes} {c' : Option Ctx} {r : Ret}
    (hs : Handled (.bool false) (some c) (ConvertJson env conv broken k type json) (.done c' r)) :
    (r = .bool true ↔ ∃ b, Converts env conv D type json b) ∧
      (r = .bool true → ∀ b, Converts env conv D type json b ↔ Step env c' .getBinData (.done c' (.data (some b)))) := by
  obtain ⟨a, h1, h2, -⟩ := firstLoad_has hc hf
  have hi := fun b => converts_iff (env := env) hcv h2 (type := type) (json := json) (b := b)
  have hw := loaded_of (h2.lookup type)
  have hu : ∀ {p v r r'}, (lookupType type a.types).1 = .ok p → conv (lookupType type a.types).2 env.leaves p v r →
      conv (lookupType type a.types).2 env.leaves p v r' → r = r' := by
    intro p v r r' hp hr hr'
    obtain ⟨x, -, hx⟩ := hcv.total (L := env.leaves) v hw.wf (c26_found h2 hp)
    rw [hx _ hr, hx _ hr']
  generalize ho : Outcome.done c' r = o at hs
  cases convertJson_end hs with
  | undefined => cases ho
  | notLoaded g1 => rw [h1] at g1; cases g1
  | noType g1 g2 =>
    rw [h1] at g1; cases g1
    cases ho
    refine ⟨⟨fun h => (by cases h), ?_⟩, fun h => (by cases h)⟩
    rintro ⟨b, hb⟩
    obtain ⟨p, v, k1, -⟩ := (hi b).1 hb
    rw [g2] at k1; cases k1
  | failed g1 g2 g3 =>
    rw [h1] at g1; cases g1
    cases ho
    refine ⟨⟨fun h => (by cases h), ?_⟩, fun h => (by cases h)⟩
    rintro ⟨b, hb⟩
    obtain ⟨p, v, k1, k2, k3⟩ := (hi b).1 hb
    obtain ⟨e, he⟩ := g3 v k2
    rw [g2] at k1; cases k1
    cases hu g2 k3 he
  | converted g1 g2 g3 g4 g5 =>
    rw [h1] at g1; cases g1
    cases ho
    refine ⟨⟨fun _ => ⟨_, (hi _).2 ⟨_, _, g2, g3, g4⟩⟩, fun _ => rfl⟩, fun _ b => ?_⟩
    rw [hi b]
    constructor
    · rintro ⟨p, v, k1, k2, k3⟩
      rw [g2] at k1; cases k1
      rw [g3] at k2; cases k2
      cases hu g2 k3 g4
      subst g5
      rfl
    · intro hst
      simp only [Step, Option.map_some, Outcome.done.injEq, true_and, Ret.data.injEq, Option.some.injEq] at hst
      subst hst g5
      exact ⟨_, _, g2, g3, g4⟩

/-- **C39, JSON to binary.** After any sequence of calls, a conversion succeeds if and only if it does with the definition loaded first
for the contract, and then `abieos_get_bin_data` gives the bytes of that conversion: neither other contracts nor earlier conversions
matter. -/
theorem c39_json_to_bin {type json : Option Bytes} {c' : Option Ctx} {r : Ret} (hs : Step env (some c) (.jsonToBin k type json) (.done c' r)) :
    (r = .bool true ↔ ∃ b, Converts env JsonToBin D (cstr type) (cstr json) b) ∧
      (r = .bool true → ∀ b, Converts env JsonToBin D (cstr type) (cstr json) b ↔ Step env c' .getBinData (.done c' (.data (some b)))) :=
  convert_answers hc hf conv_jsonToBin hs

/-- **C39, reorderable conversion.** -/
theorem c39_json_to_bin_reorderable {type json : Option Bytes} {c' : Option Ctx} {r : Ret}
    (hs : Step env (some c) (.jsonToBinReorderable k type json) (.done c' r)) :
    (r = .bool true ↔ ∃ b, Converts env JsonToBinReorderable D (cstr type) (cstr json) b) ∧
      (r = .bool true → ∀ b, Converts env JsonToBinReorderable D (cstr type) (cstr json) b ↔ Step env c' .getBinData (.done c' (.data (some b)))) :=
  convert_answers hc hf conv_reorderable hs

/-- **C39 and C34, binary to JSON.** The text returned is that of decoding all of the bytes with the definition loaded first for the
contract; if that is impossible, or leaves bytes over, the call fails. -/
theorem c39_bin_to_json {type data : Option Bytes} {c' : Option Ctx} {r : Ret} (hs : Step env (some c) (.binToJson k type data) (.done c' r)) (t : Option Bytes) :
    r = .str t ↔ (t = none ∧ ¬ ∃ t', DecodesAll env D (cstr type) (data.getD []) t') ∨ ∃ t', t = some (cut t') ∧ DecodesAll env D (cstr type) (data.getD []) t' := by
  obtain ⟨a, h1, h2, -⟩ := firstLoad_has hc hf
  have hi := fun t => decodesAll_iff (env := env) h2 (type := cstr type) (bin := data.getD []) (t := t)
  have hw := loaded_of (h2.lookup (cstr type))
  generalize ho : Outcome.done c' r = o at hs
  cases convertBin_end hs with
  | undefined => cases ho
  | failed g1 g2 g3 =>
    cases ho
    have hno : ¬ ∃ t', DecodesAll env D (cstr type) (data.getD []) t' := by
      rintro ⟨t', ht⟩
      obtain ⟨p, k1, k2⟩ := (hi t').1 ht
      rcases g3 a h1 with ⟨e, he⟩ | ⟨p', r, he, hr, hn⟩
      · rw [he] at k1; cases k1
      · rw [he] at k1; cases k1
        exact hn t' (binToJson_unique hw.wf (c26_found h2 he) hr k2)
    constructor
    · intro h; cases h; exact .inl ⟨rfl, hno⟩
    · rintro (⟨rfl, -⟩ | ⟨t', rfl, ht⟩)
      · rfl
      · exact absurd ⟨t', ht⟩ hno
  | decoded g1 g2 g3 g4 =>
    rw [h1] at g1; cases g1
    cases ho
    have hyes := (hi _).2 ⟨_, g2, g3⟩
    constructor
    · intro h; cases h; exact .inr ⟨_, rfl, hyes⟩
    · rintro (⟨rfl, hno⟩ | ⟨t', rfl, ht⟩)
      · exact absurd ⟨_, hyes⟩ hno
      · obtain ⟨p, k1, k2⟩ := (hi t').1 ht
        rw [g2] at k1; cases k1
        cases binToJson_unique hw.wf (c26_found h2 g2) g3 k2
        rfl

end

/-- **C39, hex to JSON** is binary to JSON on the bytes of the hex text; without them it fails. -/
theorem c39_hex_to_json {env : Env} {c : Ctx} {k : Nat} {type hex : Option Bytes} {c' : Option Ctx} {r : Ret}
    (hs : Step env (some c) (.hexToJson k type hex) (.done c' r)) :
    (∃ b, unhexLoop (cstr hex) = some b ∧ Step env (some c) (.binToJson k type (some b)) (.done c' r)) ∨ (unhexLoop (cstr hex) = none ∧ r = .str none) := by
  rcases convertHex_end hs with ⟨h1, h2⟩ | ⟨b, h1, h2⟩
  · cases h2; exact .inr ⟨h1, rfl⟩
  · exact .inl ⟨b, h1, h2⟩

/-- **C39, contracts that are not loaded.** If no load for the contract has succeeded, everything asked about it fails. -/
theorem c39_not_loaded {env : Env} {h : List (Call × Ret)} {c : Ctx} (hc : Calls env (some Ctx.init) h (some c)) {k : Nat}
    (hn : ∀ e ∈ h, e.2 = .bool true → ∀ D, ¬ Loads env e.1 k D) {q : Call} (hq : About q k) {c' : Option Ctx} {r : Ret} (hs : Step env (some c) q (.done c' r)) :
    Failure r := by
  have hl : c.contracts.lookup k = none := by
    rcases (calls_hasDef hc).2.2 k rfl with ⟨q', D', ⟨h1, b, a, rfl, -⟩, -⟩ | ⟨h1, -⟩
    · exact absurd h1 (hn (q', .bool true) (by simp) rfl D')
    · exact h1
  have hjson : ∀ {conv t j}, JsonEnd env conv k t j c (.done c' r) → Failure r := by
    intro conv t j h
    cases h with
    | notLoaded => rfl
    | noType => rfl
    | failed => rfl
    | converted h1 => rw [hl] at h1; cases h1
  have hbin : ∀ {t d}, BinEnd env k t d c (.done c' r) → Failure r := by
    intro t d h
    cases h with
    | failed h1 h2 => rfl
    | decoded h1 => rw [hl] at h1; cases h1
  cases q with
  | typeForAction k' n => cases hq; obtain ⟨x, rfl, h⟩ := handled_iff.1 hs; rw [hl] at h; cases h; rfl
  | typeForTable k' n => cases hq; obtain ⟨x, rfl, h⟩ := handled_iff.1 hs; rw [hl] at h; cases h; rfl
  | jsonToBin k' t j => cases hq; exact hjson (convertJson_end hs)
  | jsonToBinReorderable k' t j => cases hq; exact hjson (convertJson_end hs)
  | binToJson k' t d => cases hq; exact hbin (convertBin_end hs)
  | hexToJson k' t s =>
    cases hq
    rcases convertHex_end hs with ⟨-, h1⟩ | ⟨b, -, h1⟩
    · cases h1; rfl
    · exact hbin (convertBin_end h1)
  | _ => cases hq

/-- The conversions that answer, in terms of the definition. -/
theorem answers_json {env : Env} {h : List (Call × Ret)} {c : Ctx} (hc : Calls env (some Ctx.init) h (some c)) {k : Nat} {q : Call} {D : AbiDef}
    (hf : FirstLoad env h k q D) {conv : Table → Leaves → Ptr → JVal → Res Bytes → Prop} {broken : Table → Leaves → Ptr → List Tok → Option Err → Prop} (hcv : Conv conv broken) {type json : Bytes} {r : Ret} {b : Bytes} :
    (∃ c', Handled (.bool false) (some c) (ConvertJson env conv broken k type json) (.done (some c') r) ∧ ¬ Failure r ∧ c'.resultBin = b) ↔
      r = .bool true ∧ Converts env conv D type json b := by
  constructor
  · rintro ⟨c', h1, h2, h3⟩
    have hr : r = .bool true := by
      generalize ho : Outcome.done (some c') r = o at h1
      cases convertJson_end h1 with
      | undefined => cases ho
      | converted => cases ho; rfl
      | _ => cases ho; exact absurd rfl h2
    refine ⟨hr, ((convert_answers hc hf hcv h1).2 hr b).2 ?_⟩
    rw [← h3]; rfl
  · rintro ⟨rfl, hb⟩
    obtain ⟨a, h1, h2, -⟩ := firstLoad_has hc hf
    obtain ⟨p, v, k1, k2, k3⟩ := (converts_iff hcv h2).1 hb
    refine ⟨{ (c.setError (str "json parse error")).setTypes k (lookupType type a.types).2 with resultBin := b }, ?_, fun h => (by cases h), rfl⟩
    refine ⟨.returns _ (.bool true), ?_, rfl⟩
    unfold ConvertJson
    simp only [Ctx.setError, h1]
    generalize lookupType type a.types = x at k1 k3
    obtain ⟨x, T⟩ := x
    cases x with
    | error => cases k1
    | ok p' =>
      cases k1
      simp only [k2]
      exact ⟨_, k3, rfl⟩

theorem answers_bin {env : Env} {h : List (Call × Ret)} {c : Ctx} (hc : Calls env (some Ctx.init) h (some c)) {k : Nat} {q : Call} {D : AbiDef}
    (hf : FirstLoad env h k q D) {type data : Option Bytes} {r : Ret} :
    (∃ c', CallConvertBin env k type data (some c) (.done (some c') r) ∧ ¬ Failure r) ↔
      ∃ t, r = .str (some (cut t)) ∧ DecodesAll env D (cstr type) (data.getD []) t := by
  constructor
  · rintro ⟨c', h1, h2⟩
    have hs : ∃ t, r = .str t := by
      generalize ho : Outcome.done (some c') r = o at h1
      cases convertBin_end h1 with
      | undefined => cases ho
      | decoded => cases ho; exact ⟨_, rfl⟩
      | _ => cases ho; exact absurd rfl h2
    obtain ⟨t, rfl⟩ := hs
    rcases (c39_bin_to_json hc hf h1 t).1 rfl with ⟨rfl, -⟩ | ⟨t', rfl, ht⟩
    · exact absurd rfl h2
    · exact ⟨t', rfl, ht⟩
  · rintro ⟨t, rfl, ht⟩
    obtain ⟨a, h1, h2, -⟩ := firstLoad_has hc hf
    obtain ⟨p, k1, k3⟩ := (decodesAll_iff h2).1 ht
    refine ⟨{ (c.setError (str "binary decode error")).setTypes k (lookupType (cstr type) a.types).2 with resultStr := t }, ?_, fun h => (by cases h)⟩
    refine ⟨.returns _ (.str (some (cut t))), ?_, rfl⟩
    unfold ConvertBin
    simp only [Ctx.setError, h1]
    generalize lookupType (cstr type) a.types = x at k1 k3
    obtain ⟨x, T⟩ := x
    cases x with
    | error => cases k1
    | ok p' =>
      cases k1
      exact ⟨_, k3, rfl⟩

/-- **C39, isolation.** Take any two histories, with any other contracts loaded and any other calls made, in which the definition
loaded first for `k` is the same. Then every call about `k` answers the same: it can succeed in one context if and only if it can in
the other, with the same returned value and, if it converts JSON, the same bytes. -/
theorem c39_isolated {env : Env} {h h' : List (Call × Ret)} {c c' : Ctx} (hc : Calls env (some Ctx.init) h (some c)) (hc' : Calls env (some Ctx.init) h' (some c'))
    {k : Nat} {l l' : Call} {D : AbiDef} (hf : FirstLoad env h k l D) (hf' : FirstLoad env h' k l' D) {q : Call} (hq : About q k) (r : Ret) (b : Bytes) :
    Answers env c q r b ↔ Answers env c' q r b := by
  suffices H : ∀ {h h' : List (Call × Ret)} {c c' : Ctx}, Calls env (some Ctx.init) h (some c) → Calls env (some Ctx.init) h' (some c') → ∀ {l l' : Call},
      FirstLoad env h k l D → FirstLoad env h' k l' D → Answers env c q r b → Answers env c' q r b from
    ⟨H hc hc' hf hf', H hc' hc hf' hf⟩
  clear hc hc' hf hf'
  intro h h' c c' hc hc' l l' hf hf' ha
  have hA := firstLoad_has hc hf
  have hA' := firstLoad_has hc' hf'
  obtain ⟨c1, s1, s2, s3⟩ := ha
  have get : ∀ {c : Ctx}, c.resultBin = b → Step env (some c) .getBinData (.done (some c) (.data (some b))) := by
    intro c h; subst h; rfl
  have ret : ∀ {c : Ctx}, Step env (some c) .getBinData (.done (some c) (.data (some b))) → c.resultBin = b := by
    intro c h
    simp only [Step, Option.map_some, Outcome.done.injEq, true_and, Ret.data.injEq, Option.some.injEq] at h
    exact h.symm
  cases q with
  | typeForAction k' n =>
    cases hq
    obtain ⟨a, h1, -, h3, -⟩ := hA
    obtain ⟨a', h1', -, h3', -⟩ := hA'
    obtain ⟨x, rfl, s1⟩ := handled_iff.1 s1
    simp only [h1, h3] at s1
    cases hn : D.actionTypes.lookup n with
    | none => simp only [hn] at s1; cases s1; exact absurd rfl s2
    | some t =>
      simp only [hn] at s1
      cases s1
      exact ⟨c', ⟨_, rfl, by simp [h1', h3', hn]⟩, s2, fun h => (by cases h)⟩
  | typeForTable k' n =>
    cases hq
    obtain ⟨a, h1, -, -, h3⟩ := hA
    obtain ⟨a', h1', -, -, h3'⟩ := hA'
    obtain ⟨x, rfl, s1⟩ := handled_iff.1 s1
    simp only [h1, h3] at s1
    cases hn : D.tableTypes.lookup n with
    | none => simp only [hn] at s1; cases s1; exact absurd rfl s2
    | some t =>
      simp only [hn] at s1
      cases s1
      exact ⟨c', ⟨_, rfl, by simp [h1', h3', hn]⟩, s2, fun h => (by cases h)⟩
  | jsonToBin k' t j =>
    cases hq
    obtain ⟨c2, g1, g2, g3⟩ := (answers_json hc' hf' conv_jsonToBin).2 ((answers_json hc hf conv_jsonToBin).1 ⟨c1, s1, s2, ret (s3 rfl)⟩)
    exact ⟨c2, g1, g2, fun _ => get g3⟩
  | jsonToBinReorderable k' t j =>
    cases hq
    obtain ⟨c2, g1, g2, g3⟩ := (answers_json hc' hf' conv_reorderable).2 ((answers_json hc hf conv_reorderable).1 ⟨c1, s1, s2, ret (s3 rfl)⟩)
    exact ⟨c2, g1, g2, fun _ => get g3⟩
  | binToJson k' t d =>
    cases hq
    obtain ⟨c2, g1, g2⟩ := (answers_bin hc' hf').2 ((answers_bin hc hf).1 ⟨c1, s1, s2⟩)
    exact ⟨c2, g1, g2, fun h => (by cases h)⟩
  | hexToJson k' t s =>
    cases hq
    rcases convertHex_end s1 with ⟨-, h1⟩ | ⟨d, hd, h1⟩
    · cases h1; exact absurd rfl s2
    · obtain ⟨c2, g1, g2⟩ := (answers_bin hc' hf').2 ((answers_bin hc hf).1 ⟨c1, h1, s2⟩)
      refine ⟨c2, ⟨.returns c2 r, ?_, rfl⟩, g2, fun h => (by cases h)⟩
      unfold ConvertHex
      simp only [hd]
      exact ⟨_, g1, rfl⟩
  | _ => cases hq

/-! ## C40: the binary result -/

/-- **C40, the getters.** Whatever the context, `abieos_get_bin_data`, `abieos_get_bin_size` and `abieos_get_bin_hex` tell about the same
bytes: their number (if an `int` can hold it), and the text whose digits give the bytes back. -/
theorem c40_getters {env : Env} {c : Ctx} {b : Bytes} {r1 r2 r3 : Ret} {c1 c2 c3 : Option Ctx} (h1 : Step env (some c) .getBinData (.done c1 r1))
    (h2 : Step env (some c) .getBinSize (.done c2 r2)) (h3 : Step env (some c) .getBinHex (.done c3 r3)) (hb : r1 = .data (some b)) :
    (b.length < 2 ^ 31 → r2 = .int b.length) ∧ ∃ t, r3 = .str (some t) ∧ t.length = 2 * b.length ∧ unhexLoop t = some b := by
  cases h1
  cases hb
  cases h2
  simp only [Step] at h3
  obtain ⟨x, rfl, h3⟩ := handled_iff.1 h3
  cases h3
  beta_reduce
  refine ⟨fun h => ?_, _, rfl, ?_, unhexLoop_hexEncode _⟩
  · have : c.resultBin.length % 2 ^ 32 = c.resultBin.length := Nat.mod_eq_of_lt (by omega)
    simp only [toInt32, this, if_pos h]
  · clear h3
    generalize c.resultBin = l
    induction l with
    | nil => rfl
    | cons x s ih => simp only [hexEncode, List.length_cons, ih]; omega

/-- A call other than a conversion from JSON keeps the bytes. -/
theorem step_bin {env : Env} {q : Call} (hq : IsJsonToBin q = false) {c c' : Ctx} {r : Ret} (h : Step env (some c) q (.done (some c') r)) :
    c'.resultBin = c.resultBin := by
  have hload : IsLoad q = true → c'.resultBin = c.resultBin := by
    intro hq
    generalize ho : Outcome.done (some c') r = o at h
    cases load_end hq h with
    | refused h1 h2 h3 h4 => cases ho; exact h3
    | loaded _ _ h5 => cases ho; exact h5
  have hbin : ∀ {k t d}, BinEnd env k t d c (.done (some c') r) → c'.resultBin = c.resultBin := by
    intro k t d h
    cases h with
    | failed h1 h2 => exact h1
    | decoded _ _ _ h5 => exact h5
  cases q with
  | getError => cases h; rfl
  | getBinSize => cases h; rfl
  | getBinData => cases h; rfl
  | getBinHex => simp only [Step] at h; obtain ⟨x, rfl, h⟩ := handled_iff.1 h; cases h; rfl
  | stringToName s => cases h; rfl
  | nameToString n => simp only [Step] at h; obtain ⟨x, rfl, h⟩ := handled_iff.1 h; cases h; rfl
  | setAbi k s => exact hload rfl
  | setAbiBin k s => exact hload rfl
  | setAbiHex k s => exact hload rfl
  | typeForAction k n =>
    obtain ⟨x, rfl, h⟩ := handled_iff.1 h
    split at h
    · cases h; rfl
    · split at h <;> (cases h; rfl)
  | typeForTable k n =>
    obtain ⟨x, rfl, h⟩ := handled_iff.1 h
    split at h
    · cases h; rfl
    · split at h <;> (cases h; rfl)
  | binToJson k t d => exact hbin (convertBin_end h)
  | hexToJson k t s =>
    rcases convertHex_end h with ⟨-, h1⟩ | ⟨b, -, h1⟩
    · cases h1; rfl
    · exact hbin (convertBin_end h1)
  | jsonToBin => cases hq
  | jsonToBinReorderable => cases hq

theorem calls_bin {env : Env} {l : List (Call × Ret)} {c c' : Option Ctx} (h : Calls env c l c') : ∀ {c0 : Ctx}, c = some c0 →
    (∀ e ∈ l, IsJsonToBin e.1 = false) → ∃ c1, c' = some c1 ∧ c1.resultBin = c0.resultBin := by
  induction h with
  | nil => rintro c0 rfl -; exact ⟨c0, rfl, rfl⟩
  | @cons c c' c'' q r l h1 _ ih =>
    rintro c0 rfl hq
    have hx : ∃ c1, c' = some c1 := by
      by_cases hl : IsLoad q = true
      · generalize ho : Outcome.done c' r = o at h1
        cases load_end hl h1 with
        | refused => cases ho; exact ⟨_, rfl⟩
        | loaded => cases ho; exact ⟨_, rfl⟩
      · obtain ⟨c1, h2, -⟩ := step_keeps (by simpa using hl) h1
        exact ⟨c1, h2⟩
    obtain ⟨c1, rfl⟩ := hx
    obtain ⟨c2, h2, h3⟩ := ih rfl fun e he => hq e (List.mem_cons_of_mem _ he)
    exact ⟨c2, h2, h3.trans (step_bin (hq (q, r) (by simp)) h1)⟩

/-- **C40, until the next conversion.** The bytes `abieos_get_bin_data` gives are the same before and after any sequence of calls without
conversions from JSON: loads, conversions to JSON, texts, failing calls. -/
theorem c40_kept {env : Env} {l : List (Call × Ret)} {c : Ctx} {c' : Option Ctx} (h : Calls env (some c) l c') (hq : ∀ e ∈ l, IsJsonToBin e.1 = false) (b : Bytes) :
    Step env (some c) .getBinData (.done (some c) (.data (some b))) ↔ Step env c' .getBinData (.done c' (.data (some b))) := by
  obtain ⟨c1, rfl, h1⟩ := calls_bin h rfl hq
  simp only [Step, Option.map_some, h1, Outcome.done.injEq, true_and, Ret.data.injEq]

/-- **C40, failed conversions.** After a conversion from JSON that fails there are either no bytes to be fetched, or the contract is not
loaded or does not have the type, and the bytes are as before the call. Never are they those of a part of the new value. -/
theorem c40_failed {env : Env} {q : Call} (hq : IsJsonToBin q = true) {h : List (Call × Ret)} {c c' : Ctx} (hc : Calls env (some Ctx.init) h (some c))
    (hs : Step env (some c) q (.done (some c') (.bool false))) :
    c'.resultBin = [] ∨ (c'.resultBin = c.resultBin ∧ ∀ k type json, (q = .jsonToBin k type json ∨ q = .jsonToBinReorderable k type json) →
      ∀ l D, FirstLoad env h k l D → ¬ ∃ p, Denotes D (cstr type) p) := by
  have hj : ∀ {conv k} {t : Option Bytes} {j}, JsonEnd env conv k (cstr t) j c (.done (some c') (.bool false)) → c'.resultBin = [] ∨ (c'.resultBin = c.resultBin ∧
      ∀ l D, FirstLoad env h k l D → ¬ ∃ p, Denotes D (cstr t) p) := by
    intro conv k t j he
    cases he with
    | notLoaded h1 h2 h3 =>
      refine .inr ⟨h2, fun l D hf => ?_⟩
      obtain ⟨a, g1, -⟩ := firstLoad_has hc hf
      rw [h1] at g1; cases g1
    | noType h1 h2 h3 h4 =>
      refine .inr ⟨h3, fun l D hf => ?_⟩
      obtain ⟨a, g1, g2, -⟩ := firstLoad_has hc hf
      rw [h1] at g1; cases g1
      rintro ⟨p, k1⟩
      rw [(c26_lookup g2 _ p).2 k1] at h2; cases h2
    | failed h1 h2 h3 h4 h5 => exact .inl h4
  cases q with
  | jsonToBin k t j =>
    rcases hj (convertJson_end hs) with h1 | ⟨h1, h2⟩
    · exact .inl h1
    · refine .inr ⟨h1, ?_⟩
      rintro k' t' j' (h | h)
      · cases h; exact h2
      · cases h
  | jsonToBinReorderable k t j =>
    rcases hj (convertJson_end hs) with h1 | ⟨h1, h2⟩
    · exact .inl h1
    · refine .inr ⟨h1, ?_⟩
      rintro k' t' j' (h | h)
      · cases h
      · cases h; exact h2
  | _ => cases hq

theorem hexEncode_noNul : ∀ b : Bytes, cut (hexEncode b) = hexEncode b := by
  have hd : ∀ n : Fin 16, hexDigit n.val ≠ 0 := by decide
  intro b
  unfold cut
  suffices H : ∀ y ∈ hexEncode b, y ≠ 0 by
    generalize hexEncode b = l at H
    induction l with
    | nil => rfl
    | cons x s ih => rw [List.takeWhile_cons_of_pos (by simpa using H x (by simp)), ih fun y hy => H y (by simp [hy])]
  induction b with
  | nil => simp [hexEncode]
  | cons x s ih =>
    obtain ⟨h1, h2, -⟩ := nibbles x
    intro y hy
    simp only [hexEncode, List.mem_cons] at hy
    rcases hy with rfl | rfl | hy
    · exact hd ⟨_, h1⟩
    · exact hd ⟨_, h2⟩
    · exact ih y hy

/-- **C40, hex.** The text given by `abieos_get_bin_hex` can be passed to `abieos_hex_to_json`: that does the same as passing the bytes
given by `abieos_get_bin_data` to `abieos_bin_to_json`. -/
theorem c40_hex_then_decode {env : Env} {c c' : Ctx} {s b : Bytes} (h1 : Step env (some c) .getBinHex (.done (some c') (.str (some s))))
    (h2 : Step env (some c) .getBinData (.done (some c) (.data (some b)))) (c0 : Ctx) (k : Nat) (type : Option Bytes) (o : Outcome) :
    Step env (some c0) (.hexToJson k type (some s)) o ↔ Step env (some c0) (.binToJson k type (some b)) o := by
  simp only [Step] at h1
  obtain ⟨x, rfl, h1⟩ := handled_iff.1 h1
  cases h1
  cases h2
  have hx : unhexLoop (cstr (some (hexEncode c.resultBin))) = some c.resultBin := by
    show unhexLoop (cut _) = _
    rw [hexEncode_noNul, unhexLoop_hexEncode]
  constructor
  · intro h
    rcases convertHex_end h with ⟨g, -⟩ | ⟨b, g1, g2⟩
    · rw [hx] at g; cases g
    · rw [hx] at g1; cases g1; exact g2
  · intro h
    refine handled_iff.2 ⟨nested o, ?_, ?_⟩
    · unfold ConvertHex
      rw [hx]
      exact ⟨o, h, rfl⟩
    · obtain ⟨y, -, rfl⟩ := handled_iff.1 h
      cases y <;> rfl

/-- **C34, leftover bytes.** If the definition loaded first for the contract lets the type read a value from the beginning of the bytes
and something is left over, `abieos_bin_to_json` fails with the error `Extra data`. -/
theorem c34_extra_data {env : Env} {h : List (Call × Ret)} {c : Ctx} (hc : Calls env (some Ctx.init) h (some c)) {k : Nat} {l : Call} {D : AbiDef}
    (hf : FirstLoad env h k l D) {type data : Option Bytes} {T : Table} {p : Ptr} {t rest : Bytes} (hT : LoadTypes D (.ok T))
    (hp : (lookupType (cstr type) T).1 = .ok p) (hd : BinToJson (lookupType (cstr type) T).2 env.leaves p (data.getD []) (.ok (t, rest))) (hr : rest ≠ [])
    {o : Outcome} (hs : Step env (some c) (.binToJson k type data) o) :
    ∃ c', o = .done (some c') (.str none) ∧ Step env (some c') .getError (.done (some c') (.str (some (str "Extra data")))) := by
  obtain ⟨a, h1, h2, -⟩ := firstLoad_has hc hf
  have h0 : LoadedThen D T := ⟨T, [], hT, rfl⟩
  have hp' := (c26_lookup h2 (cstr type) p).2 ((c26_lookup h0 (cstr type) p).1 hp)
  have l := loaded_of (h0.lookup (cstr type))
  have l' := loaded_of (h2.lookup (cstr type))
  have hd' := (agree_binToJson (agree_loaded l l') l.wf l'.wf ⟨c26_found h0 hp, c26_found h2 hp'⟩ _ _ _).2 hd
  have hv := c26_found h2 hp'
  obtain ⟨x, h3, rfl⟩ := handled_iff.1 hs
  unfold ConvertBin at h3
  simp only [Ctx.setError, h1] at h3
  generalize lookupType (cstr type) a.types = y at hp' hd' h3 l' hv
  obtain ⟨y, T'⟩ := y
  cases y with
  | error => cases hp'
  | ok p' =>
    cases hp'
    obtain ⟨r, h4, rfl⟩ := h3
    cases binToJson_unique l'.wf hv h4 hd'
    simp only [if_neg hr]
    exact ⟨_, rfl, rfl⟩

end Abieos
