import Verif.Spec.Malformed
import Verif.Props.Defined
import Verif.Props.Wire
import Verif.Proofs.ShortText
/-!
**C66.** Texts that are not JSON.
-/
namespace Abieos
open Spec

/-- The events of a document are not the beginning of those of another one. -/
theorem toks_prefixFree {v v' : JVal} {rest : List Tok} (h : v'.toks = v.toks ++ rest) : rest = [] := by
  have h1 := skip_value v rest
  have h2 := skip_value v' []
  rw [List.append_nil, h, h1] at h2
  exact Except.ok.inj h2

theorem cuts_ne {env : Env} {text : Bytes} (h : env.read text = none) {v : JVal} {rest : List Tok} (hv : v.toks = env.upTo text ++ rest) : rest ≠ [] := by
  rintro rfl
  rw [List.append_nil] at hv
  obtain ⟨v', rest', h1, h2⟩ := env.cuts text h
  rw [← hv] at h2
  exact h1 (toks_prefixFree h2)

theorem failed_done {c : Ctx} {e : Err} {c' : Option Ctx} {r : Ret} (h : Outcome.done c' r = (failed c e).handled (.bool false)) :
    e ≠ .ub ∧ r = .bool false ∧ c' = some (c.setError (str e.what)) := by
  unfold failed at h
  split at h
  · cases h
  · rename_i he
    cases h
    exact ⟨he, rfl, rfl⟩

theorem handled_failed {c : Ctx} {e : Err} (he : e ≠ .ub) : (failed c e).handled (.bool false) = .done (some (c.setError (str e.what))) (.bool false) := by
  rw [failed, if_neg he]
  rfl

theorem malformed_done {c : Ctx} {e : Option Err} {x : Out} {c' : Option Ctx} {r : Ret} (hm : Malformed c e x) (h : Outcome.done c' r = x.handled (.bool false)) :
    r = .bool false ∧ ∃ w, c' = some (c.setError w) ∧ ((e = none ∧ SyntaxMessage w) ∨ ∃ e', e = some e' ∧ e' ≠ .ub ∧ w = str e'.what) := by
  cases e with
  | some e =>
    cases hm
    obtain ⟨h1, h2, h3⟩ := failed_done h
    exact ⟨h2, _, h3, .inr ⟨e, rfl, h1, rfl⟩⟩
  | none =>
    obtain ⟨m, h1, rfl⟩ := hm
    cases h
    exact ⟨rfl, _, rfl, .inl ⟨rfl, m, h1, rfl⟩⟩

/-- **C66.** `abieos_json_to_bin` with a text that is not JSON fails, if it is defined; the error is the JSON reader's, or the one that every
document with the same beginning gives. -/
theorem c66_json_to_bin {env : Env} {h : List (Call × Ret)} {c : Ctx} (hc : Calls env (some Ctx.init) h (some c)) {k : Nat} {type json : Option Bytes}
    (hm : env.read (cstr json) = none) {c' : Option Ctx} {r : Ret} (hs : Step env (some c) (.jsonToBin k type json) (.done c' r)) :
    r = .bool false ∧ ∃ w, Step env c' .getError (.done c' (.str (some w))) ∧ w ≠ [] ∧ (SyntaxMessage w ∨
      ∀ text v, env.read (cstr text) = some v → SameBeginning env (cstr json) v → FailsWith env c (.jsonToBin k type text) w) := by
  obtain ⟨x, h1, h2⟩ := handled_iff.1 hs
  have hg : ∀ a, c.contracts.lookup k = some a → ∃ D, LoadedThen D a.types := by
    intro a ha
    rcases (calls_hasDef hc).2.2 k rfl with ⟨q, D, hf, a', h3, h4, -⟩ | ⟨h3, -⟩
    · rw [ha] at h3; cases h3; exact ⟨D, h4⟩
    · rw [ha] at h3; cases h3
  cases ha : c.contracts.lookup k with
  | none =>
    have key : ∀ {text x}, ConvertJson env JsonToBin OrderedBroken k (cstr type) (cstr text) c x →
        x = .returns ((c.setError (str "json parse error")).setError (notLoaded k)) (.bool false) := by
      intro text x hx
      unfold ConvertJson at hx
      simp only [Ctx.lookup_setError, ha] at hx
      exact hx
    have := key h1
    subst this
    cases h2
    refine ⟨rfl, _, rfl, ?_, .inr fun text v hv hb o ho => ?_⟩
    · simp [Ctx.setError, notLoaded, str]
    · obtain ⟨x', h3, rfl⟩ := handled_iff.1 ho
      have := key h3
      subst this
      exact ⟨_, rfl, rfl⟩
  | some a =>
    obtain ⟨D, hD⟩ := hg a ha
    have hl := loaded_of (hD.lookup (cstr type))
    cases hl' : lookupType (cstr type) a.types with
    | mk q T =>
    rw [hl'] at hl
    have h3 := h1
    unfold ConvertJson at h3
    simp only [Ctx.lookup_setError, ha, hl'] at h3
    cases q with
    | error e =>
      simp only at h3
      subst h3
      obtain ⟨g1, g2, g3⟩ := failed_done h2
      subst g2 g3
      refine ⟨rfl, _, rfl, what_ne e, .inr fun text v hv hb o ho => ?_⟩
      obtain ⟨x', h4, rfl⟩ := handled_iff.1 ho
      have h5 := h4
      unfold ConvertJson at h5
      simp only [Ctx.lookup_setError, ha, hl'] at h5
      subst h5
      exact ⟨_, handled_failed g1, rfl⟩
    | ok p =>
      simp only [hm] at h3
      obtain ⟨e, ⟨q, h4, h5⟩, h6⟩ := h3
      obtain ⟨h7, w, h8, h9⟩ := malformed_done h6 h2
      subst h7 h8
      refine ⟨rfl, w, rfl, ?_, ?_⟩
      · rcases h9 with ⟨-, m, h9, rfl⟩ | ⟨e', -, -, rfl⟩
        · exact syntaxErrors_ne h9
        · exact what_ne _
      · rcases h9 with ⟨-, h9⟩ | ⟨e', rfl, he, rfl⟩
        · exact .inl h9
        · right
          rintro text v hv ⟨rest, hb⟩ o ho
          obtain ⟨x', h10, rfl⟩ := handled_iff.1 ho
          have h11 := h10
          unfold ConvertJson at h11
          simp only [Ctx.lookup_setError, ha, hl', hv] at h11
          obtain ⟨r, h12, rfl⟩ := h11
          have hr : TokensToBin T env.leaves p v.toks (.error e') := by
            rw [← hb]
            cases q with
            | ok b =>
              cases h5
              exact (ordered_cut h4).1 b rfl rest (cuts_ne hm hb.symm)
            | error e =>
              simp only [foundIn] at h5
              split at h5
              · cases h5
              · rename_i hne
                cases h5
                exact ((ordered_cut h4).2 _ rfl).resolve_left hne rest
          obtain ⟨y, -, hy⟩ := c32_ordered_terminates (L := env.leaves) hl.wf p v.toks
          rw [(hy _ h12).trans (hy _ hr).symm]
          exact ⟨_, handled_failed he, rfl⟩

/-- **C66.** `abieos_json_to_bin_reorderable` with a text that is not JSON, for a contract that is loaded and a type it has, fails
with `Unspecific syntax error`; no bytes are left. -/
theorem c66_reorderable {env : Env} {h : List (Call × Ret)} {c : Ctx} (hc : Calls env (some Ctx.init) h (some c)) {k : Nat} {q : Call} {D : AbiDef}
    (hf : FirstLoad env h k q D) {type json : Option Bytes} {p : Ptr} (hp : Denotes D (cstr type) p) (hm : env.read (cstr json) = none) {o : Outcome}
    (hs : Step env (some c) (.jsonToBinReorderable k type json) o) : ∃ c', o = .done (some c') (.bool false) ∧
      Step env (some c') .getError (.done (some c') (.str (some (str "Unspecific syntax error")))) ∧
      Step env (some c') .getBinData (.done (some c') (.data (some []))) := by
  obtain ⟨x, h1, rfl⟩ := handled_iff.1 hs
  obtain ⟨a, ha, h4, -⟩ := firstLoad_has hc hf
  have hp' := (c26_lookup h4 (cstr type) p).2 hp
  unfold ConvertJson at h1
  simp only [Ctx.lookup_setError, ha] at h1
  cases hl' : lookupType (cstr type) a.types with
  | mk r T =>
  rw [hl'] at hp'
  cases hp'
  simp only [hl', hm] at h1
  obtain ⟨e, rfl, h1⟩ := h1
  cases h1
  exact ⟨_, rfl, rfl, rfl⟩

/-- **C66.** After `abieos_json_to_bin` with a text that is not JSON, for a contract that is loaded and a type it has, no bytes are left. -/
theorem c66_no_bytes {env : Env} {h : List (Call × Ret)} {c : Ctx} (hc : Calls env (some Ctx.init) h (some c)) {k : Nat} {q : Call} {D : AbiDef}
    (hf : FirstLoad env h k q D) {type json : Option Bytes} {p : Ptr} (hp : Denotes D (cstr type) p) (hm : env.read (cstr json) = none) {c' : Option Ctx} {r : Ret}
    (hs : Step env (some c) (.jsonToBin k type json) (.done c' r)) : Step env c' .getBinData (.done c' (.data (some []))) := by
  obtain ⟨x, h1, h2⟩ := handled_iff.1 hs
  obtain ⟨a, ha, h4, -⟩ := firstLoad_has hc hf
  have hp' := (c26_lookup h4 (cstr type) p).2 hp
  unfold ConvertJson at h1
  simp only [Ctx.lookup_setError, ha] at h1
  cases hl' : lookupType (cstr type) a.types with
  | mk r T =>
  rw [hl'] at hp'
  cases hp'
  simp only [hl', hm] at h1
  obtain ⟨e, -, h1⟩ := h1
  obtain ⟨-, w, rfl, -⟩ := malformed_done h1 h2
  rfl

/-- **C66.** `abieos_set_abi` with a text that is not JSON fails and loads nothing; the error is the JSON reader's, or the one that every
document with the same beginning gives. -/
theorem c66_set_abi {env : Env} {c : Ctx} {k : Nat} {json : Option Bytes} (hm : env.read (cstr json) = none) {o : Outcome}
    (hs : Step env (some c) (.setAbi k json) o) : ∃ c' w, o = .done (some c') (.bool false) ∧ c'.contracts = c.contracts ∧
      Step env (some c') .getError (.done (some c') (.str (some w))) ∧ w ≠ [] ∧ (SyntaxMessage w ∨
      ∀ text v, env.read (cstr text) = some v → SameBeginning env (cstr json) v → FailsWith env c (.setAbi k text) w) := by
  obtain ⟨x, h1, rfl⟩ := handled_iff.1 hs
  unfold SetAbi at h1
  simp only [hm] at h1
  obtain ⟨v, rest, k1, k2⟩ := env.cuts _ hm
  obtain ⟨e, k3, k4, k5⟩ := abiDef_cut_defined k1 k2
  simp only [k3] at h1
  obtain ⟨w, hw, rfl⟩ := malformed_throws (fun h => k4 (foundIn_ub.1 h)) h1
  refine ⟨_, w, rfl, rfl, rfl, hw, ?_⟩
  obtain ⟨-, w', h3, h4⟩ := malformed_done h1 rfl
  have hw' : w = w' := by
    have := congrArg (Option.map (·.lastError)) h3
    simpa [Ctx.setError] using this
  subst hw'
  rcases h4 with ⟨-, h4⟩ | ⟨e', h4, he, rfl⟩
  · exact .inl h4
  · right
    rintro text v' hv ⟨rest', hb⟩ o ho
    obtain ⟨x', h5, rfl⟩ := handled_iff.1 ho
    unfold SetAbi at h5
    simp only [hv] at h5
    unfold foundIn at h4
    split at h4
    · cases h4
    · rename_i hne
      cases h4
      have := k5.resolve_left hne rest'
      rw [hb] at this
      simp only [this] at h5
      subst h5
      exact ⟨_, handled_failed he, rfl⟩

/-- **C66.** With the library's reader and builtin types, a conversion of any text of less than 2^31 - 1 bytes, JSON or not, is defined, after any calls
that loaded no struct with 2^31 fields. -/
theorem c66_defined {F : Floats} {h : List (Call × Ret)} {c : Ctx} (hc : Calls (libEnv F) (some Ctx.init) h (some c)) {k : Nat}
    (hs : ∀ q D, FirstLoad (libEnv F) h k q D → SmallDef D) {type json : Option Bytes} (hl : (cstr json).length < 2147483647) :
    ¬ Step (libEnv F) (some c) (.jsonToBin k type json) .undefined ∧ ¬ Step (libEnv F) (some c) (.jsonToBinReorderable k type json) .undefined := by
  refine c51_call_json_to_bin rfl hc hs ?_
  unfold ShortText
  cases hr : (libEnv F).read (cstr json) with
  | some v => exact read_short hl hr
  | none => exact upTo_short hl hr

/-- The events reported of a text do not depend on the step budget of the reader. -/
theorem c66_budget (s : Bytes) (n : Nat) (h : 2 * s.length + 2 ≤ n) :
    Reader.value n s = Reader.value (2 * s.length + 2) s ∧ Reader.valueTo n s = Reader.valueTo (2 * s.length + 2) s := by
  induction n with
  | zero => omega
  | succ n ih =>
    by_cases he : 2 * s.length + 2 = n + 1
    · rw [he]; exact ⟨rfl, rfl⟩
    · obtain ⟨h1, h2⟩ := ih (by omega)
      obtain ⟨h3, h4⟩ := (value_fuel n).1 s (by omega)
      exact ⟨h3.trans h1, h4.trans h2⟩

/-- Of a document all events are reported, and of another text the beginning of the events of some document. -/
theorem c66_events (F : Floats) (text : Bytes) : (∀ v, (libEnv F).read text = some v → (libEnv F).upTo text = v.toks) ∧
    ((libEnv F).read text = none → ∃ (v : JVal) (rest : List Tok), rest ≠ [] ∧ v.toks = (libEnv F).upTo text ++ rest) :=
  ⟨fun _ => upTo_doc, upTo_cut text⟩

/-! ## Examples -/

namespace CApiExample
open Abieos.Example Abieos.LoaderExample

/-- an array that is not closed -/
def openText : Bytes := str "{\"a\":[1,2"

/-- an object that is not closed, with an element that is no `uint8` -/
def openBadText : Bytes := str "{\"a\":[1,300],"

theorem none_of {text : Bytes} (h : (Reader.read (cstr (some text))).isNone = true) : env.read (cstr (some text)) = none := by
  show Reader.read (cstr (some text)) = none
  cases hr : Reader.read (cstr (some text)) with
  | none => rfl
  | some v => rw [hr] at h; cases h

theorem open_none : env.read (cstr (some openText)) = none ∧ env.read (cstr (some openBadText)) = none :=
  ⟨none_of (by decide +kernel), none_of (by decide +kernel)⟩

theorem events_of {text : Bytes} {ts : List Tok} (h : decide (Reader.upTo (cstr (some text)) = ts) = true) : env.upTo (cstr (some text)) = ts :=
  of_decide_eq_true h

/-- What is reported of them. -/
theorem open_events : env.upTo (cstr (some openText)) = [.startObj, .key (str "a"), .startArr, .str (str "1"), .str (str "2")] ∧
    env.upTo (cstr (some openBadText)) = [.startObj, .key (str "a"), .startArr, .str (str "1"), .str (str "300"), .endArr] := by
  exact ⟨events_of (by decide +kernel), events_of (by decide +kernel)⟩

theorem tokens_error {T : Table} {L : Leaves} {p : Ptr} {ts : List Tok} {e : Err} (n : Nat) (h : (match iter (stepO T L) n (initO p ts) with
    | some (.error e') => decide (e' = e) | _ => false) = true) : TokensToBin T L p ts (.error e) := by
  split at h
  · rename_i e' he
    rw [of_decide_eq_true h] at he
    exact ⟨_, ⟨n, he⟩, rfl⟩
  · cases h

/-- The first has no error before its end, so the error is the reader's; the second has the error of its element. -/
theorem open_errors : OrderedBroken (lookupType (str "s") T1).2 env.leaves (str "s") (env.upTo (cstr (some openText))) none ∧
    OrderedBroken (lookupType (str "s") T1).2 env.leaves (str "s") (env.upTo (cstr (some openBadText))) (some .number_out_of_range) := by
  rw [open_events.1, open_events.2]
  exact ⟨⟨.error noToken, tokens_error 40 (by decide +kernel), rfl⟩, ⟨.error .number_out_of_range, tokens_error 40 (by decide +kernel), rfl⟩⟩

/-- C66 applied to them. -/
example : ∃ c, Calls env (some Ctx.init) loads (some c) ∧ ∀ json, json = openText ∨ json = openBadText →
    ∀ c' r, Step env (some c) (.jsonToBin 5 (some (str "s")) (some json)) (.done c' r) → r = .bool false := by
  obtain ⟨c, hc⟩ := loads_calls
  refine ⟨c, hc, ?_⟩
  rintro json (rfl | rfl) c' r h
  · exact (c66_json_to_bin hc open_none.1 h).1
  · exact (c66_json_to_bin hc open_none.2 h).1

/-- A document with the same beginning as the second. -/
example : SameBeginning env (cstr (some openBadText)) (.obj [(str "a", .arr [.str (str "1"), .str (str "300")]), (str "b", .null)]) := by
  unfold SameBeginning
  rw [open_events.2]
  exact ⟨[.key (str "b"), .null, .endObj], rfl⟩

end CApiExample

end Abieos
