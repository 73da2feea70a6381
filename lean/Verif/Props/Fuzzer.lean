import Verif.Spec.Fuzzer
import Verif.Props.Defined
/-
C75: what the fuzzer runs.
-/
namespace Abieos
open Spec

theorem zeroEnded_iff {b : Bytes} : ZeroEnded b ↔ b ≠ [] ∧ b.getD (b.length - 1) 0 = 0 := by
  constructor
  · rintro ⟨a, rfl⟩
    simp
  · rintro ⟨h1, h2⟩
    refine ⟨b.dropLast, ?_⟩
    have h3 : b.getLast h1 = 0 := by
      rw [List.getLast_eq_getElem]
      have hl : b.length - 1 < b.length := by have := List.length_pos_iff.2 h1; omega
      rwa [List.getD_eq_getElem?_getD, List.getElem?_eq_getElem hl] at h2
    conv => lhs; rw [← List.dropLast_append_getLast h1, h3]

theorem getZeroTerminated_iff {n : Nat} {s a rest : Bytes} : getZeroTerminated n s = (some a, rest) ↔ s = a ++ rest ∧ a.length = n ∧ ZeroEnded a := by
  unfold getZeroTerminated
  constructor
  · intro h
    split at h
    · cases h
    · rename_i h1
      split at h
      · cases h
      · rename_i h2
        cases h
        have hl : (s.take n).length = n := by rw [List.length_take]; omega
        refine ⟨(List.take_append_drop n s).symm, hl, zeroEnded_iff.2 ⟨?_, ?_⟩⟩
        · intro h0; rw [h0] at hl; exact h2 (.inl hl.symm)
        · rw [hl]
          have h3 : n ≠ 0 := fun h => h2 (.inl h)
          have h4 : s.getD (n - 1) 0 = 0 := Classical.not_not.1 fun h => h2 (.inr h)
          rw [List.getD_eq_getElem?_getD, List.getElem?_take_of_lt (by omega), ← List.getD_eq_getElem?_getD, h4]
  · rintro ⟨rfl, rfl, h⟩
    obtain ⟨h1, h2⟩ := zeroEnded_iff.1 h
    have hp := List.length_pos_iff.2 h1
    rw [if_neg (by simp), if_neg, List.take_left, List.drop_left]
    rintro (h3 | h3)
    · omega
    · apply h3
      rw [List.getD_eq_getElem?_getD, List.getElem?_append_left (by omega), ← List.getD_eq_getElem?_getD, h2]

/-- The bytes of a header. -/
theorem header_bytes {input : Bytes} (h : 24 ≤ input.length) : ∃ pad contract abiSize typeSize : Bytes,
    pad.length = 6 ∧ contract.length = 8 ∧ abiSize.length = 4 ∧ typeSize.length = 4 ∧
    input = (fuzzHeader input).abiIsBin :: (fuzzHeader input).operation :: (pad ++ (contract ++ (abiSize ++ (typeSize ++ input.drop 24)))) ∧
    leVal contract = (fuzzHeader input).contract ∧ leVal abiSize = (fuzzHeader input).abiSize ∧ leVal typeSize = (fuzzHeader input).typeSize := by
  match input, h with
  | a :: b :: s, h =>
    simp only [List.length_cons] at h
    refine ⟨s.take 6, (s.drop 6).take 8, (s.drop 14).take 4, (s.drop 18).take 4, ?_, ?_, ?_, ?_, ?_, rfl, rfl, rfl⟩
    · rw [List.length_take]; omega
    · rw [List.length_take, List.length_drop]; omega
    · rw [List.length_take, List.length_drop]; omega
    · rw [List.length_take, List.length_drop]; omega
    · show a :: b :: s = a :: b :: (_ ++ (_ ++ (_ ++ (_ ++ s.drop 22))))
      have e1 : (s.drop 18).take 4 ++ s.drop 22 = s.drop 18 := by rw [show s.drop 22 = (s.drop 18).drop 4 by rw [List.drop_drop], List.take_append_drop]
      have e2 : (s.drop 14).take 4 ++ s.drop 18 = s.drop 14 := by rw [show s.drop 18 = (s.drop 14).drop 4 by rw [List.drop_drop], List.take_append_drop]
      have e3 : (s.drop 6).take 8 ++ s.drop 14 = s.drop 6 := by rw [show s.drop 14 = (s.drop 6).drop 8 by rw [List.drop_drop], List.take_append_drop]
      rw [e1, e2, e3, List.take_append_drop]

theorem header_of {pad contract abiSize typeSize rest : Bytes} {a b : UInt8} (h1 : pad.length = 6) (h2 : contract.length = 8) (h3 : abiSize.length = 4)
    (h4 : typeSize.length = 4) :
    fuzzHeader (a :: b :: (pad ++ (contract ++ (abiSize ++ (typeSize ++ rest))))) = ⟨a, b, leVal contract, leVal abiSize, leVal typeSize⟩ ∧
    (a :: b :: (pad ++ (contract ++ (abiSize ++ (typeSize ++ rest))))).drop 24 = rest := by
  have e1 : (pad ++ (contract ++ (abiSize ++ (typeSize ++ rest)))).drop 6 = contract ++ (abiSize ++ (typeSize ++ rest)) := by rw [← h1, List.drop_left]
  have e2 : (pad ++ (contract ++ (abiSize ++ (typeSize ++ rest)))).drop 14 = abiSize ++ (typeSize ++ rest) := by
    rw [show 14 = 6 + 8 from rfl, ← List.drop_drop, e1, ← h2, List.drop_left]
  have e3 : (pad ++ (contract ++ (abiSize ++ (typeSize ++ rest)))).drop 18 = typeSize ++ rest := by
    rw [show 18 = 14 + 4 from rfl, ← List.drop_drop, e2, ← h3, List.drop_left]
  have e4 : (pad ++ (contract ++ (abiSize ++ (typeSize ++ rest)))).drop 22 = rest := by
    rw [show 22 = 18 + 4 from rfl, ← List.drop_drop, e3, ← h4, List.drop_left]
  constructor
  · show FuzzHeader.mk a b (leVal (List.take 8 (List.drop 6 _))) (leVal (List.take 4 (List.drop 14 _))) (leVal (List.take 4 (List.drop 18 _))) = _
    rw [e1, e2, e3]
    congr 2
    · rw [← h2, List.take_left]
    · rw [← h3, List.take_left]
    · rw [← h4, List.take_left]
  · exact e4

/-- **C75.** The fuzzer takes an input apart exactly as it was put together, and inputs that are not put together so are not run. -/
theorem c75_pieces {input : Bytes} {h : FuzzHeader} {abi type data : Bytes} : fuzzPieces input = some (h, abi, type, data) ↔ FuzzInput input h abi type data := by
  unfold fuzzPieces FuzzInput
  constructor
  · intro hx
    split at hx
    · cases hx
    rename_i hl
    obtain ⟨pad, contract, abiSize, typeSize, p1, p2, p3, p4, p5, p6, p7, p8⟩ := header_bytes (input := input) (by omega)
    simp only at hx
    cases e1 : getZeroTerminated (fuzzHeader input).abiSize (input.drop 24) with | mk o1 s1 =>
    cases e2 : getZeroTerminated (fuzzHeader input).typeSize s1 with | mk o2 s2 =>
    cases e3 : getZeroTerminated s2.length s2 with | mk o3 s3 =>
    simp only [e1, e2, e3] at hx
    split at hx
    · cases hx
      obtain ⟨f1, f2, f3⟩ := getZeroTerminated_iff.1 e1
      obtain ⟨g1, g2, g3⟩ := getZeroTerminated_iff.1 e2
      obtain ⟨k1, k2, k3⟩ := getZeroTerminated_iff.1 e3
      have hs3 : s3 = [] := by
        have := congrArg List.length k1
        rw [List.length_append] at this
        exact List.length_eq_zero_iff.1 (by omega)
      rw [hs3, List.append_nil] at k1
      refine ⟨pad, contract, abiSize, typeSize, p1, p2, p3, p4, ?_, p6, p7, p8, f2, g2, f3, g3, k3⟩
      rw [f1, g1, k1] at p5
      exact p5
    · cases hx
  · rintro ⟨pad, contract, abiSize, typeSize, p1, p2, p3, p4, p5, p6, p7, p8, q1, q2, z1, z2, z3⟩
    obtain ⟨e1, e2⟩ := header_of (a := h.abiIsBin) (b := h.operation) (rest := abi ++ (type ++ data)) p1 p2 p3 p4
    rw [← p5] at e1 e2
    rw [p6, p7, p8] at e1
    rw [if_neg (by rw [p5]; simp only [List.length_cons, List.length_append]; omega)]
    simp only
    rw [e2, e1, getZeroTerminated_iff.2 ⟨rfl, q1, z1⟩]
    simp only
    rw [getZeroTerminated_iff.2 ⟨rfl, q2, z2⟩]
    simp only
    rw [getZeroTerminated_iff.2 ⟨(List.append_nil data).symm, rfl, z3⟩]

/-- **C75.** One input is taken apart in one way. -/
theorem c75_unambiguous {input : Bytes} {h h' : FuzzHeader} {abi type data abi' type' data' : Bytes} (hi : FuzzInput input h abi type data)
    (hi' : FuzzInput input h' abi' type' data') : h = h' ∧ abi = abi' ∧ type = type' ∧ data = data' := by
  have := (c75_pieces.2 hi).symm.trans (c75_pieces.2 hi')
  cases this
  exact ⟨rfl, rfl, rfl, rfl⟩

theorem fuzzCalls_some {env : Env} : ∀ {l : List Call} {c : Option Ctx} {t : List (Call × Ret)},
    FuzzCalls env c l (some t) ↔ (∃ c', Calls env c t c') ∧ t.map (·.1) = l
  | [], c, t => by
    unfold FuzzCalls
    constructor
    · intro h; cases h; exact ⟨⟨_, .nil⟩, rfl⟩
    · rintro ⟨-, h⟩; cases List.map_eq_nil_iff.1 h; rfl
  | q :: l, c, t => by
    unfold FuzzCalls
    constructor
    · rintro ⟨x, h1, h2⟩
      cases x with
      | undefined => cases h2
      | done c' r =>
        obtain ⟨o', h3, h4⟩ := h2
        cases o' with
        | none => cases h4
        | some t' =>
          cases h4
          obtain ⟨⟨c'', h5⟩, h6⟩ := fuzzCalls_some.1 h3
          exact ⟨⟨_, .cons h1 h5⟩, by rw [List.map_cons, h6]⟩
    · rintro ⟨⟨c', h1⟩, h2⟩
      cases h1 with
      | nil => cases h2
      | cons h3 h4 =>
        cases h2
        exact ⟨_, h3, _, fuzzCalls_some.2 ⟨⟨_, h4⟩, rfl⟩, rfl⟩

theorem fuzzCalls_none {env : Env} : ∀ {l : List Call} {c : Option Ctx}, FuzzCalls env c l none →
    ∃ before q after t c', l = before ++ q :: after ∧ Calls env c t c' ∧ t.map (·.1) = before ∧ Step env c' q .undefined
  | [], c, h => by cases h
  | q :: l, c, h => by
    obtain ⟨x, h1, h2⟩ := h
    cases x with
    | undefined => exact ⟨[], q, l, [], c, rfl, .nil, rfl, h1⟩
    | done c' r =>
      obtain ⟨o', h3, h4⟩ := h2
      cases o' with
      | some t => cases h4
      | none =>
        obtain ⟨before, q', after, t, c'', rfl, h5, rfl, h6⟩ := fuzzCalls_none h3
        exact ⟨q :: t.map (·.1), q', after, (q, r) :: t, c'', rfl, .cons h1 h5, rfl, h6⟩

/-- The call with which the fuzzer loads the definition. -/
theorem fuzzLoad_eq (h : FuzzHeader) (abi : Bytes) : fuzzLoad h abi = if h.abiIsBin = 0 then .setAbi h.contract (some abi) else .setAbiBin h.contract (some abi) := by
  unfold fuzzLoad
  by_cases h0 : h.abiIsBin = 0
  · rw [if_neg (by simpa using h0), if_pos h0]
  · rw [if_pos h0, if_neg h0]

/-- **C75.** An input is run as one session on a fresh context: its definition is loaded, from JSON or binary, for its contract; if that succeeds, its data is converted
from JSON in both ways, or decoded. These calls and no others are made. -/
theorem c75_session {env : Env} {input : Bytes} {h : FuzzHeader} {abi type data : Bytes} (hi : FuzzInput input h abi type data) (l : List (Call × Ret)) :
    FuzzOne env input (some l) ↔ (∃ c, Calls env (some Ctx.init) l c) ∧ ∃ load, load = (if h.abiIsBin = 0 then Call.setAbi h.contract (some abi) else Call.setAbiBin h.contract (some abi)) ∧
      ((∃ r, r ≠ .bool true ∧ l = [(load, r)]) ∨ ∃ rest, l = (load, .bool true) :: rest ∧ rest.map (·.1) =
        if h.operation = 0 then [Call.jsonToBin h.contract (some type) (some data), Call.jsonToBinReorderable h.contract (some type) (some data)]
        else [Call.binToJson h.contract (some type) (some data)]) := by
  unfold FuzzOne
  rw [c75_pieces.2 hi]
  simp only
  constructor
  · rintro ⟨x, h1, h2⟩
    cases x with
    | undefined => cases h2
    | done c r =>
      simp only at h2
      split at h2
      · rename_i hr
        obtain ⟨o', h3, h4⟩ := h2
        cases o' with
        | none => cases h4
        | some t =>
          cases h4
          obtain ⟨⟨c', h5⟩, h6⟩ := fuzzCalls_some.1 h3
          subst hr
          exact ⟨⟨c', .cons h1 h5⟩, _, fuzzLoad_eq h abi, .inr ⟨t, rfl, h6⟩⟩
      · rename_i hr
        cases h2
        exact ⟨⟨c, .cons h1 .nil⟩, _, fuzzLoad_eq h abi, .inl ⟨r, hr, rfl⟩⟩
  · rintro ⟨⟨c, hc⟩, load, hload, h1⟩
    rw [← fuzzLoad_eq] at hload
    subst hload
    rcases h1 with ⟨r, hr, rfl⟩ | ⟨rest, rfl, h2⟩
    · cases hc with
      | cons h3 h4 =>
        refine ⟨_, h3, ?_⟩
        simp only
        rw [if_neg hr]
        trivial
    · cases hc with
      | cons h3 h4 =>
        refine ⟨_, h3, ?_⟩
        simp only [if_true]
        exact ⟨some rest, fuzzCalls_some.2 ⟨⟨_, h4⟩, h2⟩, rfl⟩

/-- **C75.** An input that is not put together as described makes no call. -/
theorem c75_ignored {env : Env} {input : Bytes} (hi : ∀ h abi type data, ¬ FuzzInput input h abi type data) (o : Option (List (Call × Ret))) :
    FuzzOne env input o ↔ o = some [] := by
  unfold FuzzOne
  cases hp : fuzzPieces input with
  | none => exact Iff.rfl
  | some p =>
    obtain ⟨h, abi, type, data⟩ := p
    exact absurd (c75_pieces.1 hp) (hi _ _ _ _)

theorem step_some {env : Env} {q : Call} {c : Ctx} {c' : Option Ctx} {r : Ret} (h : Step env (some c) q (.done c' r)) : ∃ c1, c' = some c1 := by
  obtain ⟨c1, h1, -⟩ := step_hasDef h
  exact ⟨c1, h1⟩

theorem calls_then {env : Env} {t t' : List (Call × Ret)} {c c' c'' : Option Ctx} (h : Calls env c t c') (h' : Calls env c' t' c'') : Calls env c (t ++ t') c'' := by
  induction h with
  | nil => exact h'
  | cons h1 _ ih => exact .cons h1 (ih h')

theorem calls_some {env : Env} {t : List (Call × Ret)} : ∀ {c c' : Option Ctx}, Calls env c t c' → ∀ {c0 : Ctx}, c = some c0 → ∃ c1, c' = some c1 := by
  intro c c' h
  induction h with
  | nil => intro c0 h; exact ⟨c0, h⟩
  | cons h1 _ ih =>
    intro c0 h
    subst h
    obtain ⟨c1, hc1⟩ := step_some h1
    exact ih hc1

/-- **C75.** Every input comes to an end. -/
theorem c75_ends (env : Env) (input : Bytes) : ∃ o, FuzzOne env input o := by
  unfold FuzzOne
  cases fuzzPieces input with
  | none => exact ⟨_, rfl⟩
  | some p =>
    obtain ⟨h, abi, type, data⟩ := p
    simp only
    obtain ⟨x, hx⟩ := c38_returns (env := env) (h := []) (c := Ctx.init) .nil (fuzzLoad h abi)
    cases x with
    | undefined => exact ⟨none, _, hx, rfl⟩
    | done c r =>
      by_cases hr : r = .bool true
      · obtain ⟨c1, rfl⟩ := step_some hx
        have hc : ∀ l c0 t, Calls env (some Ctx.init) t (some c0) → ∃ o, FuzzCalls env (some c0) l o := by
          intro l
          induction l with
          | nil => exact fun _ _ _ => ⟨_, rfl⟩
          | cons q l ih =>
            intro c0 t ht
            obtain ⟨y, hy⟩ := c38_returns ht q
            cases y with
            | undefined => exact ⟨none, _, hy, rfl⟩
            | done c2 r2 =>
              obtain ⟨c3, rfl⟩ := step_some hy
              obtain ⟨o, ho⟩ := ih c3 (t ++ [(q, r2)]) (calls_then ht (.cons hy .nil))
              exact ⟨_, _, hy, o, ho, rfl⟩
        obtain ⟨o, ho⟩ := hc (fuzzConversions h type data) c1 [(_, r)] (.cons hx .nil)
        refine ⟨o.map ((fuzzLoad h abi, r) :: ·), _, hx, ?_⟩
        simp only
        rw [if_pos hr]
        exact ⟨o, ho, rfl⟩
      · refine ⟨some [(fuzzLoad h abi, r)], _, hx, ?_⟩
        simp only
        rw [if_neg hr]
        trivial

/-- **C75.** The only inputs whose behaviour is not defined are those that ask to decode data in which, for the type given by their definition, there is a value that cannot be
printed (C51). -/
theorem c75_defined {env : Env} {F : Floats} (hF : env.leaves = builtins F) {input : Bytes} {h : FuzzHeader} {abi type data : Bytes}
    (hi : FuzzInput input h abi type data) (hs : ∀ D, Loads env (if h.abiIsBin = 0 then .setAbi h.contract (some abi) else .setAbiBin h.contract (some abi)) h.contract D → SmallDef D)
    (ha : ShortText env (cut data)) (hu : FuzzOne env input none) :
    h.operation ≠ 0 ∧ ∃ D T p, Loads env (if h.abiIsBin = 0 then .setAbi h.contract (some abi) else .setAbiBin h.contract (some abi)) h.contract D ∧ LoadedThen D T ∧ Denotes D (cut type) p ∧ NotPrinted T p data := by
  rw [← fuzzLoad_eq] at *
  unfold FuzzOne at hu
  rw [c75_pieces.2 hi] at hu
  obtain ⟨x, h1, h2⟩ := hu
  cases x with
  | undefined => exact absurd h1 (c38_defined (by unfold fuzzLoad; split <;> rfl) _)
  | done c r =>
    simp only at h2
    split at h2
    · obtain ⟨o', h3, h4⟩ := h2
      cases o' with
      | some t => cases h4
      | none =>
        obtain ⟨c1, rfl⟩ := step_some h1
        obtain ⟨before, q, after, t, c', e, h5, et, h6⟩ := fuzzCalls_none h3
        obtain ⟨c2, rfl⟩ := calls_some h5 rfl
        have hc : Calls env (some Ctx.init) ((fuzzLoad h abi, r) :: t) (some c2) := .cons h1 h5
        have hload : ∀ q D, FirstLoad env ((fuzzLoad h abi, r) :: t) h.contract q D → Loads env (fuzzLoad h abi) h.contract D := by
          rintro q D ⟨k1, b, a, k2, -⟩
          have hq : (q, Ret.bool true) ∈ (fuzzLoad h abi, r) :: t := by rw [k2]; simp
          rcases List.mem_cons.1 hq with hq | hq
          · cases hq; exact k1
          · have hm : q ∈ fuzzConversions h type data := by
              rw [e, ← et]
              exact List.mem_append_left _ (List.mem_map_of_mem (f := (·.1)) hq)
            unfold fuzzConversions at hm
            split at hm
            · simp only [List.mem_cons, List.not_mem_nil, or_false] at hm
              rcases hm with rfl | rfl
              · exact k1.2.elim
              · exact k1.2.elim
            · rw [List.mem_singleton] at hm
              subst hm
              exact k1.2.elim
        have hs' : ∀ q D, FirstLoad env ((fuzzLoad h abi, r) :: t) h.contract q D → SmallDef D := fun q D hf => hs D (hload q D hf)
        have hj := c51_call_json_to_bin hF hc hs' (type := some type) (json := some data) ha
        unfold fuzzConversions at e
        split at e
        · have hq : q ∈ [Call.jsonToBin h.contract (some type) (some data), Call.jsonToBinReorderable h.contract (some type) (some data)] := by rw [e]; simp
          simp only [List.mem_cons, List.not_mem_nil, or_false] at hq
          rcases hq with rfl | rfl
          · exact absurd h6 hj.1
          · exact absurd h6 hj.2
        · rename_i hop
          have hq : q ∈ [Call.binToJson h.contract (some type) (some data)] := by rw [e]; simp
          rw [List.mem_singleton] at hq
          subst hq
          obtain ⟨q, D, T, p, k1, k2, k3, k4⟩ := c51_call_bin_to_json hF hc hs' h6
          exact ⟨hop, D, T, p, hload q D k1, k2, k3, k4⟩
    · cases h2

/-- **C75.** Every file that the tests write for the fuzzer is taken apart into what was written, whatever the bytes of padding are. So every session of this kind is run for some
input: any contract, definition, type and data. -/
theorem c75_corpus (pad : Bytes) (bin operation : UInt8) (contract : Nat) (abi type data : Bytes) (hp : pad.length = 6) (hc : contract < 2 ^ 64)
    (ha : abi.length + 1 < 2 ^ 32) (ht : type.length + 1 < 2 ^ 32) :
    FuzzInput (corpusFile pad bin operation contract (abi ++ [0]) (type ++ [0]) (data ++ [0]))
      ⟨bin, operation, contract, abi.length + 1, type.length + 1⟩ (abi ++ [0]) (type ++ [0]) (data ++ [0]) := by
  refine ⟨pad, leBytes 8 contract, leBytes 4 (abi ++ [0]).length, leBytes 4 (type ++ [0]).length, hp, leBytes_length _ _, leBytes_length _ _, leBytes_length _ _, ?_, ?_, ?_, ?_,
    by simp, by simp, ⟨_, rfl⟩, ⟨_, rfl⟩, ⟨_, rfl⟩⟩
  · unfold corpusFile; simp
  · rw [leVal_leBytes, Nat.mod_eq_of_lt (by simpa using hc)]
  · rw [leVal_leBytes, List.length_append, List.length_singleton, Nat.mod_eq_of_lt (by simpa using ha)]
  · rw [leVal_leBytes, List.length_append, List.length_singleton, Nat.mod_eq_of_lt (by simpa using ht)]

/-! ## Examples -/

namespace FuzzerExample

/-- `{"version":"eosio::abi/1.0"}`, `bool`, `true` -/
def input : Bytes := corpusFile [1, 2, 3, 4, 5, 6] 0 0 7 (str "{\"version\":\"eosio::abi/1.0\"}" ++ [0]) (str "bool" ++ [0]) (str "true" ++ [0])

theorem pieces : FuzzInput input ⟨0, 0, 7, 29, 5⟩ (str "{\"version\":\"eosio::abi/1.0\"}" ++ [0]) (str "bool" ++ [0]) (str "true" ++ [0]) :=
  c75_corpus [1, 2, 3, 4, 5, 6] 0 0 7 (str "{\"version\":\"eosio::abi/1.0\"}") (str "bool") (str "true") rfl (by decide) (by decide) (by decide)

example (env : Env) (l : List (Call × Ret)) (h : FuzzOne env input (some l)) (h2 : l.length ≠ 1) :
    l.map (·.1) = [.setAbi 7 (some (str "{\"version\":\"eosio::abi/1.0\"}" ++ [0])), .jsonToBin 7 (some (str "bool" ++ [0])) (some (str "true" ++ [0])),
      .jsonToBinReorderable 7 (some (str "bool" ++ [0])) (some (str "true" ++ [0]))] := by
  obtain ⟨-, load, rfl, h3 | h3⟩ := (c75_session pieces l).1 h
  · obtain ⟨r, -, rfl⟩ := h3; exact absurd rfl h2
  · obtain ⟨rest, rfl, h4⟩ := h3
    rw [List.map_cons, h4]
    rfl

/-- The last byte of the type is not a zero: nothing is called. -/
example (env : Env) : ∀ o, FuzzOne env (corpusFile [0, 0, 0, 0, 0, 0] 0 0 7 [0] (str "bool") [0]) o ↔ o = some [] := by
  refine fun o => c75_ignored (fun h abi type data hi => ?_) o
  have := c75_pieces.2 hi
  rw [show fuzzPieces (corpusFile [0, 0, 0, 0, 0, 0] 0 0 7 [0] (str "bool") [0]) = none by decide +kernel] at this
  cases this

end FuzzerExample

end Abieos
