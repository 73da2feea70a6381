import Verif.Props.Fuzzer
import Verif.Props.ShipAbi
/-
The exceptions of C51 are met: calls whose behaviour is not defined, and inputs of the fuzzer that make them.
-/
namespace Abieos
open Spec

/-- **C51, the other way.** If decoding the bytes is undefined for the type that the text denotes, so is the call. -/
theorem c51_call_undefined {env : Env} {h : List (Call × Ret)} {c : Ctx} (hc : Calls env (some Ctx.init) h (some c)) {k : Nat} {q : Call} {D : AbiDef}
    (hf : FirstLoad env h k q D) {type data : Option Bytes} {p : Ptr} (hd : Denotes D (cstr type) p)
    (hu : ∀ T, LoadedThen D T → T.WF → T.Valid p → BinToJson T env.leaves p (data.getD []) (.error .ub)) :
    Step env (some c) (.binToJson k type data) .undefined := by
  obtain ⟨a, h1, h2, -⟩ := firstLoad_has hc hf
  refine handled_iff.2 ⟨.undefined, ?_, rfl⟩
  unfold ConvertBin
  simp only [Ctx.lookup_setError]
  rw [h1]
  simp only
  have hp := (c26_lookup h2 (cstr type) p).2 hd
  have hv := c26_found h2 hp
  have hl := h2.lookup (cstr type)
  generalize lookupType (cstr type) a.types = g at hp hv hl
  obtain ⟨r, T⟩ := g
  cases hp
  exact ⟨_, hu T hl (c26_resolved hl).1 hv, rfl⟩

section
variable {env : Env} {F : Floats} (hF : env.leaves = builtins F) {h : List (Call × Ret)} {c : Ctx} (hc : Calls env (some Ctx.init) h (some c)) {k : Nat} {q : Call} {D : AbiDef}
  (hf : FirstLoad env h k q D) {type data : Option Bytes} {p : Ptr} (hd : Denotes D (cstr type) p)
include hF hc hf hd

/-- Showing the asset of amount -2^63. -/
theorem c51_call_smallest_amount (hm : Meaning D p (.builtin .asset)) (hs : SmallestAmount (data.getD [])) : Step env (some c) (.binToJson k type data) .undefined :=
  c51_call_undefined hc hf hd fun _ hl wf hv => hF ▸ c51_smallest_amount F wf (get_of_meaning hl hv hm) hs

/-- Showing a double whose text is a minus sign and 24 digits. -/
theorem c51_call_long_double (hm : Meaning D p (.builtin .float64)) {rest : Bytes} (hs : data.getD [] = [108, 160, 16, 31, 155, 36, 186, 196] ++ rest) :
    Step env (some c) (.binToJson k type data) .undefined :=
  c51_call_undefined hc hf hd fun _ hl wf hv => by rw [hF, hs]; exact c51_long_double F wf (get_of_meaning hl hv hm) rest

/-- Showing an array of 2^31 or more empty structs. -/
theorem c51_call_huge_array {e : Ptr} (hm : Meaning D p (.array e)) (he : Meaning D e (.struct [])) (hs : HugeSize (data.getD [])) :
    Step env (some c) (.binToJson k type data) .undefined :=
  c51_call_undefined hc hf hd fun _ hl wf hv => by
    have hk := get_of_meaning hl hv hm
    exact hF ▸ c51_huge_array F wf hk (get_of_meaning hl (wf.array hk).1 he) hs

end

/-- **C75, the other way.** An input that asks to decode the smallest amount with a usable definition runs into undefined behaviour: the fuzzer can find what C51 excepts. -/
theorem c75_undefined {env : Env} {F : Floats} (hF : env.leaves = builtins F) {input : Bytes} {h : FuzzHeader} {abi type data : Bytes} (hi : FuzzInput input h abi type data)
    {D : AbiDef} (hl : Loads env (if h.abiIsBin = 0 then .setAbi h.contract (some abi) else .setAbiBin h.contract (some abi)) h.contract D) (ho : h.operation ≠ 0)
    (ht : cut type = str "asset") (hs : SmallestAmount data) : FuzzOne env input none := by
  rw [← fuzzLoad_eq] at hl
  have hq : IsLoad (fuzzLoad h abi) = true := by unfold fuzzLoad; split <;> rfl
  unfold FuzzOne
  rw [c75_pieces.2 hi]
  simp only
  obtain ⟨x, hx⟩ := c38_returns (env := env) (h := []) (c := Ctx.init) .nil (fuzzLoad h abi)
  cases x with
  | undefined => exact absurd hx (c38_defined (by unfold fuzzLoad; split <;> rfl) _)
  | done c r =>
    obtain rfl := (c39_load_iff hq hx).2 ⟨_, D, hl⟩
    obtain ⟨c1, rfl⟩ := step_some hx
    refine ⟨_, hx, ?_⟩
    simp only [if_true]
    refine ⟨none, ?_, rfl⟩
    unfold fuzzConversions
    rw [if_neg ho]
    refine ⟨.undefined, ?_, rfl⟩
    exact c51_call_smallest_amount hF (.cons hx .nil) ⟨hl, [], [], rfl, by simp⟩ (type := some type) (data := some data) (p := str "asset")
      (by rw [show cstr (some type) = str "asset" from ht]; exact .declared (.builtin .asset) (by simp)) (.builtin (.builtin .asset)) hs

/-! ## an example -/

namespace UndefinedExample

/-- a definition of nothing, in binary -/
def abi : Bytes := [14, 101, 111, 115, 105, 111, 58, 58, 97, 98, 105, 47, 49, 46, 49, 0, 0, 0, 0, 0, 0, 0]

/-- 69 bytes that the fuzzer would crash on (with the undefined-behaviour sanitizer): decode `asset` from -2^63 and the symbol `4,SYS`. -/
def input : Bytes := corpusFile [0, 0, 0, 0, 0, 0] 1 1 7 (abi ++ [0]) (str "asset" ++ [0]) ([0, 0, 0, 0, 0, 0, 0, 128, 4, 83, 89, 83, 0, 0, 0] ++ [0])

def nothing : AbiDef := { version := str "eosio::abi/1.1", types := [], structs := [], actions := [], tables := [], clauses := [], errors := [], extensions := [], variants := [] }

theorem abi_read : abiDefFromBin (abi ++ [0]) = .ok (nothing, []) := by decide +kernel

example (F : Floats) : FuzzOne (libEnv F) input none := by
  have hi := c75_corpus [0, 0, 0, 0, 0, 0] 1 1 7 abi (str "asset") [0, 0, 0, 0, 0, 0, 0, 128, 4, 83, 89, 83, 0, 0, 0] rfl (by decide) (by decide) (by decide +kernel)
  have hn : Usable nothing := ⟨⟨[49], by decide +kernel⟩, _, LoaderExample.load_ok (by decide +kernel)⟩
  exact c75_undefined rfl hi (D := nothing) ⟨hn, rfl, _, rfl, _, abi_read⟩ (by simp) (by decide +kernel) ⟨[4, 83, 89, 83, 0, 0, 0, 0], [], rfl, rfl⟩

end UndefinedExample

end Abieos
