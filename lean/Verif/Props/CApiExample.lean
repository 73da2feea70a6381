import Verif.Props.CApi
import Verif.Props.Example
/-
A concrete history of calls that meets the hypotheses of the theorems on the C interface (C38 to C40).
-/
namespace Abieos.CApiExample
open Spec Abieos.Example Abieos.LoaderExample

/-- The reference JSON reader and the builtin types, without floating point texts. -/
def env : Env := ⟨Reader.read, Reader.upTo, builtins noFloats, upTo_cut⟩

def abiText : Bytes := str "{\"version\":\"eosio::abi/1.1\",\"structs\":[{\"name\":\"s\",\"base\":\"\",\"fields\":[{\"name\":\"a\",\"type\":\"uint8[]\"},{\"name\":\"b\",\"type\":\"string\"}]}],\"actions\":[{\"name\":\"act\",\"type\":\"s\",\"ricardian_contract\":\"\"}]}"

def abiDef : AbiDef :=
  { version := str "eosio::abi/1.1", types := [], structs := [⟨str "s", [], [⟨str "a", str "uint8[]"⟩, ⟨str "b", str "string"⟩]⟩]
    actions := [⟨stringToName (str "act"), str "s", []⟩], tables := [], clauses := [], errors := [], extensions := [], variants := [] }

def otherText : Bytes := str "{\"version\":\"eosio::abi/1.0\",\"types\":[{\"new_type_name\":\"s\",\"type\":\"string\"}]}"

def otherDef : AbiDef :=
  { version := str "eosio::abi/1.0", types := [⟨str "s", str "string"⟩], structs := []
    actions := [], tables := [], clauses := [], errors := [], extensions := [], variants := [] }

def T1 : Table := tableOf (load abiDef)
def T2 : Table := tableOf (load otherDef)

theorem abi_loads : LoadTypes abiDef (.ok T1) := load_ok (by decide +kernel)
theorem other_loads : LoadTypes otherDef (.ok T2) := load_ok (by decide +kernel)

/-- how a text is read as a definition -/
theorem reads_def {text : Bytes} {D : AbiDef} (h : (match Reader.read (cstr (some text)) with
    | some v => decide (abiDefFromJson v.toks = .ok D) | none => false) = true) :
    ∃ v, env.read (cstr (some text)) = some v ∧ abiDefFromJson v.toks = .ok D := by
  show ∃ v, Reader.read (cstr (some text)) = some v ∧ _
  cases hr : Reader.read (cstr (some text)) with
  | none => rw [hr] at h; cases h
  | some v => rw [hr] at h; exact ⟨v, rfl, by simpa using h⟩

theorem reads_abi : ∃ v, env.read (cstr (some abiText)) = some v ∧ abiDefFromJson v.toks = .ok abiDef := reads_def (by decide +kernel)
theorem reads_other : ∃ v, env.read (cstr (some otherText)) = some v ∧ abiDefFromJson v.toks = .ok otherDef := reads_def (by decide +kernel)

theorem step_setAbi {text : Bytes} {D : AbiDef} {T : Table} (h : ∃ v, env.read (cstr (some text)) = some v ∧ abiDefFromJson v.toks = .ok D)
    (hv : versionOk D.version = true) (hT : LoadTypes D (.ok T)) (c : Ctx) (k : Nat) :
    ∃ c', Step env (some c) (.setAbi k (some text)) (.done (some c') (.bool true)) := by
  obtain ⟨v, h1, h2⟩ := h
  refine ⟨(c.setError (str "abi parse error")).insert k ⟨D.actionTypes, D.tableTypes, T⟩, .returns _ _, ?_, rfl⟩
  unfold SetAbi
  simp only [h1, h2, hv, if_true]
  exact ⟨_, hT, rfl⟩

theorem loads_abi (k : Nat) : Loads env (.setAbi k (some abiText)) k abiDef := by
  obtain ⟨v, h1, h2⟩ := reads_abi
  exact ⟨⟨⟨str "1", by decide⟩, _, abi_loads⟩, rfl, v, h1, (c50_reads_description _ _).1 h2⟩

theorem loads_other (k : Nat) : Loads env (.setAbi k (some otherText)) k otherDef := by
  obtain ⟨v, h1, h2⟩ := reads_other
  exact ⟨⟨⟨str "0", by decide⟩, _, other_loads⟩, rfl, v, h1, (c50_reads_description _ _).1 h2⟩

/-- Contract 5 has `abiDef`; loading another definition for it then has no effect; contract 6 has `otherDef`. -/
def loads : List (Call × Ret) :=
  [(.setAbi 5 (some abiText), .bool true), (.setAbi 6 (some otherText), .bool true), (.setAbi 5 (some otherText), .bool true)]

theorem loads_calls : ∃ c, Calls env (some Ctx.init) loads (some c) := by
  obtain ⟨c1, h1⟩ := step_setAbi reads_abi (by decide) abi_loads Ctx.init 5
  obtain ⟨c2, h2⟩ := step_setAbi reads_other (by decide) other_loads c1 6
  obtain ⟨c3, h3⟩ := step_setAbi reads_other (by decide) other_loads c2 5
  exact ⟨c3, .cons h1 (.cons h2 (.cons h3 .nil))⟩

theorem first5 : FirstLoad env loads 5 (.setAbi 5 (some abiText)) abiDef :=
  ⟨loads_abi 5, [], _, rfl, by simp⟩

theorem first6 : FirstLoad env loads 6 (.setAbi 6 (some otherText)) otherDef := by
  refine ⟨loads_other 6, [(.setAbi 5 (some abiText), .bool true)], _, rfl, ?_⟩
  intro e he _ D' h
  rw [List.mem_singleton.1 he] at h
  obtain ⟨-, h, -⟩ := h
  cases h

def json : Bytes := str "{\"a\":[1,\"2\",3],\"b\":\"x\"}"

theorem reads_doc {text : Bytes} {d : JVal} (h : (match Reader.read text with | some v => same v d | none => false) = true) : env.read text = some d := by
  show Reader.read text = some d
  cases hr : Reader.read text with
  | none => rw [hr] at h; cases h
  | some v => rw [hr] at h; rw [same_eq _ _ h]

theorem json_reads : env.read json = some (.obj [(str "a", .arr [.str (str "1"), .str (str "2"), .str (str "3")]), (str "b", .str (str "x"))]) :=
  reads_doc (by decide +kernel)

theorem converts : Converts env JsonToBin abiDef (str "s") json [3, 1, 2, 3, 1, 120] := by
  have hp : (lookupType (str "s") T1).1 = .ok (str "s") := by decide +kernel
  have h0 : LoadedThen abiDef T1 := ⟨T1, [], abi_loads, rfl⟩
  refine ⟨T1, str "s", _, abi_loads, hp, json_reads, ?_⟩
  have hT : (lookupType (str "s") T1).2 = T1 := by decide +kernel
  rw [hT]
  rw [jsonToBin_iff (loaded_of h0).wf (hT ▸ c26_found h0 hp) _ 30 (by decide)]
  decide +kernel

theorem _root_.Abieos.Calls.append {env : Env} {c c' c'' : Option Ctx} {l l' : List (Call × Ret)} (h : Calls env c l c') (h' : Calls env c' l' c'') :
    Calls env c (l ++ l') c'' := by
  induction h with
  | nil => exact h'
  | cons h1 _ ih => exact .cons h1 (ih h')

theorem first5_then (l : List (Call × Ret)) : FirstLoad env (loads ++ l) 5 (.setAbi 5 (some abiText)) abiDef :=
  ⟨loads_abi 5, [], _, rfl, by simp⟩

theorem not_act6 {h : List (Call × Ret)} {c : Ctx} (hc : Calls env (some Ctx.init) h (some c)) (hf : FirstLoad env h 6 (.setAbi 6 (some otherText)) otherDef) :
    Step env (some c) (.typeForAction 6 (stringToName (str "act"))) (.done (some (c.setError (noSuch "action" 6 (stringToName (str "act"))))) (.str none)) := by
  obtain ⟨a, h1, -, h3, -⟩ := firstLoad_has hc hf
  refine ⟨_, rfl, ?_⟩
  simp only [h1, h3]
  rfl

/-- C39 and C40: in that history the conversion succeeds, and its bytes and hex text can be fetched, also after other calls, one of
which fails. -/
theorem example_calls : ∃ c, Calls env (some Ctx.init)
    (loads ++ [(.jsonToBin 5 (some (str "s")) (some json), .bool true),
      (.typeForAction 6 (stringToName (str "act")), .str none),
      (.getBinData, .data (some [3, 1, 2, 3, 1, 120])), (.getBinSize, .int 6), (.getBinHex, .str (some (str "030102030178")))]) (some c) := by
  obtain ⟨c, hc⟩ := loads_calls
  obtain ⟨c1, h1, h2, h3⟩ := (answers_json hc first5 conv_jsonToBin).2 ⟨rfl, converts⟩
  have hc1 : Calls env (some Ctx.init) (loads ++ [(.jsonToBin 5 (some (str "s")) (some json), .bool true)]) (some c1) := hc.append (.cons h1 .nil)
  have hf : FirstLoad env (loads ++ [(.jsonToBin 5 (some (str "s")) (some json), .bool true)]) 6 (.setAbi 6 (some otherText)) otherDef := by
    obtain ⟨g1, b, a, g2, g3⟩ := first6
    exact ⟨g1, b, a ++ [(.jsonToBin 5 (some (str "s")) (some json), .bool true)], by rw [g2]; simp, g3⟩
  have s1 := not_act6 hc1 hf
  generalize hn : Ctx.setError c1 _ = c2 at s1
  have h4 : c2.resultBin = [3, 1, 2, 3, 1, 120] := by rw [← hn]; exact h3
  have s2 : Step env (some c2) .getBinData (.done (some c2) (.data (some [3, 1, 2, 3, 1, 120]))) := by rw [← h4]; rfl
  have s3 : Step env (some c2) .getBinSize (.done (some c2) (.int 6)) := by
    simp only [Step, h4]; rfl
  have s4 : Step env (some c2) .getBinHex (.done (some { c2 with resultStr := hexEncode c2.resultBin }) (.str (some (str "030102030178")))) := by
    refine ⟨_, rfl, ?_⟩
    simp only [h4]
    rfl
  refine ⟨_, hc.append (.cons h1 (.cons s1 (.cons s2 (.cons s3 (.cons s4 .nil)))))⟩

/-- C39, isolation, applied: contract 5 converts as if it were the only one. -/
example : ∃ c c', Calls env (some Ctx.init) loads (some c) ∧ Calls env (some Ctx.init) [(.setAbi 5 (some abiText), .bool true)] (some c') ∧
    ∀ q, About q 5 → ∀ r b, Answers env c q r b ↔ Answers env c' q r b := by
  obtain ⟨c, hc⟩ := loads_calls
  obtain ⟨c', h'⟩ := step_setAbi reads_abi (by decide) abi_loads Ctx.init 5
  have hc' : Calls env (some Ctx.init) [(.setAbi 5 (some abiText), .bool true)] (some c') := .cons h' .nil
  exact ⟨c, c', hc, hc', fun q hq r b => c39_isolated hc hc' first5 ⟨loads_abi 5, [], [], rfl, by simp⟩ hq r b⟩

end Abieos.CApiExample
