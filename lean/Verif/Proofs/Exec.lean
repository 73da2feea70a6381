import Verif.Proofs.CApi
/-
The model can be run: `exec` follows the calls of the C interface as a function, and what it gives is an outcome of the model (`exec_step`).
The harness in tools/conformance runs the tests of src/test.cpp on it. No claim depends on this file.
-/
namespace Abieos.Exec

/-- how many steps a loop may take -/
def budget : Nat := 100000000

def load (D : AbiDef) : Option (Res Table) :=
  match addDefs D.decls builtinTable with
  | .error e => some (.error e)
  | .ok T => (iter stepFill budget ⟨T, none⟩).map fun r => r.map (·.table)

theorem load_sound {D : AbiDef} {r : Res Table} (h : load D = some r) : LoadTypes D r := by
  unfold load at h
  unfold LoadTypes
  split at h
  · rename_i heq; simp only [heq]; cases h; rfl
  · rename_i heq; simp only [heq]; rw [Option.map_eq_some_iff] at h
    obtain ⟨r', h1, rfl⟩ := h
    exact ⟨r', ⟨_, h1⟩, rfl⟩

def tokensToBin (T : Table) (L : Leaves) (ty : Ptr) (ts : List Tok) : Option (Res Bytes) :=
  (iter (stepO T L) budget (initO ty ts)).map fun r => r.bind finishO

theorem tokensToBin_sound {T : Table} {L : Leaves} {ty : Ptr} {ts : List Tok} {r : Res Bytes} (h : tokensToBin T L ty ts = some r) :
    TokensToBin T L ty ts r := by
  unfold tokensToBin at h
  rw [Option.map_eq_some_iff] at h
  obtain ⟨r', h1, rfl⟩ := h
  exact ⟨r', ⟨_, h1⟩, rfl⟩

def ordered (T : Table) (L : Leaves) (ty : Ptr) (v : JVal) : Option (Res Bytes) := tokensToBin T L ty v.toks

def reorderable (T : Table) (L : Leaves) (ty : Ptr) (v : JVal) : Option (Res Bytes) :=
  match jsonToJvalue v.toks with
  | .error e => some (.error e)
  | .ok jv => (iter (stepR T L) budget (initR ty jv)).map fun r => r.map (·.out)

theorem reorderable_sound {T : Table} {L : Leaves} {ty : Ptr} {v : JVal} {r : Res Bytes} (h : reorderable T L ty v = some r) :
    JsonToBinReorderable T L ty v r := by
  unfold reorderable at h
  unfold JsonToBinReorderable
  split at h
  · rename_i heq; simp only [heq]; cases h; rfl
  · rename_i heq; simp only [heq]; rw [Option.map_eq_some_iff] at h
    obtain ⟨r', h1, rfl⟩ := h
    exact ⟨r', ⟨_, h1⟩, rfl⟩

def decode (T : Table) (L : Leaves) (ty : Ptr) (bin : Bytes) : Option (Res (Bytes × Bytes)) :=
  (iter (stepD T L) budget (initD ty bin)).map fun r => r.map fun s => (s.out, s.bin)

theorem decode_sound {T : Table} {L : Leaves} {ty : Ptr} {bin : Bytes} {r : Res (Bytes × Bytes)} (h : decode T L ty bin = some r) :
    BinToJson T L ty bin r := by
  unfold decode at h
  rw [Option.map_eq_some_iff] at h
  obtain ⟨r', h1, rfl⟩ := h
  exact ⟨r', ⟨_, h1⟩, rfl⟩

/-- Of the messages of the JSON reader the last one is taken. -/
def malformed (c : Ctx) (e : Option Err) : Out :=
  match e with
  | some e => failed c e
  | none => .throws c (str "Unspecific syntax error")

theorem malformed_sound (c : Ctx) (e : Option Err) : Malformed c e (malformed c e) := by
  cases e with
  | some e => rfl
  | none => exact ⟨_, by simp [syntaxErrors], rfl⟩

def install (c : Ctx) (k : Nat) (D : AbiDef) : Option Out :=
  (load D).map fun r => match r with
    | .error e => failed c e
    | .ok T => .returns (c.insert k ⟨D.actionTypes, D.tableTypes, T⟩) (.bool true)

theorem install_sound {c : Ctx} {k : Nat} {D : AbiDef} {o : Out} (h : install c k D = some o) : Install c k D o := by
  unfold install at h
  rw [Option.map_eq_some_iff] at h
  obtain ⟨r, h1, rfl⟩ := h
  exact ⟨r, load_sound h1, rfl⟩

def setAbi (env : Env) (k : Nat) (text : Bytes) (c : Ctx) : Option Out :=
  let c := c.setError (str "abi parse error")
  match env.read text with
  | none =>
    match abiDefFromJson (env.upTo text) with
    | .error e => some (malformed c (foundIn e))
    | .ok D =>
      if versionOk D.version then install c k D
      else some (.returns (c.setError (str "unsupported abi version")) (.bool false))
  | some v =>
    match abiDefFromJson v.toks with
    | .error e => some (failed c e)
    | .ok D =>
      if versionOk D.version then install c k D
      else some (.returns (c.setError (str "unsupported abi version")) (.bool false))

theorem setAbi_sound {env : Env} {k : Nat} {text : Bytes} {c : Ctx} {o : Out} (h : setAbi env k text c = some o) : SetAbi env k text c o := by
  unfold setAbi at h
  unfold SetAbi
  simp only at h ⊢
  split at h
  · rename_i heq; simp only [heq]; split at h
    · rename_i heq; simp only [heq]; cases h; exact malformed_sound _ _
    · rename_i heq; simp only [heq]; split at h
      · rw [if_pos ‹_›]; exact install_sound h
      · rw [if_neg ‹_›]; cases h; rfl
  · rename_i heq; simp only [heq]; split at h
    · rename_i heq; simp only [heq]; cases h; rfl
    · rename_i heq; simp only [heq]; split at h
      · rw [if_pos ‹_›]; exact install_sound h
      · rw [if_neg ‹_›]; cases h; rfl

def setAbiBin (k : Nat) (data : Bytes) (c : Ctx) : Option Out :=
  let c := c.setError (str "abi parse error")
  if data = [] then some (.returns (c.setError (str "no data")) (.bool false))
  else
    match textFromBin data with
    | .error e => some (failed c e)
    | .ok (version, _) =>
      if versionOk version then
        match abiDefFromBin data with
        | .error e => some (failed c e)
        | .ok (D, _) => install c k D
      else some (.returns (c.setError (str "unsupported abi version")) (.bool false))

theorem setAbiBin_sound {k : Nat} {data : Bytes} {c : Ctx} {o : Out} (h : setAbiBin k data c = some o) : SetAbiBin k data c o := by
  unfold setAbiBin at h
  unfold SetAbiBin
  simp only at h ⊢
  split at h
  · rw [if_pos ‹_›]; cases h; rfl
  · rw [if_neg ‹_›]
    split at h
    · rename_i heq; simp only [heq]; cases h; rfl
    · rename_i heq; simp only [heq]; split at h
      · rw [if_pos ‹_›]
        split at h
        · rename_i heq; simp only [heq]; cases h; rfl
        · rename_i heq; simp only [heq]; exact install_sound h
      · rw [if_neg ‹_›]; cases h; rfl

/-- `handle_exceptions` -/
def handled (errval : Ret) (c : Option Ctx) (f : Ctx → Option Out) : Option Outcome :=
  match c with
  | none => some (.done none errval)
  | some c => (f c).map fun x => match x with
    | .returns c' r => .done (some c') r
    | .throws c' w => .done (some (c'.setError w)) errval
    | .undefined => .undefined

theorem handled_sound {errval : Ret} {c : Option Ctx} {f : Ctx → Option Out} {F : Ctx → Out → Prop} {o : Outcome} (hf : ∀ {c x}, f c = some x → F c x)
    (h : handled errval c f = some o) : Handled errval c F o := by
  cases c with
  | none => cases h; rfl
  | some c =>
    unfold handled at h
    rw [Option.map_eq_some_iff] at h
    obtain ⟨x, h1, rfl⟩ := h
    exact ⟨x, hf h1, rfl⟩

def callSetAbiBin (k : Nat) (data : Option Bytes) (c : Option Ctx) : Option Outcome := handled (.bool false) c (setAbiBin k (data.getD []))

def setAbiHex (k : Nat) (hex : Bytes) (c : Ctx) : Option Out :=
  match unhexLoop hex with
  | none => some (.returns (c.setError (str "expected hex string")) (.bool false))
  | some data => (callSetAbiBin k (some data) (some c)).map nested

theorem setAbiHex_sound {k : Nat} {hex : Bytes} {c : Ctx} {o : Out} (h : setAbiHex k hex c = some o) : SetAbiHex k hex c o := by
  unfold setAbiHex at h
  unfold SetAbiHex
  split at h
  · rename_i heq; simp only [heq]; cases h; rfl
  · rename_i heq; simp only [heq]; rw [Option.map_eq_some_iff] at h
    obtain ⟨x, h1, rfl⟩ := h
    exact ⟨x, handled_sound setAbiBin_sound h1, rfl⟩

def orderedBroken (T : Table) (L : Leaves) (ty : Ptr) (ts : List Tok) : Option (Option Err) :=
  (tokensToBin T L ty ts).map fun r => match r with
    | .ok _ => some .expected_end
    | .error e => foundIn e

theorem orderedBroken_sound {T : Table} {L : Leaves} {ty : Ptr} {ts : List Tok} {e : Option Err} (h : orderedBroken T L ty ts = some e) :
    OrderedBroken T L ty ts e := by
  unfold orderedBroken at h
  rw [Option.map_eq_some_iff] at h
  obtain ⟨r, h1, rfl⟩ := h
  exact ⟨r, tokensToBin_sound h1, rfl⟩

def reorderableBroken (_ : Table) (_ : Leaves) (_ : Ptr) (_ : List Tok) : Option (Option Err) := some (some .unspecific_syntax_error)

def convertJson (env : Env) (conv : Table → Leaves → Ptr → JVal → Option (Res Bytes))
    (broken : Table → Leaves → Ptr → List Tok → Option (Option Err)) (k : Nat) (type json : Bytes) (c : Ctx) : Option Out :=
  let c := c.setError (str "json parse error")
  match c.contracts.lookup k with
  | none => some (.returns (c.setError (notLoaded k)) (.bool false))
  | some a =>
    match lookupType type a.types with
    | (.error e, T) => some (failed (c.setTypes k T) e)
    | (.ok p, T) =>
      let c := { c.setTypes k T with resultBin := [] }
      match env.read json with
      | none => (broken T env.leaves p (env.upTo json)).map (malformed c)
      | some v => (conv T env.leaves p v).map fun r => match r with
        | .error e => failed c e
        | .ok b => .returns { c with resultBin := b } (.bool true)

theorem convertJson_sound {env : Env} {conv : Table → Leaves → Ptr → JVal → Option (Res Bytes)} {Conv : Table → Leaves → Ptr → JVal → Res Bytes → Prop}
    {broken : Table → Leaves → Ptr → List Tok → Option (Option Err)} {Broken : Table → Leaves → Ptr → List Tok → Option Err → Prop}
    (hc : ∀ {T L p v r}, conv T L p v = some r → Conv T L p v r) (hb : ∀ {T L p ts e}, broken T L p ts = some e → Broken T L p ts e)
    {k : Nat} {type json : Bytes} {c : Ctx} {o : Out} (h : convertJson env conv broken k type json c = some o) :
    ConvertJson env Conv Broken k type json c o := by
  unfold convertJson at h
  unfold ConvertJson
  simp only at h ⊢
  split at h
  · rename_i heq; simp only [heq]; cases h; rfl
  · rename_i heq; simp only [heq]; split at h
    · rename_i heq; simp only [heq]; cases h; rfl
    · rename_i heq; simp only [heq]; split at h
      · rename_i heq; simp only [heq]; rw [Option.map_eq_some_iff] at h
        obtain ⟨e, h1, rfl⟩ := h
        exact ⟨e, hb h1, malformed_sound _ _⟩
      · rename_i heq; simp only [heq]; rw [Option.map_eq_some_iff] at h
        obtain ⟨r, h1, rfl⟩ := h
        exact ⟨r, hc h1, rfl⟩

def convertBin (env : Env) (k : Nat) (type data : Bytes) (c : Ctx) : Option Out :=
  let c := c.setError (str "binary decode error")
  match c.contracts.lookup k with
  | none => some (.returns c (.str none))
  | some a =>
    match lookupType type a.types with
    | (.error e, T) => some (failed (c.setTypes k T) e)
    | (.ok p, T) =>
      let c := c.setTypes k T
      (decode T env.leaves p data).map fun r => match r with
        | .error e => failed c e
        | .ok (t, rest) =>
          let c := { c with resultStr := t }
          if rest = [] then .returns c (.str (some (cut t))) else .throws c (str "Extra data")

theorem convertBin_sound {env : Env} {k : Nat} {type data : Bytes} {c : Ctx} {o : Out} (h : convertBin env k type data c = some o) :
    ConvertBin env k type data c o := by
  unfold convertBin at h
  unfold ConvertBin
  simp only at h ⊢
  split at h
  · rename_i heq; simp only [heq]; cases h; rfl
  · rename_i heq; simp only [heq]; split at h
    · rename_i heq; simp only [heq]; cases h; rfl
    · rename_i heq; simp only [heq]; rw [Option.map_eq_some_iff] at h
      obtain ⟨r, h1, rfl⟩ := h
      exact ⟨r, decode_sound h1, rfl⟩

def callConvertBin (env : Env) (k : Nat) (type : Option Bytes) (data : Option Bytes) (c : Option Ctx) : Option Outcome :=
  handled (.str none) c (convertBin env k (cstr type) (data.getD []))

def convertHex (env : Env) (k : Nat) (type : Option Bytes) (hex : Bytes) (c : Ctx) : Option Out :=
  match unhexLoop hex with
  | none => some (.returns (c.setError (str "expected hex string")) (.str none))
  | some data => (callConvertBin env k type (some data) (some c)).map nested

theorem convertHex_sound {env : Env} {k : Nat} {type : Option Bytes} {hex : Bytes} {c : Ctx} {o : Out} (h : convertHex env k type hex c = some o) :
    ConvertHex env k type hex c o := by
  unfold convertHex at h
  unfold ConvertHex
  split at h
  · rename_i heq; simp only [heq]; cases h; rfl
  · rename_i heq; simp only [heq]; rw [Option.map_eq_some_iff] at h
    obtain ⟨x, h1, rfl⟩ := h
    exact ⟨x, handled_sound convertBin_sound h1, rfl⟩

/-- One call. -/
def exec (env : Env) (c : Option Ctx) (q : Call) : Option Outcome :=
  match q with
  | .getError => some (.done c (.str (some (match c with | none => str "context is null" | some c => c.lastError))))
  | .getBinSize => some (.done c (.int (match c with | none => 0 | some c => toInt32 c.resultBin.length)))
  | .getBinData => some (.done c (.data (c.map (·.resultBin))))
  | .getBinHex => handled (.str none) c fun c => some (.returns { c with resultStr := hexEncode c.resultBin } (.str (some (hexEncode c.resultBin))))
  | .stringToName s => some (.done c (.word (stringToName (cstr s))))
  | .nameToString n => handled (.str none) c fun c => some (.returns { c with resultStr := nameToString n } (.str (some (nameToString n))))
  | .setAbi k s => handled (.bool false) c (setAbi env k (cstr s))
  | .setAbiBin k d => callSetAbiBin k d c
  | .setAbiHex k s => handled (.bool false) c (setAbiHex k (cstr s))
  | .typeForAction k n => handled (.str none) c fun c => some (match c.contracts.lookup k with
      | none => .throws c (notLoaded k)
      | some a =>
        match a.actions.lookup n with
        | none => .throws c (noSuch "action" k n)
        | some t => .returns c (.str (some (cut t))))
  | .typeForTable k n => handled (.str none) c fun c => some (match c.contracts.lookup k with
      | none => .throws c (notLoaded k)
      | some a =>
        match a.tables.lookup n with
        | none => .throws c (noSuch "table" k n)
        | some t => .returns c (.str (some (cut t))))
  | .jsonToBin k t j => handled (.bool false) c (convertJson env ordered orderedBroken k (cstr t) (cstr j))
  | .jsonToBinReorderable k t j => handled (.bool false) c (convertJson env reorderable reorderableBroken k (cstr t) (cstr j))
  | .binToJson k t d => callConvertBin env k t d c
  | .hexToJson k t s => handled (.str none) c (convertHex env k t (cstr s))

/-- What `exec` gives is what the call does in the model. -/
theorem exec_step {env : Env} {c : Option Ctx} {q : Call} {o : Outcome} (h : exec env c q = some o) : Step env c q o := by
  cases q with
  | getError => cases h; rfl
  | getBinSize => cases h; rfl
  | getBinData => cases h; rfl
  | getBinHex => exact handled_sound (fun h => (Option.some.inj h).symm) h
  | stringToName s => cases h; rfl
  | nameToString n => exact handled_sound (fun h => (Option.some.inj h).symm) h
  | setAbi k s => exact handled_sound setAbi_sound h
  | setAbiBin k d => exact handled_sound setAbiBin_sound h
  | setAbiHex k s => exact handled_sound setAbiHex_sound h
  | typeForAction k n => exact handled_sound (fun h => (Option.some.inj h).symm) h
  | typeForTable k n => exact handled_sound (fun h => (Option.some.inj h).symm) h
  | jsonToBin k t j => exact handled_sound (convertJson_sound (conv := ordered) (Conv := JsonToBin) (broken := orderedBroken) (Broken := OrderedBroken) tokensToBin_sound orderedBroken_sound) h
  | jsonToBinReorderable k t j => exact handled_sound (convertJson_sound (conv := reorderable) (broken := reorderableBroken) (Broken := ReorderableBroken) reorderable_sound (fun h => (Option.some.inj h).symm)) h
  | binToJson k t d => exact handled_sound convertBin_sound h
  | hexToJson k t s => exact handled_sound convertHex_sound h

end Abieos.Exec
