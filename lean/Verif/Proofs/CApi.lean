import Verif.Spec.CApi
import Verif.Props.Lookup
import Verif.Props.Limits
import Verif.Props.RoundTrip
import Verif.Props.AbiDefJson
import Verif.Props.AbiDefBin
import Verif.Proofs.NoUb
import Verif.Proofs.Streams
/-
Calls of the C interface: what they leave alone.
-/
namespace Abieos
open Spec

/-! ## The map of contracts -/

theorem Ctx.lookup_setError (c : Ctx) (e : Bytes) : (c.setError e).contracts = c.contracts := rfl

theorem lookup_map_types (l : List (Nat × Abi)) (k j : Nat) (T : Table) :
    (l.map fun e => if e.1 = k then (e.1, { e.2 with types := T }) else e).lookup j =
      if j = k then (l.lookup j).map fun a => { a with types := T } else l.lookup j := by
  induction l with
  | nil => simp
  | cons e l ih =>
    obtain ⟨i, a⟩ := e
    simp only [List.map_cons, List.lookup_cons]
    by_cases hi : i = k
    · subst hi
      rw [if_pos rfl]
      by_cases hj : j = i
      · subst hj; simp
      · simp only [List.lookup_cons]
        rw [show (j == i) = false by simpa using hj]
        exact ih
    · rw [if_neg hi]
      by_cases hj : j = i
      · subst hj; simp [List.lookup_cons, hi]
      · simp only [List.lookup_cons]
        rw [show (j == i) = false by simpa using hj]
        exact ih

theorem Ctx.lookup_setTypes (c : Ctx) (k j : Nat) (T : Table) :
    (c.setTypes k T).contracts.lookup j = if j = k then (c.contracts.lookup j).map fun a => { a with types := T } else c.contracts.lookup j :=
  lookup_map_types _ _ _ _

theorem Ctx.lookup_insert (c : Ctx) (k j : Nat) (a : Abi) :
    (c.insert k a).contracts.lookup j = if j = k then some ((c.contracts.lookup k).getD a) else c.contracts.lookup j := by
  unfold Ctx.insert
  split
  · rename_i b hb
    by_cases hj : j = k
    · subst hj; simp [hb]
    · simp [hj]
  · rename_i hb
    by_cases hj : j = k
    · subst hj; simp [hb]
    · simp only [List.lookup_cons]
      rw [show (j == k) = false by simpa using hj, if_neg hj]

/-! ## What a call keeps -/

/-- The same contract; types may have been looked up in between. -/
def Same (a a' : Abi) : Prop := a'.actions = a.actions ∧ a'.tables = a.tables ∧ ∃ names, a'.types = lookups names a.types

theorem Same.refl (a : Abi) : Same a a := ⟨rfl, rfl, [], rfl⟩

theorem Same.trans {a b c : Abi} (h : Same a b) (h' : Same b c) : Same a c := by
  obtain ⟨h1, h2, l, h3⟩ := h
  obtain ⟨g1, g2, m, g3⟩ := h'
  exact ⟨g1.trans h1, g2.trans h2, l ++ m, by rw [g3, h3, lookups_append]⟩

/-- The same contracts. -/
def Keeps (c c' : Ctx) : Prop :=
  (∀ k a, c.contracts.lookup k = some a → ∃ a', c'.contracts.lookup k = some a' ∧ Same a a') ∧
    ∀ k, c.contracts.lookup k = none → c'.contracts.lookup k = none

theorem Keeps.refl {c c' : Ctx} (h : c'.contracts = c.contracts) : Keeps c c' :=
  ⟨fun k a hk => ⟨a, by rw [h, hk], .refl a⟩, fun k hk => by rw [h, hk]⟩

theorem Keeps.trans {c c' c'' : Ctx} (h : Keeps c c') (h' : Keeps c' c'') : Keeps c c'' := by
  refine ⟨fun k a hk => ?_, fun k hk => h'.2 k (h.2 k hk)⟩
  obtain ⟨a', h1, h2⟩ := h.1 k a hk
  obtain ⟨a'', h3, h4⟩ := h'.1 k a' h1
  exact ⟨a'', h3, h2.trans h4⟩

theorem keeps_lookup {c : Ctx} {k : Nat} {a : Abi} (ha : c.contracts.lookup k = some a) (name : Bytes) :
    Keeps c (c.setTypes k (lookupType name a.types).2) := by
  refine ⟨fun j b hj => ?_, fun j hj => ?_⟩
  · rw [Ctx.lookup_setTypes, hj]
    by_cases h : j = k
    · subst h
      rw [ha] at hj; cases hj
      exact ⟨_, if_pos rfl, rfl, rfl, [name], rfl⟩
    · exact ⟨b, if_neg h, .refl b⟩
  · rw [Ctx.lookup_setTypes, hj]
    split <;> rfl

/-- The context that is left. -/
def Out.ctx : Out → Option Ctx
  | .returns c _ => some c
  | .throws c _ => some c
  | .undefined => none

theorem failed_ctx {c c' : Ctx} {e : Err} (h : (failed c e).ctx = some c') : c' = c := by
  unfold failed at h
  split at h
  · cases h
  · exact (Option.some.inj h).symm

theorem malformed_ctx {c c' : Ctx} {e : Option Err} {o : Out} (h : Malformed c e o) (ho : o.ctx = some c') : c' = c := by
  cases e with
  | some e => cases h; exact failed_ctx ho
  | none =>
    obtain ⟨m, -, rfl⟩ := h
    exact (Option.some.inj ho).symm

theorem convertJson_keeps {env : Env} {conv : Table → Leaves → Ptr → JVal → Res Bytes → Prop} {broken : Table → Leaves → Ptr → List Tok → Option Err → Prop} {k : Nat} {t j : Bytes} {c c' : Ctx} {o : Out}
    (h : ConvertJson env conv broken k t j c o) (ho : o.ctx = some c') : Keeps c c' := by
  unfold ConvertJson at h
  simp only at h
  split at h
  · subst h; cases ho; exact .refl rfl
  · rename_i a ha
    have hk := keeps_lookup ha t
    generalize lookupType t a.types = r at h hk
    obtain ⟨r, T⟩ := r
    cases r with
    | error e =>
      simp only at h
      subst h
      rw [failed_ctx ho]
      exact (Keeps.refl rfl).trans hk
    | ok p =>
      simp only at h
      have hk' : Keeps c (c.setTypes k T) := (Keeps.refl rfl).trans hk
      split at h
      · obtain ⟨e, -, h⟩ := h
        rw [malformed_ctx h ho]
        exact hk'.trans (.refl rfl)
      · obtain ⟨r, -, rfl⟩ := h
        cases r with
        | error e =>
          rw [failed_ctx ho]
          exact hk'.trans (.refl rfl)
        | ok b => cases ho; exact hk'.trans (.refl rfl)

theorem convertBin_keeps {env : Env} {k : Nat} {t d : Bytes} {c c' : Ctx} {o : Out}
    (h : ConvertBin env k t d c o) (ho : o.ctx = some c') : Keeps c c' := by
  unfold ConvertBin at h
  simp only at h
  split at h
  · subst h; cases ho; exact .refl rfl
  · rename_i a ha
    have hk := keeps_lookup ha t
    generalize lookupType t a.types = r at h hk
    obtain ⟨r, T⟩ := r
    cases r with
    | error e =>
      simp only at h
      subst h
      rw [failed_ctx ho]
      exact (Keeps.refl rfl).trans hk
    | ok p =>
      simp only at h
      have hk' : Keeps c (c.setTypes k T) := (Keeps.refl rfl).trans hk
      obtain ⟨r, -, rfl⟩ := h
      cases r with
      | error e => rw [failed_ctx ho]; exact hk'.trans (.refl rfl)
      | ok b =>
        simp only at ho
        split at ho <;> (cases ho; exact hk'.trans (.refl rfl))

/-! ## Texts of errors -/

theorem what_ne (e : Err) : str e.what ≠ [] := by
  cases e with
  | text m => cases m <;> decide
  | _ => decide

theorem syntaxErrors_ne {m : String} (h : m ∈ syntaxErrors) : str m ≠ [] := by
  have : ∀ m ∈ syntaxErrors, str m ≠ [] := by decide
  exact this m h

theorem failed_throws {c : Ctx} {e : Err} (h : e ≠ .ub) : ∃ w, w ≠ [] ∧ failed c e = .throws c w :=
  ⟨_, what_ne e, by rw [failed, if_neg h]⟩

theorem malformed_throws {c : Ctx} {e : Option Err} {o : Out} (he : e ≠ some .ub) (h : Malformed c e o) : ∃ w, w ≠ [] ∧ o = .throws c w := by
  cases e with
  | some e =>
    cases h
    exact failed_throws fun h => he (by rw [h])
  | none =>
    obtain ⟨m, h, rfl⟩ := h
    exact ⟨_, syntaxErrors_ne h, rfl⟩

theorem malformed_exists (c : Ctx) (e : Option Err) : ∃ o, Malformed c e o := by
  cases e with
  | some e => exact ⟨_, rfl⟩
  | none => exact ⟨_, "Invalid value", by decide, rfl⟩

theorem foundIn_ub {e : Err} : foundIn e = some .ub ↔ e = .ub := by
  unfold foundIn
  constructor
  · intro h
    split at h
    · cases h
    · exact Option.some.inj h
  · rintro rfl
    rw [if_neg (by decide)]

/-! ## Loading -/

/-- How a loading call ends that is given a definition described by `W`. -/
inductive LoadOut (W : AbiDef → Prop) (k : Nat) (c : Ctx) : Out → Prop
  | refused {c' : Ctx} : (¬ ∃ D, W D ∧ Usable D) → c'.contracts = c.contracts → c'.resultBin = c.resultBin → c'.lastError ≠ [] →
      LoadOut W k c (.returns c' (.bool false))
  | thrown {c' : Ctx} {w : Bytes} : (¬ ∃ D, W D ∧ Usable D) → c'.contracts = c.contracts → c'.resultBin = c.resultBin → w ≠ [] →
      LoadOut W k c (.throws c' w)
  | loaded {c' : Ctx} {D : AbiDef} {T : Table} : W D → Usable D → LoadTypes D (.ok T) → c'.resultBin = c.resultBin →
      c'.contracts = (c.insert k ⟨D.actionTypes, D.tableTypes, T⟩).contracts → LoadOut W k c (.returns c' (.bool true))

theorem versionOk_iff (v : Bytes) : versionOk v = true ↔ ∃ minor, v = str "eosio::abi/1." ++ minor := by
  rw [versionOk, beq_iff_eq]
  constructor
  · intro h
    exact ⟨v.drop 13, by rw [← h, List.take_append_drop]⟩
  · rintro ⟨m, rfl⟩
    exact List.take_left' (by decide)

theorem load_unique {D : AbiDef} {r r' : Res Table} (h : LoadTypes D r) (h' : LoadTypes D r') : r = r' := by
  obtain ⟨x, -, hx⟩ := c24_terminates D
  rw [hx _ h, hx _ h']

theorem insert_contracts {c c' : Ctx} (h : c'.contracts = c.contracts) (k : Nat) (a : Abi) :
    (c'.insert k a).contracts = (c.insert k a).contracts ∧ (c'.insert k a).resultBin = c'.resultBin := by
  unfold Ctx.insert
  rw [h]
  split <;> simp [h]

theorem install_out {W : AbiDef → Prop} (hW : ∀ D D', W D → W D' → D' = D) {c c' : Ctx} {k : Nat} {D : AbiDef} {o : Out} (hD : W D) (hv : versionOk D.version = true)
    (hc : c'.contracts = c.contracts) (hb : c'.resultBin = c.resultBin) (h : Install c' k D o) : LoadOut W k c o := by
  obtain ⟨r, h1, rfl⟩ := h
  have hd := defined_load h1
  cases r with
  | error e =>
    obtain ⟨w, h2, h3⟩ := failed_throws (c := c') (e := e) fun he => hd (by rw [he])
    simp only [h3]
    refine .thrown ?_ hc hb h2
    rintro ⟨D', h4, -, T, h5⟩
    rw [hW _ _ hD h4] at h5
    cases load_unique h1 h5
  | ok T =>
    have := insert_contracts hc k ⟨D.actionTypes, D.tableTypes, T⟩
    exact .loaded hD ⟨(versionOk_iff _).1 hv, T, h1⟩ h1 (this.2.trans hb) this.1

theorem install_exists (c : Ctx) (k : Nat) (D : AbiDef) : ∃ o, Install c k D o := by
  obtain ⟨r, h, -⟩ := c24_terminates D
  exact ⟨_, r, h, rfl⟩

theorem setAbi_out {env : Env} {k : Nat} {text : Bytes} {c : Ctx} {o : Out} (h : SetAbi env k text c o) :
    LoadOut (fun D => ∃ v, env.read text = some v ∧ AbiDoc v D) k c o := by
  unfold SetAbi at h
  simp only at h
  cases hv : env.read text with
  | none =>
    simp only [hv] at h
    obtain ⟨v, rest, k1, k2⟩ := env.cuts text hv
    obtain ⟨e, k3, k4, -⟩ := abiDef_cut_defined k1 k2
    simp only [k3] at h
    obtain ⟨w, h1, rfl⟩ := malformed_throws (fun h => k4 (foundIn_ub.1 h)) h
    exact .thrown (by rintro ⟨D, ⟨v, h, -⟩, -⟩; cases h) rfl rfl h1
  | some v =>
    simp only [hv] at h
    have hd := defined_abiDefFromJson v
    have hr := fun D => c50_reads_description v D
    generalize abiDefFromJson v.toks = r at h hd hr
    cases r with
    | error e =>
      simp only at h
      obtain ⟨w, h1, h2⟩ := failed_throws (c := c.setError (str "abi parse error")) (e := e) fun he => hd (by rw [he])
      rw [h, h2]
      refine .thrown ?_ rfl rfl h1
      rintro ⟨D, ⟨v', h, hD⟩, -⟩
      cases h
      cases (hr D).2 hD
    | ok D =>
      simp only at h
      have hD := (hr D).1 rfl
      have hu : ∀ D D' : AbiDef, (∃ v', some v = some v' ∧ AbiDoc v' D) → (∃ v', some v = some v' ∧ AbiDoc v' D') → D' = D := by
        rintro D1 D2 ⟨v1, e1, h1⟩ ⟨v2, e2, h2⟩
        cases e1; cases e2
        have a := (hr _).2 h1
        have b := (hr _).2 h2
        rw [a] at b
        exact (Except.ok.inj b).symm
      split at h
      · rename_i hver
        exact install_out hu ⟨v, rfl, hD⟩ hver (c' := c.setError (str "abi parse error")) rfl rfl h
      · rename_i hver
        subst h
        refine .refused ?_ rfl rfl (by show str "unsupported abi version" ≠ []; decide)
        rintro ⟨D', h1, ⟨h2, -⟩⟩
        rw [hu _ _ ⟨v, rfl, hD⟩ h1] at h2
        exact hver ((versionOk_iff _).2 h2)

theorem setAbi_exists (env : Env) (k : Nat) (text : Bytes) (c : Ctx) : ∃ o, SetAbi env k text c o := by
  unfold SetAbi
  simp only
  split
  · split
    · exact malformed_exists _ _
    · split
      · exact install_exists _ _ _
      · exact ⟨_, rfl⟩
  · split
    · exact ⟨_, rfl⟩
    · split
      · exact install_exists _ _ _
      · exact ⟨_, rfl⟩

theorem abiDef_version {data rest : Bytes} {D : AbiDef} (h : abiDefFromBin data = .ok (D, rest)) : ∃ r, textFromBin data = .ok (D.version, r) := by
  obtain ⟨⟨x1, s1⟩, h1, h⟩ := bind_eq_ok.1 h
  obtain ⟨⟨x2, s2⟩, -, h⟩ := bind_eq_ok.1 h
  obtain ⟨⟨x3, s3⟩, -, h⟩ := bind_eq_ok.1 h
  obtain ⟨⟨x4, s4⟩, -, h⟩ := bind_eq_ok.1 h
  obtain ⟨⟨x5, s5⟩, -, h⟩ := bind_eq_ok.1 h
  obtain ⟨⟨x6, s6⟩, -, h⟩ := bind_eq_ok.1 h
  obtain ⟨⟨x7, s7⟩, -, h⟩ := bind_eq_ok.1 h
  obtain ⟨⟨x8, s8⟩, -, h⟩ := bind_eq_ok.1 h
  obtain ⟨⟨x9, s9⟩, -, h⟩ := bind_eq_ok.1 h
  cases h
  exact ⟨_, h1⟩

theorem setAbiBin_out {k : Nat} {data : Bytes} {c : Ctx} {o : Out} (h : SetAbiBin k data c o) : LoadOut (HoldsDef data) k c o := by
  have hu : ∀ D D' : AbiDef, HoldsDef data D → HoldsDef data D' → D' = D := by
    rintro D D' ⟨r, h⟩ ⟨r', h'⟩
    rw [h] at h'
    cases h'; rfl
  unfold SetAbiBin at h
  simp only at h
  split at h
  · rename_i hd
    subst h hd
    refine .refused ?_ rfl rfl (by show str "no data" ≠ []; decide)
    rintro ⟨D, ⟨r, h⟩, -⟩
    obtain ⟨r, h⟩ := abiDef_version h
    unfold textFromBin at h
    rw [show varuint32FromBin [] = .error .overrun by unfold varuint32FromBin; rw [varuintFromBinLoop.eq_def]; rfl] at h
    cases h
  · have hd1 := defined_text data
    have hv := fun D rest => abiDef_version (data := data) (D := D) (rest := rest)
    generalize textFromBin data = r1 at h hd1 hv
    cases r1 with
    | error e =>
      simp only at h
      obtain ⟨w, h1, h2⟩ := failed_throws (c := c.setError (str "abi parse error")) (e := e) fun he => hd1 (by rw [he])
      rw [h, h2]
      refine .thrown ?_ rfl rfl h1
      rintro ⟨D, ⟨r, h⟩, -⟩
      obtain ⟨r, h⟩ := hv D r h
      cases h
    | ok p =>
      obtain ⟨ver, r⟩ := p
      simp only at h
      split at h
      · rename_i hver
        have hd2 := defined_abiDefFromBin data
        cases h2 : abiDefFromBin data with
        | error e =>
          simp only [h2] at h
          obtain ⟨w, h3, h4⟩ := failed_throws (c := c.setError (str "abi parse error")) (e := e) fun he => hd2 (by rw [h2, he])
          rw [h, h4]
          refine .thrown ?_ rfl rfl h3
          rintro ⟨D, ⟨r, h⟩, -⟩
          rw [h2] at h; cases h
        | ok p =>
          obtain ⟨D, rest⟩ := p
          simp only [h2] at h
          obtain ⟨r, h3⟩ := hv D rest h2
          cases h3
          exact install_out hu ⟨rest, h2⟩ hver (c' := c.setError (str "abi parse error")) rfl rfl h
      · rename_i hver
        subst h
        refine .refused ?_ rfl rfl (by show str "unsupported abi version" ≠ []; decide)
        rintro ⟨D, ⟨rest, h1⟩, ⟨h2, -⟩⟩
        obtain ⟨r, h3⟩ := hv D rest h1
        cases h3
        exact hver ((versionOk_iff _).2 h2)

theorem setAbiBin_exists (k : Nat) (data : Bytes) (c : Ctx) : ∃ o, SetAbiBin k data c o := by
  unfold SetAbiBin
  simp only
  split
  · exact ⟨_, rfl⟩
  · split
    · exact ⟨_, rfl⟩
    · split
      · split
        · exact ⟨_, rfl⟩
        · exact install_exists _ _ _
      · exact ⟨_, rfl⟩

theorem setAbiHex_out {k : Nat} {hex : Bytes} {c : Ctx} {o : Out} (h : SetAbiHex k hex c o) :
    LoadOut (fun D => ∃ b, unhexLoop hex = some b ∧ HoldsDef b D) k c o := by
  unfold SetAbiHex at h
  cases hx : unhexLoop hex with
  | none =>
    simp only [hx] at h
    subst h
    exact .refused (by rintro ⟨D, ⟨b, h, -⟩, -⟩; cases h) rfl rfl (by show str "expected hex string" ≠ []; decide)
  | some b =>
    simp only [hx] at h
    obtain ⟨x, ⟨y, h1, rfl⟩, rfl⟩ := h
    have he : (fun D => ∃ b', some b = some b' ∧ HoldsDef b' D) = HoldsDef b := by
      funext D
      simp
    rw [he]
    cases setAbiBin_out h1 with
    | refused a1 a2 a3 a4 => exact .refused a1 a2 a3 a4
    | thrown a1 a2 a3 a4 => exact .refused a1 a2 a3 a4
    | loaded a1 a2 a3 a4 a5 => exact .loaded a1 a2 a3 a4 a5

theorem setAbiHex_exists (k : Nat) (hex : Bytes) (c : Ctx) : ∃ o, SetAbiHex k hex c o := by
  unfold SetAbiHex
  split
  · exact ⟨_, rfl⟩
  · rename_i b _
    obtain ⟨o, ho⟩ := setAbiBin_exists k b c
    exact ⟨_, _, ⟨o, ho, rfl⟩, rfl⟩

/-! ## Loading calls -/

/-- The call asks to load the definition `D` for the contract `k`, whether or not it is usable. -/
def Asks (env : Env) (q : Call) (k : Nat) (D : AbiDef) : Prop :=
  match q with
  | .setAbi k' text => k' = k ∧ ∃ v, env.read (cstr text) = some v ∧ AbiDoc v D
  | .setAbiBin k' data => k' = k ∧ ∃ b, data = some b ∧ HoldsDef b D
  | .setAbiHex k' hex => k' = k ∧ ∃ b, unhexLoop (cstr hex) = some b ∧ HoldsDef b D
  | _ => False

theorem loads_iff {env : Env} {q : Call} {k : Nat} {D : AbiDef} : Loads env q k D ↔ Usable D ∧ Asks env q k D := by
  cases q <;> rfl

/-- How a loading call on a context ends. -/
inductive LoadEnd (env : Env) (q : Call) (c : Ctx) : Outcome → Prop
  | refused {c' : Ctx} : (¬ ∃ k D, Loads env q k D) → c'.contracts = c.contracts → c'.resultBin = c.resultBin → c'.lastError ≠ [] →
      LoadEnd env q c (.done (some c') (.bool false))
  | loaded {c' : Ctx} {k : Nat} {D : AbiDef} {T : Table} : Loads env q k D → LoadTypes D (.ok T) → c'.resultBin = c.resultBin →
      c'.contracts = (c.insert k ⟨D.actionTypes, D.tableTypes, T⟩).contracts → LoadEnd env q c (.done (some c') (.bool true))

theorem loadEnd_of {env : Env} {q : Call} {k : Nat} {W : AbiDef → Prop} (hW : ∀ k' D, Asks env q k' D ↔ k = k' ∧ W D) {c : Ctx} {f : Ctx → Out → Prop}
    (hf : ∀ x, f c x → LoadOut W k c x) {o : Outcome} (h : Handled (.bool false) (some c) f o) : LoadEnd env q c o := by
  have hn : (¬ ∃ D, W D ∧ Usable D) → ¬ ∃ k D, Loads env q k D := by
    rintro h ⟨k', D, h1⟩
    obtain ⟨h1, h2⟩ := loads_iff.1 h1
    exact h ⟨D, ((hW _ _).1 h2).2, h1⟩
  obtain ⟨x, h1, rfl⟩ := h
  cases hf x h1 with
  | refused a1 a2 a3 a4 => exact .refused (hn a1) a2 a3 a4
  | thrown a1 a2 a3 a4 => exact .refused (hn a1) a2 a3 a4
  | loaded a1 a2 a3 a4 a5 => exact .loaded (loads_iff.2 ⟨a2, (hW _ _).2 ⟨rfl, a1⟩⟩) a3 a4 a5

theorem load_end {env : Env} {q : Call} (hq : IsLoad q = true) {c : Ctx} {o : Outcome} (h : Step env (some c) q o) : LoadEnd env q c o := by
  cases q with
  | setAbi k text => exact loadEnd_of (fun k' D => Iff.rfl) (fun x hx => setAbi_out hx) h
  | setAbiBin k data =>
    refine loadEnd_of (W := HoldsDef (data.getD [])) (fun k' D => ?_) (fun x hx => setAbiBin_out hx) h
    cases data with
    | none =>
      simp only [Asks]
      constructor
      · rintro ⟨-, b, h, -⟩; cases h
      · rintro ⟨-, r, h⟩
        obtain ⟨r, h⟩ := abiDef_version h
        unfold textFromBin at h
        simp only [Option.getD_none] at h
        rw [show varuint32FromBin [] = .error .overrun by unfold varuint32FromBin; rw [varuintFromBinLoop.eq_def]; rfl] at h
        cases h
    | some b => simp [Asks]
  | setAbiHex k hex => exact loadEnd_of (fun k' D => Iff.rfl) (fun x hx => setAbiHex_out hx) h
  | _ => cases hq

theorem handled_exists {ev : Ret} {c : Option Ctx} {f : Ctx → Out → Prop} (h : ∀ c, ∃ o, f c o) : ∃ o, Handled ev c f o := by
  cases c with
  | none => exact ⟨_, rfl⟩
  | some c => obtain ⟨o, ho⟩ := h c; exact ⟨_, o, ho, rfl⟩

theorem load_exists {env : Env} {q : Call} (hq : IsLoad q = true) (c : Option Ctx) : ∃ o, Step env c q o := by
  cases q with
  | setAbi k text => exact handled_exists (setAbi_exists env k _)
  | setAbiBin k data => exact handled_exists (setAbiBin_exists k _)
  | setAbiHex k hex => exact handled_exists (setAbiHex_exists k _)
  | _ => cases hq

/-! ## Contracts and their definitions -/

/-- The contract `k` is loaded, with the definition `D`. -/
def HasDef (c : Ctx) (k : Nat) (D : AbiDef) : Prop :=
  ∃ a, c.contracts.lookup k = some a ∧ LoadedThen D a.types ∧ a.actions = D.actionTypes ∧ a.tables = D.tableTypes

theorem HasDef.keeps {c c' : Ctx} {k : Nat} {D : AbiDef} (h : HasDef c k D) (h' : Keeps c c') : HasDef c' k D := by
  obtain ⟨a, h1, ⟨T, names, h2, h3⟩, h4, h5⟩ := h
  obtain ⟨a', g1, g2, g3, m, g4⟩ := h'.1 k a h1
  exact ⟨a', g1, ⟨T, names ++ m, h2, by rw [g4, h3, lookups_append]⟩, g2.trans h4, g3.trans h5⟩

/-- Tables loaded from the same definition agree on what they share. -/
theorem agree_loaded {D : AbiDef} {T T' : Table} (h : Loaded D T) (h' : Loaded D T') : Agree T T' fun p => T.Valid p ∧ T'.Valid p := by
  rintro p ⟨⟨d, h1, h2⟩, d', h3, h4⟩
  have hd : d' = d := Meaning.unique h.1.unique (h'.1.meaning _ _ h3 (h'.2 _ _ h3)) (h.1.meaning _ _ h1 (h.2 _ _ h1))
  subst hd
  obtain ⟨_, e1, -, -, c1⟩ := agree_of_wf h.wf (T' := T) (fun _ _ h => h) p ⟨_, h1, h2⟩
  obtain ⟨_, e2, -, -, c2⟩ := agree_of_wf h'.wf (T' := T') (fun _ _ h => h) p ⟨_, h3, h4⟩
  rw [h1] at e1; cases e1
  rw [h3] at e2; cases e2
  exact ⟨_, h1, h3, h2, fun q hq => ⟨c1 q hq, c2 q hq⟩⟩

/-- A conversion from JSON: it ends in one way, which does not depend on what has been looked up. -/
structure Conv (conv : Table → Leaves → Ptr → JVal → Res Bytes → Prop) (broken : Table → Leaves → Ptr → List Tok → Option Err → Prop) : Prop where
  stops : ∀ {T : Table} {L : Leaves} {p : Ptr} (ts : List Tok), T.WF → ∃ e, broken T L p ts e
  total : ∀ {T : Table} {L : Leaves} {p : Ptr} (v : JVal), T.WF → T.Valid p → ∃! r, conv T L p v r
  agree : ∀ {D : AbiDef} {T T' : Table} {L : Leaves} {p : Ptr} {v : JVal} {r : Res Bytes}, Loaded D T → Loaded D T' → T.Valid p → T'.Valid p →
    conv T L p v r → conv T' L p v r

theorem conv_jsonToBin : Conv JsonToBin OrderedBroken where
  stops ts wf := by
    obtain ⟨r, hr, -⟩ := c32_ordered_terminates wf _ ts
    exact ⟨_, r, hr, rfl⟩
  total v wf hp := c32_ordered_terminates wf _ v.toks
  agree h h' hp hp' hr := (agree_jsonToBin (agree_loaded h h') h.wf h'.wf ⟨hp, hp'⟩ _ _ _).2 hr

theorem conv_reorderable : Conv JsonToBinReorderable ReorderableBroken where
  stops ts wf := ⟨_, rfl⟩
  total v wf hp := c32_reorderable_terminates wf hp v
  agree h h' hp hp' hr := (agree_reorderable (agree_loaded h h') h.wf h'.wf ⟨hp, hp'⟩ _ _ _).2 hr

/-- How a conversion from JSON ends. -/
inductive JsonEnd (env : Env) (conv : Table → Leaves → Ptr → JVal → Res Bytes → Prop) (k : Nat) (type json : Bytes) (c : Ctx) : Outcome → Prop
  | undefined : JsonEnd env conv k type json c .undefined
  | notLoaded {c' : Ctx} : c.contracts.lookup k = none → c'.resultBin = c.resultBin → c'.lastError = notLoaded k →
      JsonEnd env conv k type json c (.done (some c') (.bool false))
  | noType {c' : Ctx} {a : Abi} {e : Err} : c.contracts.lookup k = some a → (lookupType type a.types).1 = .error e → c'.resultBin = c.resultBin →
      c'.lastError = str e.what → JsonEnd env conv k type json c (.done (some c') (.bool false))
  | failed {c' : Ctx} {a : Abi} {p : Ptr} : c.contracts.lookup k = some a → (lookupType type a.types).1 = .ok p →
      (∀ v, env.read json = some v → ∃ e, conv (lookupType type a.types).2 env.leaves p v (.error e)) → c'.resultBin = [] → c'.lastError ≠ [] →
      JsonEnd env conv k type json c (.done (some c') (.bool false))
  | converted {c' : Ctx} {a : Abi} {p : Ptr} {v : JVal} {b : Bytes} : c.contracts.lookup k = some a → (lookupType type a.types).1 = .ok p →
      env.read json = some v → conv (lookupType type a.types).2 env.leaves p v (.ok b) → c'.resultBin = b →
      JsonEnd env conv k type json c (.done (some c') (.bool true))

/-- the outcome of a body inside `handle_exceptions` -/
def Out.handled (errval : Ret) : Out → Outcome
  | .returns c' r => .done (some c') r
  | .throws c' w => .done (some (c'.setError w)) errval
  | .undefined => .undefined

theorem handled_iff {ev : Ret} {c : Ctx} {f : Ctx → Out → Prop} {o : Outcome} : Handled ev (some c) f o ↔ ∃ x, f c x ∧ o = x.handled ev := by
  unfold Handled
  constructor
  · rintro ⟨x, h, rfl⟩; exact ⟨x, h, by cases x <;> rfl⟩
  · rintro ⟨x, h, rfl⟩; exact ⟨x, h, by cases x <;> rfl⟩

theorem convertJson_end {env : Env} {conv : Table → Leaves → Ptr → JVal → Res Bytes → Prop} {broken : Table → Leaves → Ptr → List Tok → Option Err → Prop} {k : Nat} {type json : Bytes} {c : Ctx} {o : Outcome}
    (h : Handled (.bool false) (some c) (ConvertJson env conv broken k type json) o) : JsonEnd env conv k type json c o := by
  obtain ⟨x, h', rfl⟩ := handled_iff.1 h
  clear h
  rename' h' => h
  unfold ConvertJson at h
  simp only at h
  split at h
  · rename_i hn
    subst h
    exact .notLoaded hn rfl rfl
  · rename_i a ha
    have hl : ∀ r T, lookupType type a.types = (r, T) → (lookupType type a.types).1 = r ∧ (lookupType type a.types).2 = T := by
      intro r T h; rw [h]; exact ⟨rfl, rfl⟩
    have hd := defined_getType 32 type a.types
    change Defined (lookupType type a.types).1 at hd
    split at h
    · rename_i e T he
      obtain ⟨h1, -⟩ := hl _ _ he
      subst h
      have hu : e ≠ .ub := fun hu => hd (by rw [h1, hu])
      rw [failed, if_neg hu]
      exact .noType ha h1 rfl rfl
    · rename_i p T he
      obtain ⟨h1, h2⟩ := hl _ _ he
      split at h
      · rename_i hv
        obtain ⟨e, -, h⟩ := h
        by_cases hu : e = some .ub
        · subst hu; cases h; exact .undefined
        · obtain ⟨w, hw, rfl⟩ := malformed_throws hu h
          exact .failed ha h1 (fun v h => by rw [hv] at h; cases h) rfl hw
      · rename_i v hv
        obtain ⟨r, hr, rfl⟩ := h
        rw [← h2] at hr
        cases r with
        | error e =>
          simp only
          by_cases he : e = .ub
          · rw [failed, if_pos he]; exact .undefined
          · rw [failed, if_neg he]
            exact .failed ha h1 (fun v' h => by rw [hv] at h; cases h; exact ⟨e, hr⟩) rfl (what_ne e)
        | ok b => exact .converted ha h1 hv hr rfl

theorem convertJson_exists {env : Env} {conv : Table → Leaves → Ptr → JVal → Res Bytes → Prop} {broken : Table → Leaves → Ptr → List Tok → Option Err → Prop} (hc : Conv conv broken) {k : Nat} {type json : Bytes} {c : Ctx}
    (hg : ∀ a, c.contracts.lookup k = some a → ∃ D, LoadedThen D a.types) : ∃ o, ConvertJson env conv broken k type json c o := by
  unfold ConvertJson
  simp only
  split
  · exact ⟨_, rfl⟩
  · rename_i a ha
    obtain ⟨D, hD⟩ := hg a ha
    split
    · exact ⟨_, rfl⟩
    · rename_i p T he
      have hp : (lookupType type a.types).1 = .ok p := by rw [he]
      have hv := c26_found hD hp
      rw [he] at hv
      have hl := loaded_of (hD.lookup type)
      rw [he] at hl
      split
      · obtain ⟨e, h⟩ := hc.stops (L := env.leaves) (p := p) (env.upTo json) hl.wf
        obtain ⟨o, ho⟩ := malformed_exists { (c.setError (str "json parse error")).setTypes k T with resultBin := [] } e
        exact ⟨o, e, h, ho⟩
      · rename_i v _
        obtain ⟨r, hr, -⟩ := hc.total (L := env.leaves) v hl.wf hv
        exact ⟨_, r, hr, rfl⟩

/-- Whether a conversion succeeds, and with which bytes, depends only on the definition. -/
theorem converts_iff {env : Env} {conv : Table → Leaves → Ptr → JVal → Res Bytes → Prop} {broken : Table → Leaves → Ptr → List Tok → Option Err → Prop} (hc : Conv conv broken) {D : AbiDef} {T : Table} (hT : LoadedThen D T)
    {type json b : Bytes} : Converts env conv D type json b ↔ ∃ p v, (lookupType type T).1 = .ok p ∧ env.read json = some v ∧
      conv (lookupType type T).2 env.leaves p v (.ok b) := by
  have key : ∀ {T T' : Table}, LoadedThen D T → LoadedThen D T' → ∀ {p : Ptr} {v : JVal}, (lookupType type T).1 = .ok p →
      conv (lookupType type T).2 env.leaves p v (.ok b) → (lookupType type T').1 = .ok p ∧ conv (lookupType type T').2 env.leaves p v (.ok b) := by
    intro T T' h h' p v hp hr
    have hp' := (c26_lookup h' type p).2 ((c26_lookup h type p).1 hp)
    exact ⟨hp', hc.agree (loaded_of (h.lookup type)) (loaded_of (h'.lookup type)) (c26_found h hp) (c26_found h' hp') hr⟩
  constructor
  · rintro ⟨T0, p, v, h1, h2, h3, h4⟩
    obtain ⟨g1, g2⟩ := key ⟨T0, [], h1, rfl⟩ hT h2 h4
    exact ⟨p, v, g1, h3, g2⟩
  · rintro ⟨p, v, h2, h3, h4⟩
    obtain ⟨T0, names, h1, -⟩ := id hT
    obtain ⟨g1, g2⟩ := key hT ⟨T0, [], h1, rfl⟩ h2 h4
    exact ⟨T0, p, v, h1, g1, h3, g2⟩

/-- How `bin_to_json` ends. -/
inductive BinEnd (env : Env) (k : Nat) (type bin : Bytes) (c : Ctx) : Outcome → Prop
  | undefined : BinEnd env k type bin c .undefined
  | failed {c' : Ctx} : c'.resultBin = c.resultBin → c'.lastError ≠ [] →
      (∀ a, c.contracts.lookup k = some a → (∃ e, (lookupType type a.types).1 = .error e) ∨ ∃ p r, (lookupType type a.types).1 = .ok p ∧
        BinToJson (lookupType type a.types).2 env.leaves p bin r ∧ ∀ t, r ≠ .ok (t, [])) → BinEnd env k type bin c (.done (some c') (.str none))
  | decoded {c' : Ctx} {a : Abi} {p : Ptr} {t : Bytes} : c.contracts.lookup k = some a → (lookupType type a.types).1 = .ok p →
      BinToJson (lookupType type a.types).2 env.leaves p bin (.ok (t, [])) → c'.resultBin = c.resultBin → c'.resultStr = t →
      BinEnd env k type bin c (.done (some c') (.str (some (cut t))))

theorem convertBin_end {env : Env} {k : Nat} {type : Option Bytes} {data : Option Bytes} {c : Ctx} {o : Outcome}
    (h : CallConvertBin env k type data (some c) o) : BinEnd env k (cstr type) (data.getD []) c o := by
  obtain ⟨x, h', rfl⟩ := handled_iff.1 h
  clear h
  rename' h' => h
  generalize cstr type = type at *
  generalize data.getD [] = bin at *
  unfold ConvertBin at h
  simp only at h
  split at h
  · rename_i hn
    subst h
    exact .failed rfl (by show str "binary decode error" ≠ []; decide) fun a ha => by rw [Ctx.lookup_setError, ha] at hn; cases hn
  · rename_i a ha
    have hl : ∀ r T, lookupType type a.types = (r, T) → (lookupType type a.types).1 = r ∧ (lookupType type a.types).2 = T := by
      intro r T h; rw [h]; exact ⟨rfl, rfl⟩
    have hu : ∀ b, c.contracts.lookup k = some b → b = a := by
      intro b hb; rw [Ctx.lookup_setError, hb] at ha; exact Option.some.inj ha
    have hd := defined_getType 32 type a.types
    change Defined (lookupType type a.types).1 at hd
    split at h
    · rename_i e T he
      obtain ⟨h1, -⟩ := hl _ _ he
      subst h
      have hub : e ≠ .ub := fun hu => hd (by rw [h1, hu])
      rw [failed, if_neg hub]
      refine .failed rfl (what_ne e) fun b hb => ?_
      rw [hu b hb]
      exact .inl ⟨e, h1⟩
    · rename_i p T he
      obtain ⟨h1, h2⟩ := hl _ _ he
      obtain ⟨r, hr, rfl⟩ := h
      rw [← h2] at hr
      cases r with
      | error e =>
        simp only
        by_cases he : e = .ub
        · rw [failed, if_pos he]; exact .undefined
        · rw [failed, if_neg he]
          refine .failed rfl (what_ne e) fun b hb => ?_
          rw [hu b hb]
          exact .inr ⟨p, _, h1, hr, fun t h => by cases h⟩
      | ok q =>
        obtain ⟨t, rest⟩ := q
        simp only
        split
        · rename_i hrest
          subst hrest
          exact .decoded ha h1 hr rfl rfl
        · rename_i hrest
          refine .failed rfl (by show str "Extra data" ≠ []; decide) fun b hb => ?_
          rw [hu b hb]
          exact .inr ⟨p, _, h1, hr, fun t h => hrest (by cases h; rfl)⟩

theorem convertBin_exists {env : Env} {k : Nat} {type bin : Bytes} {c : Ctx}
    (hg : ∀ a, c.contracts.lookup k = some a → ∃ D, LoadedThen D a.types) : ∃ o, ConvertBin env k type bin c o := by
  unfold ConvertBin
  simp only
  split
  · exact ⟨_, rfl⟩
  · rename_i a ha
    obtain ⟨D, hD⟩ := hg a ha
    split
    · exact ⟨_, rfl⟩
    · rename_i p T he
      have hp : (lookupType type a.types).1 = .ok p := by rw [he]
      have hv := c26_found hD hp
      rw [he] at hv
      have hl := loaded_of (hD.lookup type)
      rw [he] at hl
      obtain ⟨r, hr, -⟩ := c32_bin_to_json_terminates (L := env.leaves) hl.wf hv bin
      exact ⟨_, r, hr, rfl⟩

theorem decodesAll_iff {env : Env} {D : AbiDef} {T : Table} (hT : LoadedThen D T) {type bin t : Bytes} :
    DecodesAll env D type bin t ↔ ∃ p, (lookupType type T).1 = .ok p ∧ BinToJson (lookupType type T).2 env.leaves p bin (.ok (t, [])) := by
  have key : ∀ {T T' : Table}, LoadedThen D T → LoadedThen D T' → ∀ {p : Ptr}, (lookupType type T).1 = .ok p →
      BinToJson (lookupType type T).2 env.leaves p bin (.ok (t, [])) →
      (lookupType type T').1 = .ok p ∧ BinToJson (lookupType type T').2 env.leaves p bin (.ok (t, [])) := by
    intro T T' h h' p hp hr
    have hp' := (c26_lookup h' type p).2 ((c26_lookup h type p).1 hp)
    have l := loaded_of (h.lookup type)
    have l' := loaded_of (h'.lookup type)
    exact ⟨hp', (agree_binToJson (agree_loaded l l') l.wf l'.wf ⟨c26_found h hp, c26_found h' hp'⟩ _ _ _).2 hr⟩
  constructor
  · rintro ⟨T0, p, h1, h2, h4⟩
    obtain ⟨g1, g2⟩ := key ⟨T0, [], h1, rfl⟩ hT h2 h4
    exact ⟨p, g1, g2⟩
  · rintro ⟨p, h2, h4⟩
    obtain ⟨T0, names, h1, -⟩ := id hT
    obtain ⟨g1, g2⟩ := key hT ⟨T0, [], h1, rfl⟩ h2 h4
    exact ⟨T0, p, h1, g1, g2⟩

end Abieos
