import Verif.Proofs.SameType
import Verif.Props.CApi
/-!
C78: types with the same structure convert alike, whatever they are called.
-/
namespace Abieos
open Spec

section
variable {T T' : Table} {L : Leaves} {R : Ptr → Ptr → Prop}

theorem same_binToJson (hm : Matches T T' R) (w : T.WF) (w' : T'.WF) {p q : Ptr} (h : R p q) (hp : T.Valid p) (hq : T'.Valid q) {bin : Bytes}
    {r : Res (Bytes × Bytes)} (hr : BinToJson T L p bin r) : BinToJson T' L q bin r := by
  rw [binToJson_iff w hp bin _ (Nat.lt_succ_self _)] at hr
  rw [binToJson_iff w' hq bin _ (Nat.lt_succ_self _), ← same_dec hm _ _ _ _ _ _ h]
  exact hr

theorem same_reorderable (hm : Matches T T' R) (w : T.WF) (w' : T'.WF) {p q : Ptr} (h : R p q) (hp : T.Valid p) (hq : T'.Valid q) {v : JVal}
    {r : Res Bytes} (hr : JsonToBinReorderable T L p v r) : JsonToBinReorderable T' L q v r := by
  rw [reorderable_iff w hp v r _ (Nat.lt_succ_self _)] at hr
  rw [reorderable_iff w' hq v r _ (Nat.lt_succ_self _), ← same_encR hm _ _ _ _ _ h]
  exact hr
end

/-- calls that end alike -/
inductive SameOut (bin : Bool) : Out → Out → Prop
  | undefined : SameOut bin .undefined .undefined
  | returns {c c' : Ctx} {r : Ret} : c.lastError = c'.lastError → (bin = true → c.resultBin = c'.resultBin) → SameOut bin (.returns c r) (.returns c' r)
  | throws {c c' : Ctx} {w : Bytes} : (bin = true → c.resultBin = c'.resultBin) → SameOut bin (.throws c w) (.throws c' w)

theorem same_failed {bin : Bool} {c c' : Ctx} (h : bin = true → c.resultBin = c'.resultBin) (e : Err) : SameOut bin (failed c e) (failed c' e) := by
  unfold failed
  split
  · exact .undefined
  · exact .throws h

theorem same_convertJson {env : Env} {conv : Table → Leaves → Ptr → JVal → Res Bytes → Prop} {broken : Table → Leaves → Ptr → List Tok → Option Err → Prop}
    {k k' : Nat} {type type' json : Bytes} {c c' : Ctx} {a a' : Abi} (ha : c.contracts.lookup k = some a) (ha' : c'.contracts.lookup k' = some a') {p q : Ptr}
    (hp : (lookupType type a.types).1 = .ok p) (hq : (lookupType type' a'.types).1 = .ok q)
    (h1 : ∀ v r, conv (lookupType type a.types).2 env.leaves p v r → conv (lookupType type' a'.types).2 env.leaves q v r)
    (h2 : ∀ ts e, broken (lookupType type a.types).2 env.leaves p ts e → broken (lookupType type' a'.types).2 env.leaves q ts e)
    {x : Out} (hx : ConvertJson env conv broken k type json c x) : ∃ x', ConvertJson env conv broken k' type' json c' x' ∧ SameOut true x x' := by
  unfold ConvertJson at hx ⊢
  simp only [Ctx.lookup_setError, ha, ha'] at hx ⊢
  revert hp hq h1 h2 hx
  generalize lookupType type a.types = l
  generalize lookupType type' a'.types = l'
  obtain ⟨r, T⟩ := l
  obtain ⟨r', T'⟩ := l'
  rintro rfl rfl h1 h2 hx
  simp only at hx h1 h2 ⊢
  cases hr : env.read json with
  | none =>
    simp only [hr] at hx ⊢
    obtain ⟨e, he, hm⟩ := hx
    cases e with
    | none =>
      obtain ⟨m, hm, rfl⟩ := hm
      exact ⟨_, ⟨none, h2 _ _ he, m, hm, rfl⟩, .throws fun _ => rfl⟩
    | some e =>
      unfold Malformed at hm
      simp only at hm
      subst hm
      exact ⟨_, ⟨some e, h2 _ _ he, rfl⟩, same_failed (by intro _; rfl) e⟩
  | some v =>
    simp only [hr] at hx ⊢
    obtain ⟨r, he, rfl⟩ := hx
    refine ⟨_, ⟨r, h1 _ _ he, rfl⟩, ?_⟩
    cases r with
    | error e => exact same_failed (by intro _; rfl) e
    | ok b => exact .returns rfl fun _ => rfl

theorem same_convertBin {env : Env} {k k' : Nat} {type type' data : Bytes} {c c' : Ctx} {a a' : Abi} (ha : c.contracts.lookup k = some a)
    (ha' : c'.contracts.lookup k' = some a') {p q : Ptr} (hp : (lookupType type a.types).1 = .ok p) (hq : (lookupType type' a'.types).1 = .ok q)
    (h1 : ∀ r, BinToJson (lookupType type a.types).2 env.leaves p data r → BinToJson (lookupType type' a'.types).2 env.leaves q data r)
    {x : Out} (hx : ConvertBin env k type data c x) : ∃ x', ConvertBin env k' type' data c' x' ∧ SameOut false x x' := by
  unfold ConvertBin at hx ⊢
  simp only [Ctx.lookup_setError, ha, ha'] at hx ⊢
  revert hp hq h1 hx
  generalize lookupType type a.types = l
  generalize lookupType type' a'.types = l'
  obtain ⟨r, T⟩ := l
  obtain ⟨r', T'⟩ := l'
  rintro rfl rfl h1 hx
  simp only at hx h1 ⊢
  obtain ⟨r, he, rfl⟩ := hx
  refine ⟨_, ⟨r, h1 _ he, rfl⟩, ?_⟩
  cases r with
  | error e => exact same_failed (by simp) e
  | ok y =>
    simp only
    split
    · exact .returns rfl (by simp)
    · exact .throws (by simp)

/-- outcomes alike -/
inductive SameOutcome (bin : Bool) : Outcome → Outcome → Prop
  | undefined : SameOutcome bin .undefined .undefined
  | done {c c' : Ctx} {r : Ret} : c.lastError = c'.lastError → (bin = true → c.resultBin = c'.resultBin) → SameOutcome bin (.done (some c) r) (.done (some c') r)

theorem same_handled {bin : Bool} {ev : Ret} {x x' : Out} (h : SameOut bin x x') : SameOutcome bin (x.handled ev) (x'.handled ev) := by
  cases h with
  | undefined => exact .undefined
  | returns h1 h2 => exact .done h1 h2
  | throws h => exact .done rfl h

theorem same_step {env : Env} {c c' : Ctx} {k k' : Nat} {D D' : AbiDef} (hd : HasDef c k D) (hd' : HasDef c' k' D') {type type' : Option Bytes}
    (hs : SameType D D' (cstr type) (cstr type')) {q q' : Call} (hq : SameCall k k' type type' q q') {o : Outcome} (ho : Step env (some c) q o) :
    ∃ o', Step env (some c') q' o' ∧ SameOutcome (IsJsonToBin q) o o' := by
  obtain ⟨a, ha, hl, -⟩ := hd
  obtain ⟨a', ha', hl', -⟩ := hd'
  obtain ⟨p, p', R, h1, h2, h3, h4, h5, h6, h7, h8⟩ := same_found hl hl' hs
  have hb : ∀ data, CallConvertBin env k type data (some c) o → ∃ o', CallConvertBin env k' type' data (some c') o' ∧ SameOutcome false o o' := by
    intro data ho
    obtain ⟨x, hx, rfl⟩ := handled_iff.1 ho
    obtain ⟨x', e1, e2⟩ := same_convertBin ha ha' h1 h2 (fun r => same_binToJson h4 h5 h6 h3 h7 h8) hx
    exact ⟨_, handled_iff.2 ⟨x', e1, rfl⟩, same_handled e2⟩
  cases hq with
  | jsonToBin =>
    obtain ⟨x, hx, rfl⟩ := handled_iff.1 ho
    obtain ⟨x', e1, e2⟩ := same_convertJson ha ha' h1 h2 (fun v r => same_tokensToBin h4 h3)
      (fun ts e => by rintro ⟨r, hr, he⟩; exact ⟨r, same_tokensToBin h4 h3 hr, he⟩) hx
    exact ⟨_, handled_iff.2 ⟨x', e1, rfl⟩, same_handled e2⟩
  | jsonToBinReorderable =>
    obtain ⟨x, hx, rfl⟩ := handled_iff.1 ho
    obtain ⟨x', e1, e2⟩ := same_convertJson ha ha' h1 h2 (fun v r => same_reorderable h4 h5 h6 h3 h7 h8) (fun ts e h => h) hx
    exact ⟨_, handled_iff.2 ⟨x', e1, rfl⟩, same_handled e2⟩
  | binToJson => exact hb _ ho
  | hexToJson =>
    rename_i hex
    obtain ⟨x, hx, rfl⟩ := handled_iff.1 ho
    unfold ConvertHex at hx
    cases hu : unhexLoop (cstr hex) with
    | none =>
      rw [hu] at hx
      simp only at hx
      subst hx
      refine ⟨_, handled_iff.2 ⟨.returns (c'.setError (str "expected hex string")) (.str none), ?_, rfl⟩, same_handled (.returns ?_ ?_)⟩
      · unfold ConvertHex; rw [hu]
      · rfl
      · intro h; cases h
    | some data =>
      rw [hu] at hx
      obtain ⟨y, hy, rfl⟩ := hx
      obtain ⟨z, hz, rfl⟩ := handled_iff.1 hy
      obtain ⟨z', e1, e2⟩ := same_convertBin ha ha' h1 h2 (fun r => same_binToJson h4 h5 h6 h3 h7 h8) hz
      refine ⟨_, handled_iff.2 ⟨nested (z'.handled (.str none)), ?_, rfl⟩, ?_⟩
      · unfold ConvertHex; rw [hu]; exact ⟨_, handled_iff.2 ⟨z', e1, rfl⟩, rfl⟩
      · have := same_handled (ev := .str none) e2
        revert this
        generalize z.handled (.str none) = u
        generalize z'.handled (.str none) = u'
        intro this
        cases this with
        | undefined => exact .undefined
        | done g1 g2 => exact .done g1 g2

/-- **C78.** Types of the same structure convert alike, whatever they are called. After any history of calls in one context, in which the contract `k`
got the definition `D`, and any history in another context (or the same), in which the contract `k'` got the definition `D'`: if `type` in `D` and
`type'` in `D'` have the same structure, then however a conversion for the one may end, the same conversion for the other may end: with the same
result, the same error, and after conversions from JSON the same bytes. -/
theorem c78_same {env : Env} {h h' : List (Call × Ret)} {c c' : Ctx} (hc : Calls env (some Ctx.init) h (some c)) (hc' : Calls env (some Ctx.init) h' (some c'))
    {k k' : Nat} {l l' : Call} {D D' : AbiDef} (hf : FirstLoad env h k l D) (hf' : FirstLoad env h' k' l' D') {type type' : Option Bytes}
    (hs : SameType D D' (cstr type) (cstr type')) {q q' : Call} (hq : SameCall k k' type type' q q') {o : Outcome} (ho : Step env (some c) q o) :
    ∃ o', Step env (some c') q' o' ∧ ((o = .undefined ∧ o' = .undefined) ∨
      ∃ x x' r, o = .done (some x) r ∧ o' = .done (some x') r ∧ SameResults env (IsJsonToBin q) x x') := by
  obtain ⟨o', h1, h2⟩ := same_step (firstLoad_has hc hf) (firstLoad_has hc' hf') hs hq ho
  refine ⟨o', h1, ?_⟩
  cases h2 with
  | undefined => exact .inl ⟨rfl, rfl⟩
  | @done x x' r e1 e2 =>
    refine .inr ⟨x, x', r, rfl, rfl, fun w => ?_, fun hb b => ?_⟩
    · simp only [Step, e1]
      constructor <;> (intro h; simpa using h)
    · simp only [Step, Option.map_some, e2 hb]
      constructor <;> (intro h; simpa using h)

/-! ## having the same structure -/

theorem sameFields_symm {R : Bytes → Bytes → Prop} {fs gs : List Field} (h : SameFields R fs gs) : SameFields (fun p q => R q p) gs fs := by
  induction h with
  | nil => exact .nil
  | cons h1 h2 _ ih => exact .cons h1.symm h2 ih

/-- **C78.** "Of the same structure" can be said in either order. -/
theorem c78_symm {D D' : AbiDef} {type type' : Bytes} (h : SameType D D' type type') : SameType D' D type' type := by
  obtain ⟨R, ⟨p, q, h1, h2, h3⟩, h4⟩ := h
  refine ⟨fun p q => R q p, ⟨q, p, h2, h1, h3⟩, fun p q hr => ?_⟩
  obtain ⟨d, e, e1, e2, e3⟩ := h4 q p hr
  refine ⟨e, d, e2, e1, ?_⟩
  cases e3 with
  | builtin => exact .builtin
  | optional h => exact .optional h
  | extension h => exact .extension h
  | array h => exact .array h
  | struct h => exact .struct (sameFields_symm h)
  | variant h => exact .variant (sameFields_symm h)

theorem sameFields_trans {R Q : Bytes → Bytes → Prop} {fs gs : List Field} (h : SameFields R fs gs) : ∀ {hs : List Field}, SameFields Q gs hs →
    SameFields (fun p q => ∃ m, R p m ∧ Q m q) fs hs := by
  induction h with
  | nil => intro hs h; cases h; exact .nil
  | cons h1 h2 _ ih =>
    intro hs h
    cases h with
    | cons g1 g2 g3 => exact .cons (h1.trans g1) ⟨_, h2, g2⟩ (ih g3)

/-- **C78.** Of three definitions, if the first and the second have types of the same structure, and the second and the third, then the first and the third. -/
theorem c78_trans {D D' D'' : AbiDef} (hn : NamesOk D') {a b c : Bytes} (h : SameType D D' a b) (h' : SameType D' D'' b c) : SameType D D'' a c := by
  obtain ⟨R, ⟨p, q, h1, h2, h3⟩, h4⟩ := h
  obtain ⟨Q, ⟨q', r, g1, g2, g3⟩, g4⟩ := h'
  obtain ⟨u1, -, u3⟩ := c25_meaning_unique hn
  rw [u1 _ _ _ g1 h2] at g3
  refine ⟨fun p q => ∃ m, R p m ∧ Q m q, ⟨p, r, h1, g2, q, h3, g3⟩, ?_⟩
  rintro x z ⟨y, hr, hq⟩
  obtain ⟨d, e, e1, e2, e3⟩ := h4 x y hr
  obtain ⟨e', f, f1, f2, f3⟩ := g4 y z hq
  rw [u3 _ _ _ f1 e2] at f3
  refine ⟨d, f, e1, f2, ?_⟩
  cases e3 with
  | builtin => cases f3; exact .builtin
  | optional h => cases f3 with | optional h' => exact .optional ⟨_, h, h'⟩
  | extension h => cases f3 with | extension h' => exact .extension ⟨_, h, h'⟩
  | array h => cases f3 with | array h' => exact .array ⟨_, h, h'⟩
  | struct h => cases f3 with | struct h' => exact .struct (sameFields_trans h h')
  | variant h => cases f3 with | variant h' => exact .variant (sameFields_trans h h')

theorem sameFields_refl {R : Bytes → Bytes → Prop} : ∀ {fs : List Field}, (∀ f ∈ fs, R f.type f.type) → SameFields R fs fs
  | [], _ => .nil
  | _ :: _, h => .cons rfl (h _ (by simp)) (sameFields_refl fun f hf => h f (by simp [hf]))

/-- **C78.** Texts that denote the same type of a definition that loads (typedefs, say) are of the same structure. -/
theorem c78_refl {D : AbiDef} {T : Table} (hD : LoadTypes D (.ok T)) {a b : Bytes} {p : Ptr} (ha : Denotes D a p) (hb : Denotes D b p) : SameType D D a b := by
  have h0 : LoadedThen D T := ⟨T, [], hD, rfl⟩
  have hv := c26_found h0 ((c26_lookup h0 a p).2 ha)
  have h1 := h0.lookup a
  obtain ⟨wf, hm⟩ := c26_resolved h1
  revert hv wf hm
  generalize (lookupType a T).2 = T'
  intro hv wf hm
  refine ⟨fun p q => p = q ∧ T'.Valid p, ⟨p, p, ha, hb, rfl, hv⟩, ?_⟩
  rintro p q ⟨rfl, d, h2, h3⟩
  refine ⟨d, d, hm _ _ h2, hm _ _ h2, ?_⟩
  cases d with
  | builtin => exact .builtin
  | optional q => exact .optional ⟨rfl, (wf.optional h2).1⟩
  | extension q => exact .extension ⟨rfl, (wf.extension h2).1⟩
  | array q => exact .array ⟨rfl, (wf.array h2).1⟩
  | struct fs => exact .struct (sameFields_refl fun f hf => ⟨rfl, wf.struct h2 f hf⟩)
  | variant fs => exact .variant (sameFields_refl fun f hf => ⟨rfl, wf.variant h2 f hf⟩)
  | _ => cases h3

end Abieos
