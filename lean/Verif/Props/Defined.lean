import Verif.Proofs.DefinedConv
import Verif.Props.CApiExample
import Verif.Props.Encode
import Verif.Proofs.Calendar
/-
C51: behaviour is defined, apart from a few kinds of values.
-/
namespace Abieos
open Spec

/-! ## Static types -/

/-- Reading a static type from any bytes is defined. -/
theorem c51_static_read (t : BTy) (s : Bytes) : fromBin t s ≠ .error .ub := defined_fromBin t s

/-- Writing a value that was read is defined. -/
theorem c51_static_rewrite {t : BTy} (hw : WfType t) {s r : Bytes} {v : BVal} (h : fromBin t s = .ok (v, r)) (bin : Bytes) :
    convertToBin t v bin ≠ .error .ub := by
  rw [convertToBin_eq]
  exact writable_of_read t s v r hw h bin

/-! ## Conversions -/

/-- `json_to_bin` is defined on every document without huge arrays. -/
theorem c51_json_to_bin {T : Table} (wf : T.WF) (hs : Small T) (F : Floats) {ty : Ptr} (hty : T.Valid ty) {v : JVal} (hv : ShortArrays v) {r : Res Bytes}
    (h : JsonToBin T (builtins F) ty v r) : r ≠ .error .ub := by
  have hr := T.rank_le ty
  rw [jsonToBin_iff wf hty v (3 * v.height + 3) (by omega)] at h
  subst h
  exact (defined_encO wf hs (leafDefined_builtins F) _ v ty hty hv (by omega) 0 true).map

/-- So is `json_to_bin_reorderable`. -/
theorem c51_json_to_bin_reorderable {T : Table} (wf : T.WF) (hs : Small T) (F : Floats) {ty : Ptr} (hty : T.Valid ty) {v : JVal} (hv : ShortArrays v)
    {r : Res Bytes} (h : JsonToBinReorderable T (builtins F) ty v r) : r ≠ .error .ub := by
  have hr := T.rank_le ty
  rw [reorderable_iff wf hty v r (3 * (norm v).height + 3) (by omega)] at h
  subst h
  split
  · exact (defined_encR wf hs (leafDefined_builtins F) _ (norm v) ty hty (shortArrays_norm v hv) (by omega) true).map
  · intro h; cases h

/-- `bin_to_json` is undefined only if some part of the input, where there can be a value of a type inside the type asked for, is a
value that cannot be printed or the size of an array with 2^31 elements or more. -/
theorem c51_bin_to_json {T : Table} (wf : T.WF) (hs : Small T) (F : Floats) {ty : Ptr} (hty : T.Valid ty) {bin : Bytes}
    (h : BinToJson T (builtins F) ty bin (.error .ub)) : ∃ ty' pre s, Inside T ty ty' ∧ bin = pre ++ s ∧
      ((T.get ty' = some (.builtin .asset) ∧ SmallestAmount s) ∨ (T.get ty' = some (.builtin .float64) ∧ LongFloat64 s) ∨
        (T.get ty' = some (.builtin .float32) ∧ LongFloat32 s) ∨ ((∃ p, T.get ty' = some (.array p)) ∧ HugeSize s)) := by
  have hr := T.rank_le ty
  rw [binToJson_iff wf hty bin (3 * maxStack + 3) (by omega)] at h
  obtain ⟨ty', pre, s, h1, h2, h3⟩ := dec_ub wf hs (leafPrefix_builtins F) (fun k s h => builtinFromBin_ub h) _ ty 0 hty (by omega) (by omega) true bin h.symm
  refine ⟨ty', pre, s, h1, h2, ?_⟩
  rcases h3 with ⟨k, h3, h4⟩ | h3
  · cases k <;> first | exact h4.elim | exact .inl ⟨h3, h4⟩ | exact .inr (.inl ⟨h3, h4⟩) | exact .inr (.inr (.inl ⟨h3, h4⟩))
  · exact .inr (.inr (.inr h3))

/-! ## The exceptions are there -/

/-- The smallest amount cannot be printed. -/
theorem c51_smallest_amount (F : Floats) {T : Table} (wf : T.WF) {ty : Ptr} (hty : T.get ty = some (.builtin .asset)) {bin : Bytes} (h : SmallestAmount bin) :
    BinToJson T (builtins F) ty bin (.error .ub) := by
  rw [binToJson_iff wf ⟨_, hty, rfl⟩ bin (3 * maxStack + 3) (by omega)]
  obtain ⟨sym, rest, h8, rfl⟩ := h
  have hmin : assetToString (IntTy.wrap ⟨true, 64⟩ (leVal [0, 0, 0, 0, 0, 0, 0, 128])) (leVal sym) = .error .ub := by
    have : IntTy.wrap ⟨true, 64⟩ (leVal [0, 0, 0, 0, 0, 0, 0, 128]) = -2 ^ 63 := by decide
    rw [this]
    unfold assetToString
    rfl
  rw [dec, hty]
  show _ = decAsset _
  unfold decAsset intFromBin
  rw [List.append_assoc, show (IntTy.bits ⟨true, 64⟩) / 8 = 8 from rfl, readBytes_append 8 _ _ rfl]
  simp only [bind_ok]
  rw [readBytes_append 8 _ _ h8]
  simp only [bind_ok]
  rw [hmin]
  rfl

/-- The array position overflows for an array of 2^31 empty structs. -/
theorem c51_huge_array (F : Floats) {T : Table} (wf : T.WF) {ty p : Ptr} (hty : T.get ty = some (.array p)) (hp : T.get p = some (.struct [])) {bin : Bytes}
    (h : HugeSize bin) : BinToJson T (builtins F) ty bin (.error .ub) := by
  rw [binToJson_iff wf ⟨_, hty, rfl⟩ bin 387 (by decide)]
  obtain ⟨n, rest, hn, hb⟩ := h
  have he : dec T (builtins F) 386 1 false p rest = .ok (str "{}", rest) := by
    rw [dec, hp]
    rfl
  rw [dec, hty]
  simp only [hn, bind_ok]
  rw [if_pos (by decide), decElems_overflow he n (-1) (by omega) (by omega)]
  rfl

/-- A double that cannot be printed. -/
theorem c51_long_double (F : Floats) {T : Table} (wf : T.WF) {ty : Ptr} (hty : T.get ty = some (.builtin .float64)) (rest : Bytes) :
    BinToJson T (builtins F) ty ([108, 160, 16, 31, 155, 36, 186, 196] ++ rest) (.error .ub) := by
  rw [binToJson_iff wf ⟨_, hty, rfl⟩ _ 387 (by decide), dec, hty]
  show _ = decFloat 8 id _
  unfold decFloat
  rw [readBytes_append 8 _ _ rfl, bind_ok]
  simp only
  rw [show id (leVal [108, 160, 16, 31, 155, 36, 186, 196]) = 14175683025761771628 by decide, c49_print_overflow]
  rfl

/-! ## Dates -/

theorem yearDays_mono {a b : Int} (h : a ≤ b) : yearDays a ≤ yearDays b := by
  obtain ⟨n, rfl⟩ : ∃ n : Nat, b = a + n := ⟨(b - a).toNat, by omega⟩
  clear h
  induction n with
  | zero => simp
  | succ n ih =>
    have : yearDays (a + n) ≤ yearDays (a + (n + 1 : Nat)) := by unfold yearDays; omega
    omega

/-- The product of the number of days and of the seconds of a day, computed in `int`, does not overflow between 1901-12-14 and
2038-01-19; for other dates it does. -/
theorem c51_date {x : Date} (hx : ValidDate x) : (-2147483648 ≤ toDays x * 86400 ∧ toDays x * 86400 ≤ 2147483647) ↔
    (x.y > 1901 ∨ (x.y = 1901 ∧ x.m = 12 ∧ 14 ≤ x.d)) ∧ (x.y < 2038 ∨ (x.y = 2038 ∧ x.m = 1 ∧ x.d ≤ 19)) := by
  obtain ⟨y, m, d⟩ := x
  obtain ⟨h1, h2, h3, h4⟩ := hx
  rw [toDays_eq]
  simp only at *
  have : (-2147483648 ≤ (yearDays (y - (if m ≤ 2 then 1 else 0)) + monthStart m + d - 719469) * 86400 ∧
    (yearDays (y - (if m ≤ 2 then 1 else 0)) + monthStart m + d - 719469) * 86400 ≤ 2147483647) ↔
    (-24855 ≤ yearDays (y - (if m ≤ 2 then 1 else 0)) + monthStart m + d - 719469 ∧ 
    yearDays (y - (if m ≤ 2 then 1 else 0)) + monthStart m + d - 719469 ≤ 24855) := by omega
  rw [this]
  have hm : m = 1 ∨ m = 2 ∨ m = 3 ∨ m = 4 ∨ m = 5 ∨ m = 6 ∨ m = 7 ∨ m = 8 ∨ m = 9 ∨ m = 10 ∨ m = 11 ∨ m = 12 := by omega
  clear this
  have hY : ∀ z : Int, (z ≤ 1899 → yearDays z ≤ 693595) ∧ (z = 1900 → yearDays z = 693960) ∧ (z = 1901 → yearDays z = 694325) ∧ (1902 ≤ z → 694690 ≤ yearDays z) ∧ (z = 2036 → yearDays z = 743634) ∧ (z = 2037 → yearDays z = 743999) ∧
      (z ≤ 2035 → yearDays z ≤ 743268) ∧ (2038 ≤ z → 744364 ≤ yearDays z) := by
    intro z
    refine ⟨fun h => ?_, ?_, ?_, fun h => ?_, ?_, ?_, fun h => ?_, fun h => ?_⟩
    · have := yearDays_mono h; exact this
    · rintro rfl; rfl
    · rintro rfl; rfl
    · have := yearDays_mono h; exact this
    · rintro rfl; rfl
    · rintro rfl; rfl
    · have := yearDays_mono h; exact this
    · have := yearDays_mono h; exact this
  have hZ := hY (y - (if m ≤ 2 then 1 else 0))
  clear hY
  generalize yearDays (y - (if m ≤ 2 then 1 else 0)) = Y at *
  unfold monthLength monthStart at *
  rcases hm with rfl | rfl | rfl | rfl | rfl | rfl | rfl | rfl | rfl | rfl | rfl | rfl <;> simp at * <;> (try split at h4) <;> omega

/-! ## The C interface -/

/-- No struct of the definition has 2^31 fields or more (with those of its bases). -/
def SmallDef (D : AbiDef) : Prop := ∀ k fs, Meaning D k (.struct fs) → fs.length < 2147483648

theorem small_of {D : AbiDef} {T : Table} (h : LoadedThen D T) (hs : SmallDef D) : Small T :=
  fun k fs hk => hs k fs ((c26_resolved h).2 k _ hk)

theorem failed_ub {c : Ctx} {e : Err} : failed c e = .undefined ↔ e = .ub := by
  unfold failed
  split <;> simp_all

/-- The document, or one that begins with the events reported before the malformed place, has no array of 2^31 elements or more. -/
def ShortText (env : Env) (json : Bytes) : Prop :=
  match env.read json with
  | some v => ShortArrays v
  | none => ∃ v rest, v.toks = env.upTo json ++ rest ∧ ShortArrays v

theorem convertJson_defined {env : Env} {F : Floats} (hF : env.leaves = builtins F) {h : List (Call × Ret)} {c : Ctx} (hc : Calls env (some Ctx.init) h (some c)) {k : Nat}
    (hs : ∀ q D, FirstLoad env h k q D → SmallDef D) {type json : Bytes}
    {conv : Table → Leaves → Ptr → JVal → Res Bytes → Prop} {broken : Table → Leaves → Ptr → List Tok → Option Err → Prop}
    (hconv : ∀ {T : Table}, T.WF → Small T → ∀ {ty : Ptr}, T.Valid ty → ∀ v, env.read json = some v → ∀ {r : Res Bytes}, conv T (builtins F) ty v r → r ≠ .error .ub)
    (hbroken : ∀ {T : Table}, T.WF → Small T → ∀ {ty : Ptr}, T.Valid ty → env.read json = none → ¬ broken T (builtins F) ty (env.upTo json) (some .ub)) :
    ¬ Handled (.bool false) (some c) (ConvertJson env conv broken k type json) .undefined := by
  intro h'
  obtain ⟨x, h1, h2⟩ := handled_iff.1 h'
  cases x with
  | returns => cases h2
  | throws => cases h2
  | undefined =>
    unfold ConvertJson at h1
    simp only [Ctx.lookup_setError] at h1
    rcases (calls_hasDef hc).2.2 k rfl with ⟨q, D, hf, a, h3, h4, -⟩ | ⟨h3, -⟩
    · rw [h3] at h1
      simp only at h1
      have hd := defined_getType 32 type a.types
      have hfound := @c26_found _ _ h4 type
      have hl := h4.lookup type
      unfold lookupType at hl hfound
      generalize hg : lookupType type a.types = g at h1
      unfold lookupType at hg
      rw [hg] at hd hfound hl
      obtain ⟨r, T⟩ := g
      cases r with
      | error e => exact hd (by rw [failed_ub.1 h1.symm])
      | ok p =>
        cases hv : env.read json with
        | some v =>
          simp only [hv] at h1
          obtain ⟨r, h5, h6⟩ := h1
          rw [hF] at h5
          have := hconv (c26_resolved hl).1 (small_of hl (hs q D hf)) (hfound rfl) v hv h5
          cases r with
          | ok b => cases h6
          | error e => exact this (by rw [failed_ub.1 h6.symm])
        | none =>
          simp only [hv] at h1
          obtain ⟨e, h5, h6⟩ := h1
          rw [hF] at h5
          have := hbroken (c26_resolved hl).1 (small_of hl (hs q D hf)) (hfound rfl) hv
          cases e with
          | none => obtain ⟨m, -, h6⟩ := h6; cases h6
          | some e =>
            have := failed_ub.1 (Eq.symm h6)
            subst this
            exact this h5
    · rw [h3] at h1
      cases h1

theorem orderedBroken_defined {T : Table} (wf : T.WF) (hs : Small T) (F : Floats) {ty : Ptr} (hty : T.Valid ty) {v : JVal} (hv : ShortArrays v) {ts rest : List Tok}
    (ht : v.toks = ts ++ rest) : ¬ OrderedBroken T (builtins F) ty ts (some .ub) := by
  rintro ⟨r, h1, h2⟩
  cases r with
  | ok b => cases h2
  | error e =>
    have := foundIn_ub.1 (Eq.symm h2)
    subst this
    rcases (ordered_cut h1).2 _ rfl with h | h
    · cases h
    · have := h rest
      rw [← ht] at this
      exact c51_json_to_bin wf hs F hty hv this rfl

/-- A call to `abieos_json_to_bin` or `abieos_json_to_bin_reorderable`, after any calls, is defined, also if the text is malformed. -/
theorem c51_call_json_to_bin {env : Env} {F : Floats} (hF : env.leaves = builtins F) {h : List (Call × Ret)} {c : Ctx} (hc : Calls env (some Ctx.init) h (some c)) {k : Nat}
    (hs : ∀ q D, FirstLoad env h k q D → SmallDef D) {type json : Option Bytes} (ha : ShortText env (cstr json)) :
    ¬ Step env (some c) (.jsonToBin k type json) .undefined ∧ ¬ Step env (some c) (.jsonToBinReorderable k type json) .undefined := by
  unfold ShortText at ha
  refine ⟨convertJson_defined hF hc hs (fun wf sm _ hty v hv _ => ?_) (fun wf sm _ hty hv => ?_),
    convertJson_defined hF hc hs (fun wf sm _ hty v hv _ => ?_) (fun wf sm _ hty hv h => by cases h)⟩
  · rw [hv] at ha
    exact c51_json_to_bin wf sm F hty ha
  · rw [hv] at ha
    obtain ⟨v, rest, h1, h2⟩ := ha
    exact orderedBroken_defined wf sm F hty h2 h1
  · rw [hv] at ha
    exact c51_json_to_bin_reorderable wf sm F hty ha

/-- What cannot be printed: as in `c51_bin_to_json`. -/
def NotPrinted (T : Table) (ty : Ptr) (bin : Bytes) : Prop :=
  ∃ ty' pre s, Inside T ty ty' ∧ bin = pre ++ s ∧
    ((T.get ty' = some (.builtin .asset) ∧ SmallestAmount s) ∨ (T.get ty' = some (.builtin .float64) ∧ LongFloat64 s) ∨
      (T.get ty' = some (.builtin .float32) ∧ LongFloat32 s) ∨ ((∃ p, T.get ty' = some (.array p)) ∧ HugeSize s))

/-- A call to `abieos_bin_to_json`, after any calls, is undefined only if the bytes contain, for the type given by the definition that
was loaded, a value that cannot be printed. -/
theorem c51_call_bin_to_json {env : Env} {F : Floats} (hF : env.leaves = builtins F) {h : List (Call × Ret)} {c : Ctx} (hc : Calls env (some Ctx.init) h (some c)) {k : Nat}
    (hs : ∀ q D, FirstLoad env h k q D → SmallDef D) {type data : Option Bytes} (hu : Step env (some c) (.binToJson k type data) .undefined) :
    ∃ q D T p, FirstLoad env h k q D ∧ LoadedThen D T ∧ Denotes D (cstr type) p ∧ NotPrinted T p (data.getD []) := by
  obtain ⟨x, h1, h2⟩ := handled_iff.1 hu
  cases x with
  | returns => cases h2
  | throws => cases h2
  | undefined =>
    unfold ConvertBin at h1
    simp only [Ctx.lookup_setError] at h1
    rcases (calls_hasDef hc).2.2 k rfl with ⟨q, D, hf, a, h3, h4, -⟩ | ⟨h3, -⟩
    · rw [h3] at h1
      simp only at h1
      have hd : Defined (lookupType (cstr type) a.types).1 := defined_getType 32 (cstr type) a.types
      have hfound := @c26_found _ _ h4 (cstr type)
      have hden := @c26_lookup _ _ h4 (cstr type)
      have hl := h4.lookup (cstr type)
      generalize lookupType (cstr type) a.types = g at h1 hd hfound hl hden
      obtain ⟨r, T⟩ := g
      cases r with
      | error e => exact absurd (by rw [failed_ub.1 h1.symm]) hd
      | ok p =>
        obtain ⟨r, h5, h6⟩ := h1
        rw [hF] at h5
        cases r with
        | ok b => simp only at h6; split at h6 <;> cases h6
        | error e =>
          have := failed_ub.1 h6.symm
          subst this
          exact ⟨q, D, T, p, hf, hl, (hden p).1 rfl, c51_bin_to_json (c26_resolved hl).1 (small_of hl (hs q D hf)) F (hfound rfl) h5⟩
    · rw [h3] at h1
      cases h1

/-- And `abieos_hex_to_json`. -/
theorem c51_call_hex_to_json {env : Env} {F : Floats} (hF : env.leaves = builtins F) {h : List (Call × Ret)} {c : Ctx} (hc : Calls env (some Ctx.init) h (some c)) {k : Nat}
    (hs : ∀ q D, FirstLoad env h k q D → SmallDef D) {type hex : Option Bytes} (hu : Step env (some c) (.hexToJson k type hex) .undefined) :
    ∃ b q D T p, unhexLoop (cstr hex) = some b ∧ FirstLoad env h k q D ∧ LoadedThen D T ∧ Denotes D (cstr type) p ∧ NotPrinted T p b := by
  rcases convertHex_end hu with ⟨-, h1⟩ | ⟨b, h1, h2⟩
  · cases h1
  · obtain ⟨q, D, T, p, h3⟩ := c51_call_bin_to_json (type := type) (data := some b) hF hc hs h2
    exact ⟨b, q, D, T, p, h1, h3⟩

/-! ## Examples -/

theorem fieldsOf_length {D : AbiDef} {fs : List FieldDef} {l : List Field} (h : FieldsOf D fs l) : l.length = fs.length := by
  induction h with
  | nil => rfl
  | cons _ _ ih => simp [ih]

namespace CApiExample
open Abieos.Example Abieos.LoaderExample

theorem abi_small : SmallDef abiDef := by
  intro k fs h
  cases h with
  | extendedAsset h =>
    cases h
    decide
  | struct h h' =>
    cases h with
    | struct hm =>
      simp only [abiDef, List.mem_singleton] at hm
      subst hm
      cases h' with
      | root _ h => rw [fieldsOf_length h]; decide
      | derived h => exact absurd rfl h
      | fromBuiltin h => exact absurd rfl h

/-- C51 applied to calls: the conversion of `json` is defined. -/
example : ∃ c v, Calls env (some Ctx.init) loads (some c) ∧ env.read (cstr (some json)) = some v ∧ ShortArrays v ∧
    ¬ Step env (some c) (.jsonToBin 5 (some (str "s")) (some json)) .undefined := by
  obtain ⟨c, hc⟩ := loads_calls
  have h1 : env.read (cstr (some json)) = _ := (congrArg env.read (by decide +kernel : cstr (some json) = json)).trans json_reads
  have h2 : ShortArrays (.obj [(str "a", .arr [.str (str "1"), .str (str "2"), .str (str "3")]), (str "b", .str (str "x"))]) := by
    simp [ShortArrays, ShortArrays.go, ShortArrays.goM]
  exact ⟨c, _, hc, h1, h2, (c51_call_json_to_bin rfl hc (fun q D hf => by rw [firstLoad_unique hf first5]; exact abi_small) (by unfold ShortText; rw [h1]; exact h2)).1⟩

end CApiExample

/-- The hypotheses of C51 for tables and documents are met. -/
example : Small Example.table ∧ ShortArrays Example.doc := by
  refine ⟨Example.table_regular.small, ?_⟩
  simp [Example.doc, ShortArrays, ShortArrays.go, ShortArrays.goM]

/-- A static type whose values are read and written back. -/
example (bin : Bytes) : convertToBin exampleType (.list [.raw [104, 105], .some (.raw [1, 0, 255, 255]), .alt 1 (.num 4294967295)]) bin ≠ .error .ub :=
  c51_static_rewrite (s := [2, 104, 105, 1, 2, 1, 0, 255, 255, 1, 1]) (r := []) (by simp [exampleType, WfType, WfTypes])
    (by have := (c21_roundtrip (by simp [exampleType, WfType, WfTypes]) exampleLayout).2 []; simpa using this) bin

/-- The bytes of `Example.bytes` contain nothing that cannot be printed; with another amount they do. -/
example : BinToJson Example.table (builtins noFloats) (str "asset") [0, 0, 0, 0, 0, 0, 0, 128, 0, 83, 0, 0, 0, 0, 0, 0] (.error .ub) :=
  c51_smallest_amount _ Example.table_wf rfl ⟨[0, 83, 0, 0, 0, 0, 0, 0], [], rfl, rfl⟩

end Abieos
