import Verif.Proofs.ShownKey
import Verif.Props.Wire
/-
C61: the exact text of `bin_to_json`, for all bytes, read off the ABI definition.
-/
namespace Abieos
open Spec

section
variable {D : AbiDef} {T : Table} {L : Leaves} {S : Builtin → Bytes → Bytes → Prop}

theorem getElem?_split {l : List Field} {i : Nat} {f : Field} (h : l[i]? = some f) : ∃ before after, l = before ++ f :: after ∧ before.length = i := by
  obtain ⟨hi, rfl⟩ := List.getElem?_eq_some_iff.1 h
  refine ⟨l.take i, l.drop (i + 1), ?_, by simp; omega⟩
  rw [List.getElem_cons_drop hi, List.take_append_drop]

mutual
theorem shown_dec (h : LoadedThen D T) (hS : ∀ k b t, S k b t → ∀ rest, L.fromBin k (b ++ rest) = .ok (t, rest)) : ∀ {last : Bool} {p : Ptr} {b t : Bytes} {d : Nat},
    Shown D S last p b t d → T.Valid p → ∀ rest, (last = true → rest = []) → ∃ n, Dec T L n last p (b ++ rest) t rest d
  | _, _, _, _, _, .scalar hm hs, hp, rest, _ => by
    refine ⟨1, ?_⟩
    rw [Dec, get_of_meaning h hp hm]
    exact ⟨hS _ _ _ hs rest, rfl⟩
  | _, _, _, _, _, .none hm, hp, rest, _ => by
    refine ⟨1, ?_⟩
    rw [Dec, get_of_meaning h hp hm]
    exact .inl ⟨rfl, rfl, rfl⟩
  | _, _, _, _, _, .some hm hc hw, hp, rest, hr => by
    have hg := get_of_meaning h hp hm
    obtain ⟨n, hn⟩ := shown_dec h hS hw ((c26_resolved h).1.optional hg).1 rest hr
    refine ⟨n + 1, ?_⟩
    rw [Dec, hg]
    exact .inr ⟨_, _, rfl, hc, hn⟩
  | _, _, _, _, _, .extension hm hw, hp, rest, hr => by
    have hg := get_of_meaning h hp hm
    obtain ⟨n, hn⟩ := shown_dec h hS hw ((c26_resolved h).1.extension hg).1 rest hr
    refine ⟨n + 1, ?_⟩
    rw [Dec, hg]
    exact hn
  | _, _, _, _, _, .struct hm hw, hp, rest, hr => by
    have hg := get_of_meaning h hp hm
    obtain ⟨n, hn⟩ := shownFields_dec h hS hw ((c26_resolved h).1.struct hg) rest hr
    refine ⟨n + 1, ?_⟩
    rw [Dec, hg]
    exact ⟨_, _, hn, rfl, rfl⟩
  | _, _, _, _, _, .array (c := c) (b := b) hm hc hl hw, hp, rest, hr => by
    have hg := get_of_meaning h hp hm
    obtain ⟨n, hn⟩ := shownElems_dec h hS hw ((c26_resolved h).1.array hg).1 rest
    refine ⟨n + 1, ?_⟩
    rw [Dec, hg]
    exact ⟨_, _, _, _, varuint32_iff.2 ⟨c, List.append_assoc c b rest, hc⟩, hl, hn, rfl, rfl⟩
  | _, _, _, _, _, .variant (f := f) (c := c) (b := b) hm hc hw hn, hp, rest, hr => by
    have hg := get_of_meaning h hp hm
    obtain ⟨n, hn'⟩ := shown_dec h hS hw ((c26_resolved h).1.variant hg f (by simp)) rest hr
    refine ⟨n + 1, ?_⟩
    rw [Dec, hg, jsonStr_iff.1 hn]
    exact ⟨_, _, f, _, _, varuint32_iff.2 ⟨c, List.append_assoc c b rest, hc⟩, by simp, hn', rfl, rfl⟩
theorem shownFields_dec (h : LoadedThen D T) (hS : ∀ k b t, S k b t → ∀ rest, L.fromBin k (b ++ rest) = .ok (t, rest)) :
    ∀ {last : Bool} {fs : List Field} {b : Bytes} {ms : List Bytes} {d : Nat}, ShownFields D S last fs b ms d → (∀ f ∈ fs, T.Valid f.type) →
      ∀ rest, (last = true → rest = []) → ∃ n, DecFields T (Dec T L n) last fs (b ++ rest) ms rest d
  | _, _, _, _, _, .nil, _, rest, _ => ⟨0, rfl, rfl, rfl⟩
  | _, _, _, _, _, .missing hx, hp, rest, hr => by
    have hr := hr rfl
    rw [hr]
    exact ⟨0, .inl ⟨rfl, rfl, fun g hg => (isExt_iff_meaning h (hp g hg)).2 (hx g hg), rfl, rfl, rfl⟩⟩
  | last, _, _, _, _, .present (f := f) (fs := fs) (b1 := b1) (b2 := b2) hx hw hf hn, hp, rest, hr => by
    have hr' : (last && fs.isEmpty) = true → b2 ++ rest = [] := by
      intro hl
      rw [Bool.and_eq_true] at hl
      rw [hr hl.1, List.append_nil]
      rw [List.isEmpty_iff.1 hl.2] at hf
      generalize he : ([] : List Field) = e at hf
      cases hf with
      | nil => rfl
      | missing => rfl
      | present => cases he
    obtain ⟨n, hn1⟩ := shown_dec h hS hw (hp f (by simp)) (b2 ++ rest) hr'
    obtain ⟨m, hm⟩ := shownFields_dec h hS hf (fun g hg => hp g (by simp [hg])) rest hr
    rw [← List.append_assoc] at hn1
    refine ⟨max n m, .inr ⟨?_, _, _, _, _, _, decR_mono (Nat.le_max_left ..) hn1, decFields_mono (fun a p b t r d => decR_mono (Nat.le_max_right ..)) _ _ _ _ _ hm,
      by rw [jsonStr_iff.1 hn], rfl⟩⟩
    rintro ⟨h1, h2, h3⟩
    exact hx ⟨h1, (List.append_eq_nil_iff.1 h2).1, (isExt_iff_meaning h (hp f (by simp))).1 h3⟩
theorem shownElems_dec (h : LoadedThen D T) (hS : ∀ k b t, S k b t → ∀ rest, L.fromBin k (b ++ rest) = .ok (t, rest)) :
    ∀ {q : Ptr} {b : Bytes} {ts : List Bytes} {d : Nat}, ShownElems D S q b ts d → T.Valid q → ∀ rest, ∃ n, DecElems (Dec T L n false q) ts.length (b ++ rest) ts rest d
  | _, _, _, _, .nil, _, rest => ⟨0, rfl, rfl, rfl⟩
  | _, _, _, _, .cons (b1 := b1) (b2 := b2) hw he, hp, rest => by
    obtain ⟨n, hn⟩ := shown_dec h hS hw hp (b2 ++ rest) (by simp)
    obtain ⟨m, hm⟩ := shownElems_dec h hS he hp rest
    rw [← List.append_assoc] at hn
    exact ⟨max n m, _, _, _, _, _, decR_mono (Nat.le_max_left ..) hn, decElems_mono (fun b t r d => decR_mono (Nat.le_max_right ..)) _ _ _ _ _ hm, rfl, rfl⟩
end

theorem dec_shown (h : LoadedThen D T) (hS : ∀ k bin t rest, L.fromBin k bin = .ok (t, rest) → ∃ b, bin = b ++ rest ∧ S k b t) :
    ∀ (n : Nat) {last : Bool} {p : Ptr} {bin t rest : Bytes} {d : Nat}, Dec T L n last p bin t rest d → (last = true → rest = []) →
      ∃ b, bin = b ++ rest ∧ Shown D S last p b t d := by
  have hw := (c26_resolved h).1
  intro n
  induction n with
  | zero => intro last p bin t rest d he; exact he.elim
  | succ n ih =>
    intro last p bin t rest d he hr
    rw [Dec] at he
    cases hg : T.get p with
    | none => rw [hg] at he; exact he.elim
    | some x =>
      rw [hg] at he
      have hm := (c26_resolved h).2 _ _ hg
      cases x with
      | builtin k =>
        obtain ⟨h1, rfl⟩ := he
        obtain ⟨b, h2, h3⟩ := hS _ _ _ _ h1
        exact ⟨b, h2, .scalar hm h3⟩
      | «alias» q => exact he.elim
      | aliasDef t => exact he.elim
      | structDef s => exact he.elim
      | variantDef s => exact he.elim
      | optional q =>
        rcases he with ⟨rfl, rfl, rfl⟩ | ⟨c, bin', rfl, hc, he⟩
        · exact ⟨[0], rfl, .none hm⟩
        · obtain ⟨b, rfl, h1⟩ := ih he hr
          exact ⟨c :: b, rfl, .some hm hc h1⟩
      | extension q =>
        obtain ⟨b, rfl, h1⟩ := ih he hr
        exact ⟨b, rfl, .extension hm h1⟩
      | struct fs =>
        obtain ⟨ms, d', he, rfl, rfl⟩ := he
        have hv := hw.struct hg
        suffices ∃ b, bin = b ++ rest ∧ ShownFields D S last fs b ms d' by
          obtain ⟨b, h1, h2⟩ := this
          exact ⟨b, h1, .struct hm h2⟩
        clear hg hm
        induction fs generalizing bin ms d' with
        | nil =>
          obtain ⟨rfl, rfl, rfl⟩ := he
          exact ⟨[], rfl, .nil⟩
        | cons f fs ihf =>
          rcases he with ⟨rfl, rfl, hx, rfl, rfl, rfl⟩ | ⟨hx, t, mid, d1, ms', d2, h1, h2, rfl, rfl⟩
          · exact ⟨[], rfl, .missing fun g hg => (isExt_iff_meaning h (hv g hg)).1 (hx g hg)⟩
          · have hr' : (last && fs.isEmpty) = true → mid = [] := by
              intro hl
              rw [Bool.and_eq_true] at hl
              rw [List.isEmpty_iff.1 hl.2] at h2
              rw [← h2.2.1]
              exact hr hl.1
            obtain ⟨b2, h4, h5⟩ := ihf _ _ h2 (fun g hg => hv g (by simp [hg]))
            obtain ⟨b1, h6, h7⟩ := ih h1 hr'
            refine ⟨b1 ++ b2, by rw [h6, h4]; simp, .present ?_ h7 h5 (jsonStr_iff.2 rfl)⟩
            rintro ⟨g1, g2, g3⟩
            refine hx ⟨g1, ?_, (isExt_iff_meaning h (hv f (by simp))).2 g3⟩
            rw [h6, h4, ← List.append_assoc, g2, hr g1]
            rfl
      | array q =>
        obtain ⟨c, mid, ts, d', h1, h2, he, rfl, rfl⟩ := he
        obtain ⟨hd, rfl, h3⟩ := varuint32_iff.1 h1
        suffices ts.length = c ∧ ∃ b, mid = b ++ rest ∧ ShownElems D S q b ts d' by
          obtain ⟨rfl, b, rfl, h5⟩ := this
          exact ⟨hd ++ b, by simp, .array hm h3 h2 h5⟩
        clear hg hm h1 h2 h3
        induction c generalizing mid ts d' with
        | zero =>
          obtain ⟨rfl, rfl, rfl⟩ := he
          exact ⟨rfl, [], rfl, .nil⟩
        | succ c ihc =>
          obtain ⟨t, m2, d1, ts', d2, g1, g2, rfl, rfl⟩ := he
          obtain ⟨b1, rfl, g3⟩ := ih g1 (by simp)
          obtain ⟨g4, b2, rfl, g5⟩ := ihc _ _ _ g2
          exact ⟨by simp [g4], b1 ++ b2, by simp, .cons g3 g5⟩
      | variant alts =>
        obtain ⟨i, mid, f, t', d', h1, h2, he, rfl, rfl⟩ := he
        obtain ⟨hd, rfl, h3⟩ := varuint32_iff.1 h1
        obtain ⟨before, after, rfl, rfl⟩ := getElem?_split h2
        obtain ⟨b, rfl, h5⟩ := ih he hr
        exact ⟨hd ++ b, by simp, .variant hm h3 h5 (jsonStr_iff.2 rfl)⟩

/-- Values that end the input. -/
theorem shown_iff (h : LoadedThen D T) (hS : ∀ k bin t rest, L.fromBin k bin = .ok (t, rest) ↔ ∃ b, bin = b ++ rest ∧ S k b t) {p : Ptr} (hp : T.Valid p) (b t : Bytes)
    (d : Nat) : Decodes T L p b t [] d ↔ Shown D S true p b t d := by
  constructor
  · rintro ⟨n, hn⟩
    obtain ⟨b', h1, h2⟩ := dec_shown h (fun k bin t rest => (hS k bin t rest).1) n hn fun _ => rfl
    rw [List.append_nil] at h1
    rwa [h1]
  · intro hs
    have := shown_dec h (fun k b t hk rest => (hS k _ t rest).2 ⟨b, rfl, hk⟩) hs hp [] fun _ => rfl
    rwa [List.append_nil] at this

end

/-- How the library shows the builtin types. The digits of doubles are those that `fp_to_json` chooses: C48 says which are possible. -/
def libShown : Builtin → Bytes → Bytes → Prop := ShownScalar fun bits s => fpToJson bits = .ok s

/-- **C61, builtin types.** What is taken from the input and what is shown, for each builtin type and all bytes. -/
theorem c61_scalar (k : Builtin) (bin t rest : Bytes) : builtinFromBin k bin = .ok (t, rest) ↔ ∃ b, bin = b ++ rest ∧ libShown k b t := scalar_shown

variable {F : Floats} {D : AbiDef}

theorem decodesAll_shown (hD : ∃ T, LoadTypes D (.ok T)) (hsm : SmallDef D) (hx : ExtLastDef D) (type bin t : Bytes) :
    DecodesAll (libEnv F) D type bin t ↔ ∃ p d, Denotes D type p ∧ d ≤ 128 ∧ Shown D libShown true p bin t d := by
  constructor
  · rintro ⟨T, p, h1, h2, h3⟩
    have h0 : LoadedThen D T := ⟨T, [], h1, rfl⟩
    have h0' := h0.lookup type
    have hv := c26_found h0 h2
    obtain ⟨d, h4, h5⟩ := (c33_bin_to_json_exact (c26_resolved h0').1 (extTail_of_def h0' hx) (small_of_def h0' hsm) hv bin t []).1 h3
    exact ⟨p, d, (c26_lookup h0 type p).1 h2, h4, (shown_iff h0' (L := (libEnv F).leaves) c61_scalar hv bin t d).1 h5⟩
  · rintro ⟨p, d, h2, h4, h5⟩
    obtain ⟨T, h1⟩ := hD
    have h0 : LoadedThen D T := ⟨T, [], h1, rfl⟩
    have h0' := h0.lookup type
    have h2 := (c26_lookup h0 type p).2 h2
    have hv := c26_found h0 h2
    exact ⟨T, p, h1, h2, (c33_bin_to_json_exact (c26_resolved h0').1 (extTail_of_def h0' hx) (small_of_def h0' hsm) hv bin t []).2
      ⟨d, h4, (shown_iff h0' (L := (libEnv F).leaves) c61_scalar hv bin t d).2 h5⟩⟩

/-- The texts have no NUL characters. -/
theorem decodesAll_cut (hx : ExtLastDef D) {type bin t : Bytes} (h : DecodesAll (libEnv F) D type bin t) : cut t = t := by
  obtain ⟨T, p, h1, h2, h3⟩ := h
  have h0 : LoadedThen D T := ⟨T, [], h1, rfl⟩
  have h0' := h0.lookup type
  obtain ⟨v, hv⟩ := c53_written _ F (c26_resolved h0').1 (extTail_of_def h0' hx) (c26_found h0 h2) h3
  exact cut_isJson hv

section
variable {h : List (Call × Ret)} {c : Ctx} (hc : Calls (libEnv F) (some Ctx.init) h (some c)) {k : Nat} {q : Call} (hf : FirstLoad (libEnv F) h k q D)
include hc hf

/-- **C61.** After any history of calls, for all bytes: the call returns the text `t` if and only if all of the bytes are a value of the type, by the definition
that was loaded first for the contract, shown as `t`, and not nested too deeply. -/
theorem c61_bin_to_json (hsm : SmallDef D) (hx : ExtLastDef D) {type data : Option Bytes} {c' : Option Ctx} {r : Ret}
    (hs : Step (libEnv F) (some c) (.binToJson k type data) (.done c' r)) (t : Bytes) :
    r = .str (some t) ↔ ∃ p d, Denotes D (cstr type) p ∧ d ≤ 128 ∧ Shown D libShown true p (data.getD []) t d := by
  rw [c39_bin_to_json hc hf hs (some t), ← decodesAll_shown (F := F) hf.1.1.2 hsm hx]
  constructor
  · rintro (⟨h1, -⟩ | ⟨t', h1, h2⟩)
    · cases h1
    · rw [decodesAll_cut hx h2] at h1
      cases h1
      exact h2
  · intro h1
    exact .inr ⟨t, by rw [decodesAll_cut hx h1], h1⟩

/-- **C61.** The call fails if and only if there is no such text. -/
theorem c61_bin_to_json_fails (hsm : SmallDef D) (hx : ExtLastDef D) {type data : Option Bytes} {c' : Option Ctx} {r : Ret}
    (hs : Step (libEnv F) (some c) (.binToJson k type data) (.done c' r)) :
    r = .str none ↔ ¬ ∃ t p d, Denotes D (cstr type) p ∧ d ≤ 128 ∧ Shown D libShown true p (data.getD []) t d := by
  rw [c39_bin_to_json hc hf hs none]
  simp only [← decodesAll_shown (F := F) hf.1.1.2 hsm hx]
  constructor
  · rintro (⟨-, h1⟩ | ⟨t', h1, -⟩)
    · exact h1
    · cases h1
  · exact fun h1 => .inl ⟨trivial, h1⟩

/-- **C61, hexadecimal input.** The same for bytes given as hexadecimal digits; other texts fail. -/
theorem c61_hex_to_json (hsm : SmallDef D) (hx : ExtLastDef D) {type hex : Option Bytes} {c' : Option Ctx} {r : Ret}
    (hs : Step (libEnv F) (some c) (.hexToJson k type hex) (.done c' r)) (t : Bytes) :
    r = .str (some t) ↔ ∃ b p d, HexText (cstr hex) b ∧ Denotes D (cstr type) p ∧ d ≤ 128 ∧ Shown D libShown true p b t d := by
  rcases c39_hex_to_json hs with ⟨b, h1, h2⟩ | ⟨h1, rfl⟩
  · rw [c61_bin_to_json hc hf hsm hx h2 t]
    constructor
    · rintro ⟨p, d, h3⟩; exact ⟨b, p, d, (hexText_iff _ _).2 h1, h3⟩
    · rintro ⟨b', p, d, h3, h4⟩
      rw [hexText_iff, h1] at h3
      cases h3
      exact ⟨p, d, h4⟩
  · constructor
    · intro h3; cases h3
    · rintro ⟨b', p, d, h3, -⟩
      rw [hexText_iff, h1] at h3
      cases h3

end

/-! ## An example -/

namespace ShownExample
open CApiExample WireExample Example

/-- The hypotheses of the C61 theorems are met by a history in which a definition is loaded for contract 5; there the bytes 83 80 00 01 02 03 01 22, in which the number
of elements is not as short as it could be, are shown as `{"a":[1,2,3],"b":"\""}`. -/
theorem example_shown : ∃ c, Calls (libEnv noFloats) (some Ctx.init) loads (some c) ∧ FirstLoad (libEnv noFloats) loads 5 (.setAbi 5 (some abiText)) abiDef ∧
    SmallDef abiDef ∧ ExtLastDef abiDef ∧ ∃ d, Denotes abiDef (cstr (some (str "s"))) (str "s") ∧ d ≤ 128 ∧
      Shown abiDef libShown true (str "s") [0x83, 0x80, 0, 1, 2, 3, 1, 34] (str "{\"a\":[1,2,3],\"b\":\"\\\"\"}") d := by
  obtain ⟨c, hc⟩ := loads_calls
  obtain ⟨p, d, h1, h2, h3⟩ := (decodesAll_shown (F := noFloats) ⟨_, abi_loads⟩ regular.small regular.extLast (str "s") [0x83, 0x80, 0, 1, 2, 3, 1, 34]
      (str "{\"a\":[1,2,3],\"b\":\"\\\"\"}")).1 <| by
    have hp : (lookupType (str "s") T1).1 = .ok (str "s") := by decide +kernel
    have h0 : LoadedThen abiDef T1 := ⟨T1, [], abi_loads, rfl⟩
    refine ⟨T1, str "s", abi_loads, hp, ?_⟩
    have hT : (lookupType (str "s") T1).2 = T1 := by decide +kernel
    rw [hT]
    rw [binToJson_iff (loaded_of h0).wf (hT ▸ c26_found h0 hp) _ (3 * maxStack + 3) (by decide)]
    decide +kernel
  cases (c25_meaning_unique (c25_names abi_loads)).1 _ _ _ h1 denotes
  rw [cut_s]
  exact ⟨c, hc, first5, regular.small, regular.extLast, d, h1, h2, h3⟩

end ShownExample

end Abieos
