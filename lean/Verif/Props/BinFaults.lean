import Verif.Proofs.BinFaults
import Verif.Props.Faults
/-
C71: what refused binary data is told, read off the definition.
-/
namespace Abieos
open Spec

/-- What the conversion says is what the decoder says. -/
theorem convertBin_says_iff {env : Env} {c : Ctx} {k : Nat} {a : Abi} {D : AbiDef} (ha : c.contracts.lookup k = some a) (h2 : LoadedThen D a.types) {type : Option Bytes} {p : Ptr}
    (hp : (lookupType (cstr type) a.types).1 = .ok p) (data : Option Bytes) (w : Bytes) :
    (∀ o, CallConvertBin env k type data (some c) o → ∃ c' r, o = .done (some c') r ∧ Failure r ∧ c'.lastError = w) ↔
      ∃ m, w = str m ∧ (Fails (dec (lookupType (cstr type) a.types).2 env.leaves (3 * maxStack + 3) 0 true p (data.getD [])) m ∨
        (∃ t rest, rest ≠ [] ∧ dec (lookupType (cstr type) a.types).2 env.leaves (3 * maxStack + 3) 0 true p (data.getD []) = .ok (t, rest)) ∧ m = "Extra data") := by
  have hcall : ∀ o, CallConvertBin env k type data (some c) o ↔ o = (decodeOut ((c.setError (str "binary decode error")).setTypes k (lookupType (cstr type) a.types).2)
      (dec (lookupType (cstr type) a.types).2 env.leaves (3 * maxStack + 3) 0 true p (data.getD []))).handled (.str none) := by
    intro o
    refine handled_iff.trans ?_
    constructor
    · rintro ⟨x, h, rfl⟩; rw [(convertBin_iff ha h2 hp _ _).1 h]
    · rintro rfl; exact ⟨_, (convertBin_iff ha h2 hp _ _).2 rfl, rfl⟩
  simp only [hcall, forall_eq]
  generalize dec (lookupType (cstr type) a.types).2 env.leaves (3 * maxStack + 3) 0 true p (data.getD []) = r
  generalize (c.setError (str "binary decode error")).setTypes k (lookupType (cstr type) a.types).2 = c0
  cases r with
  | error e =>
    by_cases hu : e = .ub
    · subst hu
      constructor
      · rintro ⟨c', r, h, -⟩; cases h
      · rintro ⟨m, -, ⟨e, h1, -, h3⟩ | ⟨⟨t, rest, -, h⟩, -⟩⟩
        · injection h3 with h3; exact absurd h3.symm h1
        · cases h
    · simp only [decodeOut, failed, if_neg hu]
      constructor
      · rintro ⟨c', r, h, -, h2⟩
        injection h with h _
        injection h with h
        subst h
        exact ⟨_, h2.symm, .inl (fails_error.2 ⟨hu, rfl⟩)⟩
      · rintro ⟨m, rfl, h | ⟨⟨t, rest, -, h⟩, -⟩⟩
        · rw [fails_error] at h
          rw [← h.2]
          exact ⟨_, _, rfl, failure_none, rfl⟩
        · cases h
  | ok x =>
    obtain ⟨t, rest⟩ := x
    by_cases hr : rest = []
    · simp only [decodeOut, if_pos hr]
      constructor
      · rintro ⟨c', r, h, h1, -⟩
        injection h with _ h
        subst h
        cases h1
      · rintro ⟨m, -, h | ⟨⟨t', rest', h1, h⟩, -⟩⟩
        · exact absurd h fails_ok
        · cases h; exact absurd hr h1
    · simp only [decodeOut, if_neg hr]
      constructor
      · rintro ⟨c', r, h, -, h2⟩
        injection h with h _
        injection h with h
        subst h
        exact ⟨_, h2.symm, .inr ⟨⟨t, rest, hr, rfl⟩, rfl⟩⟩
      · rintro ⟨m, rfl, h | ⟨-, rfl⟩⟩
        · exact absurd h fails_ok
        · exact ⟨_, _, rfl, failure_none, rfl⟩

/-- The call with hexadecimal digits says the same as the call with the bytes. -/
theorem hex_says_iff {env : Env} {c : Ctx} {k : Nat} {t s : Option Bytes} {b w : Bytes} (hb : unhexLoop (cstr s) = some b) :
    (∀ o, Step env (some c) (.hexToJson k t s) o → ∃ c' r, o = .done (some c') r ∧ Failure r ∧ c'.lastError = w) ↔
      ∀ o, CallConvertBin env k t (some b) (some c) o → ∃ c' r, o = .done (some c') r ∧ Failure r ∧ c'.lastError = w := by
  constructor
  · intro h o ho
    obtain ⟨c', r, h1, h2, h3⟩ := h ((nested o).handled (.str none)) (handled_iff.2 ⟨_, by unfold ConvertHex; simp only [hb]; exact ⟨o, ho, rfl⟩, rfl⟩)
    refine ⟨c', r, ?_, h2, h3⟩
    cases o with
    | done c0 r0 =>
      cases c0 with
      | none => cases h1
      | some c0 => exact h1
    | _ => cases h1
  · exact hex_says hb

section
variable {F : Floats} {D : AbiDef} {h : List (Call × Ret)} {c : Ctx} {k : Nat} {q : Call}

theorem decode_says_iff (hc : Calls (libEnv F) (some Ctx.init) h (some c)) (hf : FirstLoad (libEnv F) h k q D) (hsm : SmallDef D) (hx : ExtLastDef D)
    {type data : Option Bytes} {p : Ptr} (hp : Denotes D (cstr type) p) (hl : (data.getD []).length < 2 ^ 32) (w : Bytes) :
    (∀ o, CallConvertBin (libEnv F) k type data (some c) o → ∃ c' r, o = .done (some c') r ∧ Failure r ∧ c'.lastError = w) ↔
      ∃ m, w = str m ∧ DecodeFault D libShown BytesFault p (data.getD []) m := by
  obtain ⟨a, ha, h2, -⟩ := firstLoad_has hc hf
  have hlk := (c26_lookup h2 (cstr type) p).2 hp
  have hval := c26_found h2 hlk
  have h2' := h2.lookup (cstr type)
  have hwf := (c26_resolved h2').1
  rw [convertBin_says_iff ha h2 hlk]
  refine exists_congr fun m => and_congr_right fun _ => ?_
  unfold DecodeFault
  have hlib : (libEnv F).leaves = builtins F := rfl
  rw [hlib]
  have hsame : ∀ n, 3 * maxStack + 3 ≤ n → dec (lookupType (cstr type) a.types).2 (builtins F) n 0 true p (data.getD []) =
      dec (lookupType (cstr type) a.types).2 (builtins F) (3 * maxStack + 3) 0 true p (data.getD []) := by
    intro n hn
    exact (binToJson_iff hwf hval _ _ (by omega) _).1 ((binToJson_iff hwf hval _ n (by omega) _).2 rfl)
  refine or_congr ?_ (and_congr_left fun _ => ?_)
  · constructor
    · rintro ⟨e, h1, rfl, h3⟩
      exact dec_fault h2' hx (fun k bin t rest => (c61_scalar k bin t rest).1) (fun k b m hb hm => (bytes_fails hb).1 hm) _ _ _ _ _ e hval hl h3 h1
    · intro hfl
      obtain ⟨N, e, h1, h4, h3⟩ := fault_dec (L := builtins F) h2' hsm (fun k b t hk rest => (c61_scalar k _ t rest).2 ⟨b, rfl, hk⟩)
        (fun k b m hb hm => (bytes_fails hb).2 hm) hfl hval hl
      exact ⟨e, h1, h4, by rw [← hsame (N + (3 * maxStack + 3)) (by omega)]; exact h3 _ (by omega)⟩
  · rw [← extra_iff (L := builtins F) h2' hsm hx c61_scalar hval]
    constructor
    · rintro ⟨t, rest, h1, h3⟩
      exact ⟨3 * maxStack + 3, t, rest, h1, fun n hn => by rw [hsame n hn]; exact h3⟩
    · rintro ⟨N, t, rest, h1, h3⟩
      exact ⟨t, rest, h1, by rw [← hsame (N + (3 * maxStack + 3)) (by omega)]; exact h3 _ (by omega)⟩

/-- **C71.** What refused bytes are told: exactly the faults that can be found in them. -/
theorem c71_binary (hc : Calls (libEnv F) (some Ctx.init) h (some c)) (hf : FirstLoad (libEnv F) h k q D) (hsm : SmallDef D) (hx : ExtLastDef D)
    {type data : Option Bytes} {p : Ptr} (hp : Denotes D (cstr type) p) (hl : (data.getD []).length < 2 ^ 32) (w : Bytes) :
    Says (libEnv F) c (.binToJson k type data) w ↔ ∃ m, w = str m ∧ DecodeFault D libShown BytesFault p (data.getD []) m := by
  rw [says_iff]
  exact decode_says_iff hc hf hsm hx hp hl w

/-- **C71.** The same for bytes given by hexadecimal digits. -/
theorem c71_hex (hc : Calls (libEnv F) (some Ctx.init) h (some c)) (hf : FirstLoad (libEnv F) h k q D) (hsm : SmallDef D) (hx : ExtLastDef D)
    {type hex : Option Bytes} {p : Ptr} (hp : Denotes D (cstr type) p) {bin : Bytes} (hb : HexText (cstr hex) bin) (hl : bin.length < 2 ^ 32) (w : Bytes) :
    Says (libEnv F) c (.hexToJson k type hex) w ↔ ∃ m, w = str m ∧ DecodeFault D libShown BytesFault p bin m := by
  rw [says_iff, hex_says_iff ((hexText_iff _ _).1 hb)]
  exact decode_says_iff hc hf hsm hx hp (data := some bin) hl w

end

/-! ## Examples -/

namespace FaultsExample
open CApiExample WireExample

theorem meaning_b : Meaning abiDef (str "string") (.builtin .string) := meaning (by decide +kernel)

theorem size_of {n : Nat} (h : n < 128) : SizeRead n [UInt8.ofNat n] := by
  have e : (UInt8.ofNat n).toNat = n := by simp; omega
  have := LebAny.last (c := UInt8.ofNat n) (by omega)
  rw [e] at this
  exact ⟨n, this, by simp, by omega⟩

/-- One element is missing; a text is cut; a number of elements that is too long. -/
example : ∃ c, Calls (libEnv noFloats) (some Ctx.init) loads (some c) ∧
    Says (libEnv noFloats) c (.binToJson 5 (some (str "s")) (some [2, 7])) (str "Stream overrun") ∧
    Says (libEnv noFloats) c (.hexToJson 5 (some (str "s")) (some (str "FFffFFffFF07"))) (str "Invalid varuint encoding") := by
  obtain ⟨c, hc⟩ := loads_calls
  have hs : Denotes abiDef (cstr (some (str "s"))) (str "s") := by rw [cut_s]; exact denotes
  refine ⟨c, hc, (c71_binary hc first5 regular.small regular.extLast hs (by decide) _).2 ⟨_, rfl, .inl ?_⟩,
    (c71_hex hc first5 regular.small regular.extLast hs (bin := [255, 255, 255, 255, 255, 7]) ((hexText_iff _ _).2 (by decide +kernel)) (by decide) _).2 ⟨_, rfl, .inl ?_⟩⟩
  · refine .fields meaning_s (by decide) (.here (by simp) (.elems (n := 2) (c := [2]) (b := [7]) meaning_a (size_of (n := 2) (by decide)) (by decide) ?_))
    have h7 : FitsBytes abiDef libShown 2 (str "uint8") [7] := by
      obtain ⟨b, h1, h2⟩ := (c61_scalar .uint8 [7] (str "7") []).1 (by decide +kernel)
      rw [List.append_nil] at h1
      subst h1
      exact ⟨_, 0, .inr rfl, .scalar meaning_u h2⟩
    exact .later (n := 1) (a := [7]) (b := []) h7 (.here (.scalar meaning_u (.short (by decide))))
  · refine .fields meaning_s (by decide) (.here (by simp) (.noSize meaning_a ?_))
    exact .long (a := [255, 255, 255, 255, 255]) (b := [7]) (by decide) rfl

end FaultsExample

end Abieos
