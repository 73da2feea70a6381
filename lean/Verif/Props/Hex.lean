import Verif.Model.Hex
import Verif.Proofs.Bytes
/-! # C03: hexadecimal text -/
namespace Abieos

/-! ## Specification -/

/-- A hexadecimal digit of either case. -/
def Spec.IsHexDigit (c : UInt8) : Prop := ('0'.toNat ≤ c.toNat ∧ c.toNat ≤ '9'.toNat) ∨
  ('a'.toNat ≤ c.toNat ∧ c.toNat ≤ 'f'.toNat) ∨ ('A'.toNat ≤ c.toNat ∧ c.toNat ≤ 'F'.toNat)

instance (c : UInt8) : Decidable (Spec.IsHexDigit c) := by unfold Spec.IsHexDigit; infer_instance

/-- ASCII upper-casing. -/
def Spec.upper (c : UInt8) : UInt8 := if 97 ≤ c.toNat ∧ c.toNat ≤ 122 then c - 32 else c

/-- Value of a hex digit as a number, by position in the digit alphabet. -/
def Spec.hexAlphabet : List UInt8 := str "0123456789ABCDEF"

/-! ## Helper lemmas -/

theorem unhexDigit_hexDigit (n : Fin 16) : unhexDigit (hexDigit n.val) = some n.val := by
  revert n; decide +kernel

theorem hexDigit_unhexDigit (c : UInt8) : ∀ n, unhexDigit c = some n → n < 16 ∧ hexDigit n = Spec.upper c ∧ Spec.IsHexDigit c := by
  revert c
  apply forall_uint8
  have : ∀ n : Fin 256, ∀ m, unhexDigit (UInt8.ofNat n.val) = some m →
    m < 16 ∧ hexDigit m = Spec.upper (UInt8.ofNat n.val) ∧ Spec.IsHexDigit (UInt8.ofNat n.val) := by
    intro n m
    have : ∀ n : Fin 256, ((unhexDigit (UInt8.ofNat n.val)).all fun m =>
      decide (m < 16) && decide (hexDigit m = Spec.upper (UInt8.ofNat n.val)) && decide (Spec.IsHexDigit (UInt8.ofNat n.val))) = true := by
      decide +kernel
    intro h
    have h' := this n
    rw [h] at h'
    simpa [Bool.and_eq_true, and_assoc] using h'
  exact this

theorem unhexDigit_isSome (c : UInt8) : Spec.IsHexDigit c → (unhexDigit c).isSome := by
  revert c
  apply forall_uint8
  decide +kernel

theorem nibbles (b : UInt8) : b.toNat >>> 4 < 16 ∧ b.toNat &&& 0xf < 16 ∧
    UInt8.ofNat (((b.toNat >>> 4) <<< 4) ||| (b.toNat &&& 0xf)) = b := by
  revert b
  apply forall_uint8
  decide +kernel

theorem nibbles_inv : ∀ h l : Fin 16, (UInt8.ofNat ((h.val <<< 4) ||| l.val)).toNat >>> 4 = h.val ∧
    (UInt8.ofNat ((h.val <<< 4) ||| l.val)).toNat &&& 0xf = l.val := by decide +kernel

theorem unhexLoop_hexEncode : ∀ b : Bytes, unhexLoop (hexEncode b) = some b
  | [] => rfl
  | b :: s => by
    obtain ⟨h1, h2, h3⟩ := nibbles b
    rw [hexEncode, unhexLoop, unhexDigit_hexDigit ⟨_, h1⟩, unhexDigit_hexDigit ⟨_, h2⟩, unhexLoop_hexEncode s]
    show some (UInt8.ofNat _ :: s) = _
    rw [h3]

theorem unhexLoop_some : ∀ t b, unhexLoop t = some b →
    t.length % 2 = 0 ∧ (∀ c ∈ t, Spec.IsHexDigit c) ∧ hexEncode b = t.map Spec.upper ∧ b.length * 2 = t.length
  | [], b, h => by simp [unhexLoop] at h; subst h; simp [hexEncode]
  | [_], b, h => by simp [unhexLoop] at h
  | c :: d :: s, b, h => by
    simp only [unhexLoop, Option.bind_eq_bind, Option.bind_eq_some_iff, Option.pure_def, Option.some.injEq] at h
    obtain ⟨x, hx, y, hy, r, hr, rfl⟩ := h
    obtain ⟨hx1, hx2, hx3⟩ := hexDigit_unhexDigit c x hx
    obtain ⟨hy1, hy2, hy3⟩ := hexDigit_unhexDigit d y hy
    obtain ⟨i1, i2, i3, i4⟩ := unhexLoop_some s r hr
    obtain ⟨n1, n2⟩ := nibbles_inv ⟨x, hx1⟩ ⟨y, hy1⟩
    refine ⟨by simp; omega, ?_, ?_, by simp; omega⟩
    · intro e he
      simp only [List.mem_cons] at he
      rcases he with rfl | rfl | he
      · exact hx3
      · exact hy3
      · exact i2 e he
    · simp only [hexEncode, List.map_cons]
      simp only at n1 n2
      rw [n1, n2, hx2, hy2, i3]

theorem unhexLoop_isSome : ∀ t : Bytes, t.length % 2 = 0 → (∀ c ∈ t, Spec.IsHexDigit c) → ∃ b, unhexLoop t = some b
  | [], _, _ => ⟨[], rfl⟩
  | [_], h, _ => by simp at h
  | c :: d :: s, h, hd => by
    obtain ⟨r, hr⟩ := unhexLoop_isSome s (by simp at h; omega) (fun e he => hd e (by simp [he]))
    obtain ⟨x, hx⟩ := Option.isSome_iff_exists.1 (unhexDigit_isSome c (hd c (by simp)))
    obtain ⟨y, hy⟩ := Option.isSome_iff_exists.1 (unhexDigit_isSome d (hd d (by simp)))
    exact ⟨_, by simp [unhexLoop, hx, hy, hr]; rfl⟩

/-! ## Properties -/

/-- **C03 round trip**: hex text of any byte string decodes to it, two digits per byte. -/
theorem c03_hex_roundtrip (b : Bytes) :
    fromJsonHex (hexEncode b) = .ok b ∧ unhexLoop (hexEncode b) = some b ∧ (hexEncode b).length = 2 * b.length := by
  have h := unhexLoop_hexEncode b
  obtain ⟨h1, h2, h3, h4⟩ := unhexLoop_some _ _ h
  refine ⟨?_, h, by omega⟩
  have : (hexEncode b).length &&& 1 = 0 := by rw [Nat.and_one_is_mod]; exact h1
  simp [fromJsonHex, this, h]

/-- **C03 exact acceptance**: a text is accepted iff it has even length and only hex digits (either case). -/
theorem c03_hex_accepts_iff (t : Bytes) :
    (∃ b, fromJsonHex t = .ok b) ↔ (t.length % 2 = 0 ∧ ∀ c ∈ t, Spec.IsHexDigit c) := by
  unfold fromJsonHex
  rw [Nat.and_one_is_mod]
  constructor
  · rintro ⟨b, h⟩
    split at h
    · simp at h
    · split at h
      · rename_i h'
        obtain ⟨h1, h2, _⟩ := unhexLoop_some _ _ h'
        exact ⟨h1, h2⟩
      · simp at h
  · rintro ⟨h1, h2⟩
    obtain ⟨b, hb⟩ := unhexLoop_isSome t h1 h2
    exact ⟨b, by simp [h1, hb]⟩

/-- **C03 re-encoding**: an accepted text re-encodes to its upper-case form, whichever decoder read it;
every refusal is the error `expected_hex_string`. -/
theorem c03_hex_reencode (t b : Bytes) (h : fromJsonHex t = .ok b) : hexEncode b = t.map Spec.upper := by
  unfold fromJsonHex at h
  split at h
  · simp at h
  · split at h
    · rename_i h'
      simp only [Except.ok.injEq] at h
      subst h
      exact (unhexLoop_some _ _ h').2.2.1
    · simp at h

theorem c03_hex_error (t : Bytes) (e : Err) (h : fromJsonHex t = .error e) : e = .expected_hex_string := by
  unfold fromJsonHex at h
  split at h
  · simpa using h.symm
  · split at h
    · simp at h
    · simpa using h.symm

/-- The decoder without the length check (`abieos_set_abi_hex`, `abieos_hex_to_json`, on a C string) accepts the same
texts with the same result. -/
theorem c03_unhex_same (t b : Bytes) : unhexLoop t = some b ↔ fromJsonHex t = .ok b := by
  constructor
  · intro h
    obtain ⟨h1, _⟩ := unhexLoop_some _ _ h
    have : t.length &&& 1 = 0 := by rw [Nat.and_one_is_mod]; exact h1
    simp [fromJsonHex, this, h]
  · intro h
    unfold fromJsonHex at h
    split at h
    · simp at h
    · split at h
      · simpa using (by simpa using h : _ = b) ▸ ‹_›
      · simp at h

/-- The digits used are `0-9A-F` in order. -/
theorem c03_hex_digits (i : Nat) (h : i < 16) : Spec.hexAlphabet[i]? = some (hexDigit i) := by
  have : ∀ i : Fin 16, Spec.hexAlphabet[i.val]? = some (hexDigit i.val) := by decide +kernel
  exact this ⟨i, h⟩

example : fromJsonHex (str "0aFf") = .ok [0x0A, 0xFF] := by decide +kernel
example : hexEncode [0x0A, 0xFF] = str "0AFF" := by decide +kernel
example : fromJsonHex (str "0aF") = .error .expected_hex_string := by decide +kernel

end Abieos
