import Verif.Proofs.Varint
/-! # C01, C02: variable length integers -/
namespace Abieos

/-- **C01 round trip.** Every value the type `varuint32` can hold (`< 2^32`) is accepted by the writer and what it
writes is read back as that value, leaving exactly the bytes that follow. -/
theorem c01_varuint32_roundtrip (v : Nat) (hv : v < 2 ^ 32) (rest : Bytes) :
    ∃ b, varuint32ToBin v = .ok b ∧ varuint32FromBin (b ++ rest) = .ok (v, rest) := by
  refine ⟨varuintLoop v, ?_, ?_⟩
  · have : v >>> 32 = 0 := by rw [Nat.shiftRight_eq_div_pow]; omega
    simp [varuint32ToBin, this]
  · have := fromLoop_write 32 35 (by decide) rest v 0 0 (by simp) (by simpa using hv) (by decide) (by decide)
    simpa [varuint32FromBin] using this

/-- **C01 refusal.** The writer refuses every 64-bit argument that does not fit 32 bits. -/
theorem c01_varuint32_too_big (v : Nat) (hv : 2 ^ 32 ≤ v) : varuint32ToBin v = .error .varuint_too_big := by
  have : v >>> 32 ≠ 0 := by rw [Nat.shiftRight_eq_div_pow]; omega
  simp [varuint32ToBin, this]

/-- **C01 bounded read.** Whatever the input, a successful read consumed between 1 and 5 bytes from its front and
returned a value below 2^32; no shorter input prefix decodes to the value than the writer's output. -/
theorem c01_varuint32_read (s r : Bytes) (v : Nat) (h : varuint32FromBin s = .ok (v, r)) :
    v < 2 ^ 32 ∧ ∃ a b, s = a ++ r ∧ 1 ≤ a.length ∧ a.length ≤ 5 ∧
      varuint32ToBin v = .ok b ∧ b.length ≤ a.length := by
  obtain ⟨a, ha, hp, hl, hv, hw⟩ := fromLoop_ok 32 35 (by decide) s 0 0 v r (by simp) (by simp) (by decide) (by decide) (by decide) h
  refine ⟨hw, a, varuintLoop v, ha, hp, by omega, ?_, ?_⟩
  · have : v >>> 32 = 0 := by rw [Nat.shiftRight_eq_div_pow]; omega
    simp [varuint32ToBin, this]
  · have := (varuintLoop_length (a.length - 1) v).1 (by
      rw [show a.length - 1 + 1 = a.length by omega]; simpa using hv)
    omega

/-- **C01 malformed input.** If the first bytes up to the end of input (fewer than five) all have their
continuation bit set, the read fails with an overrun; if the first five all have it set, it fails as over-long. -/
theorem c01_varuint32_malformed (s : Bytes) :
    ((s.length < 5 ∧ ∀ b ∈ s, 128 ≤ b.toNat) → varuint32FromBin s = .error .overrun) ∧
    ((5 ≤ s.length ∧ ∀ b ∈ s.take 5, 128 ≤ b.toNat) → varuint32FromBin s = .error .invalid_varuint_encoding) := by
  have key : ∀ (n : Nat) (s : Bytes) (sh dest : Nat), n = (35 - sh) / 7 → sh % 7 = 0 → sh ≤ 35 → dest < 2 ^ sh →
      ((s.length < n ∧ ∀ b ∈ s, 128 ≤ b.toNat) → varuintFromBinLoop 32 35 sh dest s = .error .overrun) ∧
      ((n ≤ s.length ∧ ∀ b ∈ s.take n, 128 ≤ b.toNat) →
        varuintFromBinLoop 32 35 sh dest s = .error .invalid_varuint_encoding) := by
    intro n
    induction n with
    | zero =>
      intro s sh dest hn hm hle _
      have : sh = 35 := by omega
      subst this
      exact ⟨by simp, fun _ => by rw [varuintFromBinLoop.eq_def]; simp⟩
    | succ n ih =>
      intro s sh dest hn hm hle hd
      have hlt : sh < 35 := by omega
      cases s with
      | nil => exact ⟨fun _ => by rw [varuintFromBinLoop]; simp [hlt], by simp⟩
      | cons b s =>
        rw [fromLoop_cons hlt (by omega) hd]
        have hd' := dest_lt (w := 32) hd (Nat.mod_lt b.toNat (by decide : 0 < 128))
        have := ih s (sh + 7) _ (by omega) (by omega) (by omega) hd'
        constructor
        · rintro ⟨h1, h2⟩
          rw [if_pos (h2 b (by simp))]
          exact this.1 ⟨by simpa using h1, fun c hc => h2 c (by simp [hc])⟩
        · rintro ⟨h1, h2⟩
          rw [if_pos (h2 b (by simp))]
          exact this.2 ⟨by simpa using h1, fun c hc => h2 c (by simp [hc])⟩
  have := key 5 s 0 0 (by decide) (by decide) (by decide) (by simp)
  exact this

/-- The same round trip for the 64-bit reader used for byte buffers and vectors of scalars: what the (32-bit)
writer produced is read back. -/
theorem c01_varuint64_reads_varuint32 (v : Nat) (hv : v < 2 ^ 32) (rest : Bytes) :
    ∃ b, varuint32ToBin v = .ok b ∧ varuint64FromBin (b ++ rest) = .ok (v, rest) := by
  refine ⟨varuintLoop v, ?_, ?_⟩
  · have : v >>> 32 = 0 := by rw [Nat.shiftRight_eq_div_pow]; omega
    simp [varuint32ToBin, this]
  · have := fromLoop_write 64 70 (by decide) rest v 0 0 (by simp) (by omega) (by decide) (by decide)
    simpa [varuint64FromBin] using this

/-- The 64-bit reader consumes 1 to 10 bytes and returns a value below 2^64. -/
theorem c01_varuint64_read (s r : Bytes) (v : Nat) (h : varuint64FromBin s = .ok (v, r)) :
    v < 2 ^ 64 ∧ ∃ a, s = a ++ r ∧ 1 ≤ a.length ∧ a.length ≤ 10 := by
  obtain ⟨a, ha, hp, hl, hv, hw⟩ := fromLoop_ok 64 70 (by decide) s 0 0 v r (by simp) (by simp) (by decide) (by decide) (by decide) h
  exact ⟨hw, a, ha, hp, by omega⟩

/-- **C02 round trip** on every 32-bit signed pattern. -/
theorem c02_varint32_roundtrip (v : BitVec 32) (rest : Bytes) :
    ∃ b, varint32ToBin v = .ok b ∧ varint32FromBin (b ++ rest) = .ok (v, rest) := by
  obtain ⟨b, hb, hr⟩ := c01_varuint32_roundtrip (zigzag v).toNat (zigzag v).isLt rest
  refine ⟨b, hb, ?_⟩
  simp [varint32FromBin, hr, unzigzag_zigzag, pure, Except.pure]

/-- **C02 zig-zag.** The unsigned image of `v` is `2v` for `v ≥ 0` and `-2v-1` for `v < 0` (mathematical integers),
so values of small magnitude get small images, and the mapping is a bijection of the 32-bit patterns. -/
theorem c02_zigzag (v : BitVec 32) :
    ((zigzag v).toNat : Int) = (if 0 ≤ v.toInt then 2 * v.toInt else -2 * v.toInt - 1) ∧
    unzigzag (zigzag v) = v ∧ zigzag (unzigzag v) = v :=
  ⟨zigzag_toNat v, unzigzag_zigzag v, zigzag_unzigzag v⟩

/-- **C02 short encodings**: magnitude below 64 takes one byte, below 8192 at most two, etc. -/
theorem c02_varint32_short (v : BitVec 32) (k : Nat) (b : Bytes)
    (h : -(2 ^ (7 * (k + 1)) : Int) ≤ 2 * v.toInt ∧ 2 * v.toInt < 2 ^ (7 * (k + 1)))
    (hb : varint32ToBin v = .ok b) : b.length ≤ k + 1 := by
  have hz := zigzag_toNat v
  have : (zigzag v).toNat >>> 32 = 0 := by
    rw [Nat.shiftRight_eq_div_pow]; have := (zigzag v).isLt; omega
  simp only [varint32ToBin, varuint32ToBin, this, ne_eq, not_true_eq_false, if_false, Except.ok.injEq] at hb
  subst hb
  rw [← varuintLoop_length]
  have e : ((2 ^ (7 * (k + 1)) : Nat) : Int) = (2 : Int) ^ (7 * (k + 1)) := by push_cast; rfl
  split at hz <;> omega

/-! Examples: the hypotheses are met. -/
example : varuint32ToBin 300 = .ok [0xAC, 0x02] := by decide +kernel
example : varuint32FromBin [0xAC, 0x02, 0x07] = .ok (300, [0x07]) := by decide +kernel
/-- A non-canonical over-long encoding is accepted (5 bytes for the value 1): `c01_varuint32_read` covers it. -/
example : varuint32FromBin [0x81, 0x80, 0x80, 0x80, 0x00] = .ok (1, []) := by decide +kernel
/-- Bits beyond 32 in the fifth byte are silently dropped by the reader. -/
example : varuint32FromBin [0x80, 0x80, 0x80, 0x80, 0x70] = .ok (0, []) := by decide +kernel
example : varint32ToBin (-1 : BitVec 32) = .ok [0x01] := by decide +kernel
example : varuint32FromBin [0xFF, 0xFF] = .error .overrun := by decide +kernel

end Abieos
