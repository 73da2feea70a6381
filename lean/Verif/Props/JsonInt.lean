import Verif.Proofs.Decimal
import Mathlib.Data.Nat.ModEq
/-! # C16, C17: integers in JSON -/
namespace Abieos
open Spec

/-! ## C16 -/

/-- **C16 exactness.** For each of the ten integer types, a string token is accepted iff it is the text of an integer in
the range of the type, and then that integer is the result: no value ever wraps. -/
theorem c16_from_json_int_iff (t : IntTy) (ht : t.Std) (s : Bytes) (v : Int) :
    fromJsonInt t s = .ok v ↔ (IsIntText t.signed s v ∧ t.In v) := by
  have hmax := max_ge ht
  have hpos := (fromJsonIntLoop_iff t ht 1 t.max t.max (Or.inl ⟨rfl, rfl, rfl⟩) s 0 false (by simp; omega)).1 v
  simp only [Nat.cast_zero, mul_zero, Bool.false_eq_true, false_or, one_mul] at hpos
  have hmin0 : t.min ≤ 0 := by
    cases hh : t.signed
    · simp [IntTy.min, hh]
    · have := min_le ht hh; omega
  have main : fromJsonIntLoop t 1 t.max 0 false s = .ok v ↔ ((∃ n : Nat, IsDecimal s n ∧ v = n) ∧ t.In v) := by
    rw [hpos]
    constructor
    · rintro ⟨h1, h2, h3, h4⟩
      exact ⟨⟨_, ⟨h2, h1, rfl⟩, h4⟩, by rw [h4]; omega, by rw [h4]; exact h3⟩
    · rintro ⟨⟨n, ⟨h1, h2, h3⟩, h4⟩, h5, h6⟩
      have h3' : decFrom 0 s = n := h3
      refine ⟨h2, h1, ?_, ?_⟩
      · rw [h3']; omega
      · rw [h3']; exact h4
  unfold fromJsonInt
  split
  · rename_i s' hsg
    have hmin := min_le ht hsg
    have hneg := (fromJsonIntLoop_iff t ht (-1) t.min (-t.min) (Or.inr ⟨hsg, rfl, rfl, rfl⟩) s' 0 false (by simp; omega)).1 v
    simp only [Nat.cast_zero, mul_zero, Bool.false_eq_true, false_or] at hneg
    rw [hneg]
    constructor
    · rintro ⟨h1, h2, h3, h4⟩
      refine ⟨Or.inr ⟨hsg, s', _, rfl, ⟨h2, h1, rfl⟩, by rw [h4]; change _ = -((decFrom 0 s' : Nat) : Int); omega⟩, ?_⟩
      unfold IntTy.In; omega
    · rintro ⟨h, hin⟩
      rcases h with ⟨n, ⟨_, h2, _⟩, _⟩ | ⟨_, s2, n, hs2, ⟨h1, h2, h3⟩, h4⟩
      · have := (isDigit_iff' _).1 (h2 45 (by simp)); simp at this
      · obtain rfl : s' = s2 := by simpa using hs2
        have h3' : decFrom 0 s' = n := h3
        unfold IntTy.In at hin
        exact ⟨h2, h1, by rw [h3']; omega, by rw [h3']; omega⟩
  · rename_i hno
    rw [main]
    constructor
    · rintro ⟨h1, h2⟩; exact ⟨Or.inl h1, h2⟩
    · rintro ⟨h | ⟨hsg, s', n, rfl, _⟩, h2⟩
      · exact ⟨h, h2⟩
      · exact absurd rfl (hno s' hsg)

/-- **C16 failures** are one of two errors; in particular no undefined behaviour (signed overflow) is reached. -/
theorem c16_from_json_int_error (t : IntTy) (ht : t.Std) (s : Bytes) (e : Err) (h : fromJsonInt t s = .error e) :
    e = .expected_int ∨ e = .number_out_of_range := by
  have hmax := max_ge ht
  have key := fun s => (fromJsonIntLoop_iff t ht 1 t.max t.max (Or.inl ⟨rfl, rfl, rfl⟩) s 0 false (by simp; omega)).2 e
  simp only [Nat.cast_zero, mul_zero] at key
  unfold fromJsonInt at h
  split at h
  · rename_i s' hsg
    have hmin := min_le ht hsg
    have := (fromJsonIntLoop_iff t ht (-1) t.min (-t.min) (Or.inr ⟨hsg, rfl, rfl, rfl⟩) s' 0 false (by simp; omega)).2 e
    simp only [Nat.cast_zero, mul_zero] at this
    exact this h
  · exact key _ h

theorem intText_eq (t : IntTy) (ht : t.Std) (v : Int) (hv : t.In v) :
    intText t v = if v < 0 then 45 :: (decRev v.natAbs).reverse else (decRev v.natAbs).reverse := by
  have hu : (if v < 0 then ((-(((v % 2 ^ t.bits).toNat : Nat) : Int)) % 2 ^ t.bits).toNat else (v % 2 ^ t.bits).toNat) = v.natAbs := by
    obtain ⟨s, b⟩ := t
    rcases ht with h | h | h | h | h <;> simp only at h <;> subst h <;> cases s <;>
      simp [IntTy.In, IntTy.min, IntTy.max] at hv ⊢ <;> split <;> omega
  unfold intText
  simp only [hu]
  split <;> simp

/-- **C16 round trip**: what is printed (between the quotes for wide types) parses back. -/
theorem c16_int_roundtrip (t : IntTy) (ht : t.Std) (v : Int) (hv : t.In v) : fromJsonInt t (intText t v) = .ok v := by
  rw [c16_from_json_int_iff t ht]
  refine ⟨?_, hv⟩
  rw [intText_eq t ht v hv]
  have hd := natDec_isDecimal v.natAbs
  split
  · rename_i h
    refine Or.inr ⟨?_, _, _, rfl, hd, by omega⟩
    cases hs : t.signed
    · have := hv.1; simp [IntTy.min, hs] at this; omega
    · rfl
  · exact Or.inl ⟨_, hd, by omega⟩

/-- **C16/C22 buffer**: the text with its quotes fits the stack buffer of `digits10 + 4` characters `int_to_json` uses. -/
theorem c16_int_buffer (t : IntTy) (ht : t.Std) (v : Int) (hv : t.In v) :
    (intToJson t v).length ≤ t.digits10 + 4 := by
  have hl : ∀ k, v.natAbs < 10 ^ (k + 1) → (intText t v).length ≤ (if v < 0 then 1 else 0) + (k + 1) := by
    intro k hk
    rw [intText_eq t ht v hv]
    have := decRev_length k _ hk
    split <;> simp <;> omega
  obtain ⟨s, b⟩ := t
  unfold intToJson
  rcases ht with h | h | h | h | h <;> simp only at h <;> subst h <;> cases s <;>
    simp [IntTy.In, IntTy.min, IntTy.max, IntTy.digits10] at hv ⊢
  · have := hl 2 (by omega); split at this <;> omega
  · have := hl 2 (by omega); split at this <;> omega
  · have := hl 4 (by omega); split at this <;> omega
  · have := hl 4 (by omega); split at this <;> omega
  · have := hl 9 (by omega); split at this <;> omega
  · have := hl 9 (by omega); split at this <;> omega
  · have := hl 19 (by omega); split at this <;> omega
  · have := hl 18 (by omega); split at this <;> omega
  · have := hl 38 (by omega); split at this <;> omega
  · have := hl 38 (by omega); split at this <;> omega

/-- **C16.** What is printed for an integer is its text, between quotes exactly if the type is wider than 32 bits. -/
theorem c16_printed (t : IntTy) (ht : t.Std) (v : Int) (hv : t.In v) : ∃ s, IsIntText t.signed s v ∧
    ((t.bits ≤ 32 ∧ intToJson t v = s) ∨ (64 ≤ t.bits ∧ intToJson t v = str "\"" ++ s ++ str "\"")) := by
  refine ⟨intText t v, ((c16_from_json_int_iff t ht _ v).1 (c16_int_roundtrip t ht v hv)).1, ?_⟩
  unfold intToJson
  rcases ht with h | h | h | h | h <;> rw [h]
  · exact .inl ⟨by decide, rfl⟩
  · exact .inl ⟨by decide, rfl⟩
  · exact .inl ⟨by decide, rfl⟩
  · exact .inr ⟨by decide, rfl⟩
  · exact .inr ⟨by decide, rfl⟩

example : fromJsonInt ⟨true, 8⟩ (str "-128") = .ok (-128) := by decide +kernel
example : fromJsonInt ⟨true, 8⟩ (str "128") = .error .number_out_of_range := by decide +kernel
example : fromJsonInt ⟨false, 64⟩ (str "18446744073709551615") = .ok (2 ^ 64 - 1) := by decide +kernel
example : fromJsonInt ⟨false, 8⟩ (str "-1") = .error .expected_int := by decide +kernel
example : intToJson ⟨true, 64⟩ (-5) = str "\"-5\"" := by decide +kernel
example : IntTy.Std ⟨true, 128⟩ ∧ IntTy.In ⟨true, 128⟩ (-2 ^ 127) := by unfold IntTy.Std IntTy.In; decide

/-! ## C17 -/

theorem mulTenAdd_spec : ∀ (a : Bytes) (c : Nat), c < 10 →
    (mulTenAdd c a).1.length = a.length ∧ (mulTenAdd c a).2 < 10 ∧
    leVal (mulTenAdd c a).1 + 256 ^ a.length * (mulTenAdd c a).2 = leVal a * 10 + c
  | [], c, hc => by simp [mulTenAdd, leVal, hc]
  | b :: s, c, hc => by
    have hb := b.toNat_lt
    have e : (b.toNat * 10 + c) >>> 8 % 256 = (b.toNat * 10 + c) / 256 := by
      rw [Nat.shiftRight_eq_div_pow]; omega
    obtain ⟨h1, h2, h3⟩ := mulTenAdd_spec s ((b.toNat * 10 + c) / 256) (by omega)
    simp only [mulTenAdd, e, List.length_cons, leVal, h1, true_and]
    refine ⟨h2, ?_⟩
    rw [show (UInt8.ofNat (b.toNat * 10 + c)).toNat = (b.toNat * 10 + c) % 256 by simp]
    have e3 : 256 ^ (s.length + 1) * (mulTenAdd ((b.toNat * 10 + c) / 256) s).2 =
      256 * (256 ^ s.length * (mulTenAdd ((b.toNat * 10 + c) / 256) s).2) := by rw [Nat.pow_succ]; ring
    rw [e3]
    omega

theorem decimalToBinaryLoop_iff : ∀ (s acc r : Bytes),
    decimalToBinaryLoop acc s = .ok r ↔ ((∀ c ∈ s, IsDigit c) ∧ r.length = acc.length ∧ leVal r = decFrom (leVal acc) s)
  | [], acc, r => by
    simp only [decimalToBinaryLoop, Except.ok.injEq, List.not_mem_nil, false_implies, implies_true, true_and, decFrom]
    constructor
    · rintro rfl; exact ⟨rfl, rfl⟩
    · rintro ⟨h1, h2⟩; exact (leVal_inj _ _ h1 h2).symm
  | c :: s, acc, r => by
    rw [decimalToBinaryLoop]
    by_cases hc : IsDigit c
    · have hc2 := (isDigit_iff' c).1 hc
      rw [if_pos ((isDigit_iff c).2 hc)]
      obtain ⟨h1, h2, h3⟩ := mulTenAdd_spec acc (c.toNat - 48) (by omega)
      have hdc : decFrom (leVal acc) (c :: s) = decFrom (leVal acc * 10 + (c.toNat - 48)) s := by rw [decFrom, digitVal_eq]
      rw [hdc, ← h3]
      by_cases hk : (mulTenAdd (c.toNat - 48) acc).2 = 0
      · have := decimalToBinaryLoop_iff s (mulTenAdd (c.toNat - 48) acc).1 r
        simp only [hk, ne_eq, not_true_eq_false, if_false, this, h1, mul_zero, add_zero, List.mem_cons, forall_eq_or_imp, hc, true_and]
      · simp only [ne_eq, hk, not_false_eq_true, if_true]
        constructor
        · intro h; simp at h
        · rintro ⟨_, hl, hv⟩
          exfalso
          have h4 := decFrom_ge (leVal (mulTenAdd (c.toNat - 48) acc).1 + 256 ^ acc.length * (mulTenAdd (c.toNat - 48) acc).2) s
          have h5 := leVal_lt r
          rw [hl] at h5
          have h6 : 256 ^ acc.length * 1 ≤ 256 ^ acc.length * (mulTenAdd (c.toNat - 48) acc).2 :=
            Nat.mul_le_mul_left _ (by omega)
          omega
    · rw [if_neg (fun h => hc ((isDigit_iff c).1 h))]
      simp [hc]

/-- **C17 parsing**: `decimal_to_binary` returns `r` iff the text consists of digits only and `r` is the
`size`-byte little-endian representation of the number (so the number fits); otherwise it fails.
Note: the empty text is accepted as zero. -/
theorem c17_decimal_to_binary_iff (size : Nat) (s r : Bytes) :
    decimalToBinary size s = .ok r ↔ ((∀ c ∈ s, IsDigit c) ∧ r.length = size ∧ leVal r = decVal s) := by
  rw [decimalToBinary, decimalToBinaryLoop_iff, leVal_zero, List.length_replicate]; rfl

/-- **C17 parsing, range form**: a digit string is accepted iff its number is below `256^size`. -/
theorem c17_decimal_to_binary_accepts (size : Nat) (s : Bytes) (hs : ∀ c ∈ s, IsDigit c) :
    (∃ r, decimalToBinary size s = .ok r) ↔ decVal s < 256 ^ size := by
  constructor
  · rintro ⟨r, h⟩
    obtain ⟨_, h2, h3⟩ := (c17_decimal_to_binary_iff size s r).1 h
    rw [← h3, ← h2]; exact leVal_lt r
  · intro h
    have : ∀ (size n : Nat), n < 256 ^ size → ∃ r : Bytes, r.length = size ∧ leVal r = n := by
      intro size
      induction size with
      | zero => intro n hn; exact ⟨[], rfl, by simp [leVal] at hn ⊢; omega⟩
      | succ k ih =>
        intro n hn
        obtain ⟨r, h1, h2⟩ := ih (n / 256) (by rw [Nat.pow_succ] at hn; omega)
        refine ⟨UInt8.ofNat (n % 256) :: r, by simp [h1], ?_⟩
        rw [leVal, h2, uint8_toNat_ofNat_lt (Nat.mod_lt _ (by decide))]; omega
    obtain ⟨r, h1, h2⟩ := this size _ h
    exact ⟨r, (c17_decimal_to_binary_iff size s r).2 ⟨hs, h1, h2⟩⟩

theorem pushCarry_eq (k : Nat) : pushCarry k = if k = 0 then [] else decRev k := by
  induction k using Nat.strong_induction_on with
  | _ k ih =>
    rw [pushCarry]
    by_cases h : k = 0
    · simp [h]
    · rw [dif_neg h, if_neg h, decRev, ih (k / 10) (by omega)]

theorem mul256Add_decRev (n : Nat) : ∀ c, (mul256Add c (decRev n)).1 ++ pushCarry (mul256Add c (decRev n)).2 = decRev (n * 256 + c) := by
  induction n using Nat.strong_induction_on with
  | _ n ih =>
    intro c
    have hx : (((UInt8.ofNat (48 + n % 10)).toNat - 48) <<< 8) + c = n % 10 * 256 + c := by
      rw [digit_toNat (Nat.mod_lt _ (by decide)), Nat.shiftLeft_eq, Nat.add_sub_cancel_left]
    rw [decRev]
    by_cases h : n / 10 = 0
    · have hn : n % 10 = n := by omega
      simp only [h, if_true, mul256Add, List.cons_append, List.nil_append, hx]
      rw [hn]
      conv_rhs => rw [decRev]
      rw [pushCarry_eq]
    · simp only [h, if_false, mul256Add, List.cons_append, hx]
      rw [ih (n / 10) (by omega)]
      conv_rhs => rw [decRev]
      have e1 : (n * 256 + c) / 10 = n / 10 * 256 + (n % 10 * 256 + c) / 10 := by omega
      have e2 : (n % 10 * 256 + c) % 10 = (n * 256 + c) % 10 := by omega
      rw [e1, e2]
      have : ¬ (n / 10 * 256 + (n % 10 * 256 + c) / 10 = 0) := by omega
      rw [if_neg this]

theorem binaryToDecimalLoop_eq : ∀ (s : Bytes) (n : Nat), binaryToDecimalLoop (decRev n) s =
    decRev (s.foldl (fun a b => a * 256 + b.toNat) n)
  | [], n => rfl
  | b :: s, n => by
    rw [binaryToDecimalLoop]
    simp only [mul256Add_decRev]
    rw [binaryToDecimalLoop_eq s, List.foldl_cons]

theorem foldl_reverse_leVal (a : Bytes) : a.reverse.foldl (fun a b => a * 256 + b.toNat) 0 = leVal a := by
  induction a with
  | nil => rfl
  | cons b s ih => rw [List.reverse_cons, List.foldl_append, ih]; simp [leVal]; ring

/-- **C17 printing**: `binary_to_decimal` prints the number the bytes denote, in decimal without leading zeros. -/
theorem c17_binary_to_decimal (a : Bytes) : binaryToDecimal a = (decRev (leVal a)).reverse ∧ IsDecimal (binaryToDecimal a) (leVal a) := by
  have : binaryToDecimal a = (decRev (leVal a)).reverse := by
    have e : [48] = decRev 0 := by decide +kernel
    rw [binaryToDecimal, e, binaryToDecimalLoop_eq, foldl_reverse_leVal]
  exact ⟨this, this ▸ natDec_isDecimal _⟩

/-- **C17 round trip** for arrays of every size. -/
theorem c17_roundtrip (a : Bytes) : decimalToBinary a.length (binaryToDecimal a) = .ok a := by
  obtain ⟨_, _, h2, h3⟩ := c17_binary_to_decimal a
  exact (c17_decimal_to_binary_iff _ _ _).2 ⟨h2, rfl, h3.symm⟩

theorem negateLoop_spec : ∀ (a : Bytes) (c : Nat), c ≤ 1 → (negateLoop c a).length = a.length ∧
    (leVal (negateLoop c a) + leVal a + 1) % 256 ^ a.length = c % 256 ^ a.length
  | [], c, _ => by simp [negateLoop, leVal, Nat.mod_one]
  | b :: s, c, hc => by
    have hb := b.toNat_lt
    have hn : (~~~b).toNat = 255 - b.toNat := by
      revert b; intro b _
      have : ∀ b : Fin 256, (~~~(UInt8.ofNat b.val)).toNat = 255 - b.val := by decide +kernel
      have := this ⟨b.toNat, b.toNat_lt⟩
      simpa using this
    have hx : ((~~~b).toNat + c) >>> 8 = (255 - b.toNat + c) / 256 := by
      rw [hn, Nat.shiftRight_eq_div_pow]
    obtain ⟨h1, h2⟩ := negateLoop_spec s ((255 - b.toNat + c) / 256) (by omega)
    simp only [negateLoop, List.length_cons, h1, true_and, leVal, hx]
    rw [hn, show (UInt8.ofNat (255 - b.toNat + c)).toNat = (255 - b.toNat + c) % 256 by simp]
    have hp : 256 ^ (s.length + 1) = 256 * 256 ^ s.length := by rw [Nat.pow_succ]; ring
    rw [hp]
    generalize hA : leVal (negateLoop ((255 - b.toNat + c) / 256) s) = A at *
    generalize leVal s = B at *
    generalize hM : 256 ^ s.length = M at *
    have hMpos : 0 < M := by rw [← hM]; exact Nat.pow_pos (by decide)
    have e : (255 - b.toNat + c) % 256 + 256 * A + (b.toNat + 256 * B) + 1 =
      256 * (A + B + 1) + c - 256 * ((255 - b.toNat + c) / 256) := by omega
    by_cases hk : (255 - b.toNat + c) / 256 = 0
    · rw [hk] at h2 e
      have h2' : (A + B + 1) % M = 0 := by simpa using h2
      obtain ⟨q, hq⟩ := Nat.dvd_of_mod_eq_zero h2'
      rw [e, hq]
      have : 256 * (M * q) + c - 256 * 0 = c + 256 * M * q := by rw [Nat.mul_assoc]; omega
      rw [this, Nat.add_mul_mod_self_left]
    · have hk1 : (255 - b.toNat + c) / 256 = 1 := by omega
      rw [hk1] at h2 e
      have hAB : ∃ q, A + B = M * q := by
        have h3 : (A + B + 1) ≡ 1 [MOD M] := h2
        have h4 : (A + B) ≡ 0 [MOD M] := Nat.ModEq.add_right_cancel' 1 (by simpa using h3)
        exact Nat.dvd_of_mod_eq_zero (by simpa [Nat.ModEq] using h4)
      obtain ⟨q, hq⟩ := hAB
      rw [e]
      have : 256 * (A + B + 1) + c - 256 * 1 = c + 256 * M * q := by rw [hq, Nat.mul_assoc]; omega
      rw [this, Nat.add_mul_mod_self_left]

/-- **C17 negation** is two's complement: the sum with the original vanishes modulo `256^size`. -/
theorem c17_negate (a : Bytes) : (negate a).length = a.length ∧ (leVal (negate a) + leVal a) % 256 ^ a.length = 0 := by
  obtain ⟨h1, h2⟩ := negateLoop_spec a 1 (by omega)
  refine ⟨h1, ?_⟩
  have h3 : (leVal (negate a) + leVal a + 1) ≡ 0 + 1 [MOD 256 ^ a.length] := h2
  exact Nat.ModEq.add_right_cancel' 1 h3

theorem leVal_concat (c : UInt8) : ∀ s : Bytes, leVal (s ++ [c]) = leVal s + 256 ^ s.length * c.toNat
  | [] => by simp [leVal]
  | b :: s => by
    rw [List.cons_append, leVal, leVal_concat c s, leVal, List.length_cons, Nat.pow_succ]
    have : 256 ^ s.length * 256 * c.toNat = 256 * (256 ^ s.length * c.toNat) := by ring
    rw [this]
    omega

/-- The sign bit. -/
theorem isNegative_iff {a : Bytes} (h : a.length = 16) : isNegative a = true ↔ 2 ^ 127 ≤ leVal a := by
  obtain ⟨b, c, rfl, hb⟩ : ∃ b c, a = b ++ [c] ∧ b.length = 15 := by
    refine ⟨a.take 15, a[15]'(by omega), ?_, by simp; omega⟩
    have := List.take_append_drop 15 a
    rw [List.drop_eq_getElem_cons (by omega), List.drop_of_length_le (by omega)] at this
    exact this.symm
  have hc : (c.toNat &&& 0x80 ≠ 0) ↔ 128 ≤ c.toNat := by
    have : ∀ n : Fin 256, (n.val &&& 0x80 ≠ 0) ↔ 128 ≤ n.val := by decide +kernel
    exact this ⟨c.toNat, c.toNat_lt⟩
  have hv := leVal_concat c b
  have hlt := leVal_lt b
  rw [hb] at hv hlt
  rw [hv]
  simp only [isNegative, List.getLast?_concat, decide_eq_true_eq]
  rw [hc]
  omega

/-- **C17.** The decimal text of a 128-bit number without native support: any digits (none are read as 0) whose number fits. -/
theorem c17_uint128 (s r : Bytes) : u128FromJson s = .ok r ↔ ((∀ c ∈ s, IsDigit c) ∧ r.length = 16 ∧ leVal r = decVal s) :=
  c17_decimal_to_binary_iff 16 s r

/-- **C17.** Signed: digits for a number below 2^127, or a minus sign and digits for a number from 1 to 2^127; the bytes are the two's
complement of the number. Other texts are refused, also `-0`. -/
theorem c17_int128 (s r : Bytes) : i128FromJson s = .ok r ↔ r.length = 16 ∧
    (((∀ c ∈ s, IsDigit c) ∧ decVal s < 2 ^ 127 ∧ leVal r = decVal s) ∨
      ∃ s', s = str "-" ++ s' ∧ (∀ c ∈ s', IsDigit c) ∧ 0 < decVal s' ∧ decVal s' ≤ 2 ^ 127 ∧ leVal r = 2 ^ 128 - decVal s') := by
  have hnd : ¬ IsDigit 45 := by unfold IsDigit; decide
  unfold i128FromJson
  split
  · rename_i s'
    have hneg : ∀ d : Bytes, d.length = 16 → (negate d).length = 16 ∧ (0 < leVal d → leVal (negate d) = 2 ^ 128 - leVal d) ∧ (leVal d = 0 → leVal (negate d) = 0) := by
      intro d hd
      obtain ⟨h1, h2⟩ := c17_negate d
      have h3 := leVal_lt (negate d)
      have h4 := leVal_lt d
      rw [h1] at h3
      rw [hd] at h1 h2 h3 h4
      refine ⟨h1, ?_, ?_⟩ <;> omega
    constructor
    · intro h
      obtain ⟨d, h1, h⟩ := bind_eq_ok.1 h
      obtain ⟨_, h2, h⟩ := bind_eq_ok.1 h
      cases h
      obtain ⟨g1, g2, g3⟩ := (c17_decimal_to_binary_iff 16 s' d).1 h1
      obtain ⟨n1, n2, n3⟩ := hneg d g2
      have h2 := (isNegative_iff n1).1 (check_eq_ok.1 h2)
      have h4 := leVal_lt d
      rw [g2] at h4
      refine ⟨n1, .inr ⟨s', rfl, g1, ?_, ?_, ?_⟩⟩
      · rcases Nat.eq_zero_or_pos (leVal d) with h | h
        · have := n3 h; omega
        · omega
      · rcases Nat.eq_zero_or_pos (leVal d) with h | h
        · omega
        · have := n2 h; omega
      · rcases Nat.eq_zero_or_pos (leVal d) with h | h
        · have := n3 h; omega
        · have := n2 h; omega
    · rintro ⟨h16, ⟨h, -⟩ | ⟨t, e, h1, h2, h3, h4⟩⟩
      · exact absurd (h 45 (by simp)) hnd
      · injection e with _ e
        subst e
        obtain ⟨d, hd⟩ := (c17_decimal_to_binary_accepts 16 s' h1).2 (by omega)
        obtain ⟨g1, g2, g3⟩ := (c17_decimal_to_binary_iff 16 s' d).1 hd
        obtain ⟨n1, n2, n3⟩ := hneg d g2
        have := n2 (by omega)
        rw [hd, bind_ok]
        simp only
        rw [(isNegative_iff n1).2 (by omega), check_true, bind_ok, leVal_inj (negate d) r (by omega) (by omega)]
        rfl
  · rename_i hs
    constructor
    · intro h
      obtain ⟨d, h1, h⟩ := bind_eq_ok.1 h
      obtain ⟨_, h2, h⟩ := bind_eq_ok.1 h
      cases h
      obtain ⟨g1, g2, g3⟩ := (c17_decimal_to_binary_iff 16 s r).1 h1
      have h2 := check_eq_ok.1 h2
      have : ¬ 2 ^ 127 ≤ leVal r := by rw [← isNegative_iff g2]; simpa using h2
      exact ⟨g2, .inl ⟨g1, by omega, g3⟩⟩
    · rintro ⟨h16, ⟨h1, h2, h3⟩ | ⟨t, rfl, -⟩⟩
      · rw [(c17_decimal_to_binary_iff 16 s r).2 ⟨h1, h16, h3⟩, bind_ok]
        have : isNegative r = false := by
          rw [Bool.eq_false_iff]
          intro h
          have := (isNegative_iff h16).1 h
          omega
        simp only [this]
        rfl
      · exact absurd rfl (hs t)

/-- **C17.** And their printing: the decimal text of the number, for negative ones a minus sign and the decimal text of the absolute value. -/
theorem c17_print128 {r : Bytes} (h : r.length = 16) : IsDecimal (u128Text r) (leVal r) ∧
    (leVal r < 2 ^ 127 → IsDecimal (i128Text r) (leVal r)) ∧
    (2 ^ 127 ≤ leVal r → ∃ s, i128Text r = str "-" ++ s ∧ IsDecimal s (2 ^ 128 - leVal r)) := by
  refine ⟨(c17_binary_to_decimal r).2, fun hl => ?_, fun hl => ?_⟩
  · have : isNegative r = false := by
      rw [Bool.eq_false_iff]
      intro h'
      have := (isNegative_iff h).1 h'
      omega
    unfold i128Text
    rw [this]
    exact (c17_binary_to_decimal r).2
  · unfold i128Text
    rw [(isNegative_iff h).2 hl]
    refine ⟨_, rfl, ?_⟩
    have := (c17_binary_to_decimal (negate r)).2
    obtain ⟨h1, h2⟩ := c17_negate r
    have h3 := leVal_lt (negate r)
    have h4 := leVal_lt r
    rw [h1] at h3
    rw [h] at h2 h3 h4
    rwa [show leVal (negate r) = 2 ^ 128 - leVal r by omega] at this

example : i128FromJson (str "-0") = .error .number_out_of_range := by decide +kernel
example : i128FromJson (str "-170141183460469231731687303715884105728") = .ok (List.replicate 15 0 ++ [128]) := by decide +kernel
example : decimalToBinary 2 (str "65535") = .ok [255, 255] := by decide +kernel
example : decimalToBinary 2 (str "65536") = .error .number_out_of_range := by decide +kernel
example : binaryToDecimal [0, 1] = str "256" := by decide +kernel
/-- A quirk kept by the model: the empty string is read as 0. -/
example : decimalToBinary 2 [] = .ok [0, 0] := by decide +kernel

end Abieos
