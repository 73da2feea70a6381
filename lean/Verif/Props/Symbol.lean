import Verif.Spec.SymbolText
import Verif.Model.Symbol
import Verif.Proofs.Decimal
/-! # C07, C08: symbol and asset texts -/
namespace Abieos
open Spec

/-! ## Lemmas -/

theorem isLetter_iff {c : UInt8} : isLetter c = true ↔ IsUpper c := by
  revert c; apply forall_uint8; decide +kernel

theorem isDigitC_iff {c : UInt8} : isDigitC c = true ↔ IsDigit c := by
  revert c; apply forall_uint8; decide +kernel

theorem leVal_append (s t : Bytes) : leVal (s ++ t) = leVal s + 256 ^ s.length * leVal t := by
  induction s with
  | nil => simp [leVal]
  | cons c s ih =>
    rw [List.cons_append, leVal, ih, leVal, List.length_cons, Nat.pow_succ]
    ring

theorem or_shift {a b k : Nat} (h : a < 256 ^ k) : a ||| (b <<< (8 * k)) = a + 256 ^ k * b := by
  have h' : a < 2 ^ (8 * k) := by rw [Nat.pow_mul]; exact h
  rw [Nat.shiftLeft_eq, Nat.or_comm, Nat.mul_comm b, ← Nat.two_pow_add_eq_or_of_lt h', Nat.pow_mul, Nat.add_comm]

theorem symbolCodeLoop_iff {l s r : Bytes} {v n : Nat} : symbolCodeLoop (leVal l) l.length s = some (v, n, r) ↔
    ∃ w, s = w ++ r ∧ (∀ c ∈ w, IsUpper c) ∧ (∀ c r', r = c :: r' → ¬ IsUpper c) ∧ (w = [] ∨ l.length + w.length ≤ 7) ∧ v = leVal (l ++ w) ∧
      n = l.length + w.length := by
  induction s generalizing l with
  | nil =>
    simp only [symbolCodeLoop, Option.some.injEq, Prod.mk.injEq]
    constructor
    · rintro ⟨rfl, rfl, rfl⟩; exact ⟨[], by simp⟩
    · rintro ⟨w, hw, -, -, -, hv, hn⟩
      have := congrArg List.length hw
      simp only [List.length_nil, List.length_append] at this
      have h1 : w = [] := List.length_eq_zero_iff.1 (by omega)
      have h2 : r = [] := List.length_eq_zero_iff.1 (by omega)
      subst h1 h2
      simp [hv, hn]
  | cons c s ih =>
    rw [symbolCodeLoop]
    by_cases hc : IsUpper c
    · rw [if_pos (isLetter_iff.2 hc)]
      split
      · rename_i h7
        simp only [reduceCtorEq, false_iff]
        rintro ⟨w, hw, hu, hr, hl, -⟩
        cases w with
        | nil => exact hr c s (by simpa using hw.symm) hc
        | cons x w => simp at hl; omega
      · rename_i h7
        have e1 : leVal l ||| (c.toNat <<< (8 * l.length)) = leVal (l ++ [c]) := by
          rw [or_shift (leVal_lt l), leVal_append]; simp [leVal]
        rw [e1, show l.length + 1 = (l ++ [c]).length by simp, ih]
        constructor
        · rintro ⟨w, rfl, h1, h2, h3, h4, h5⟩
          refine ⟨c :: w, rfl, ?_, h2, .inr ?_, by simpa using h4, by simpa [Nat.add_assoc, Nat.add_comm 1] using h5⟩
          · simp only [List.mem_cons]
            rintro a (rfl | ha)
            · exact hc
            · exact h1 a ha
          · rcases h3 with rfl | h3
            · simp; omega
            · simp at h3 ⊢; omega
        · rintro ⟨w, hw, h1, h2, h3, h4, h5⟩
          cases w with
          | nil => exact absurd hc (h2 c s (by simpa using hw.symm))
          | cons x w =>
            simp only [List.cons_append, List.cons.injEq] at hw
            obtain ⟨rfl, rfl⟩ := hw
            exact ⟨w, rfl, fun a ha => h1 a (by simp [ha]), h2, .inr (by simp at h3 ⊢; omega), by simpa using h4,
              by simp at h5 ⊢; omega⟩
    · have : ¬ isLetter c = true := fun h => hc (isLetter_iff.1 h)
      rw [if_neg this]
      simp only [Option.some.injEq, Prod.mk.injEq]
      constructor
      · rintro ⟨rfl, rfl, rfl⟩
        exact ⟨[], by simp, by simp, by rintro a r' h; injection h with h; exact h ▸ hc, by simp, by simp, by simp⟩
      · rintro ⟨w, hw, h1, h2, h3, h4, h5⟩
        cases w with
        | nil => simp at hw h4 h5; exact ⟨h4.symm, h5.symm, hw⟩
        | cons x w =>
          simp only [List.cons_append, List.cons.injEq] at hw
          exact absurd (hw.1 ▸ h1 x (by simp)) hc

theorem skipBlanks_eq (s : Bytes) : ∃ b, Blank b ∧ s = b ++ skipBlanks s ∧ ∀ c r, skipBlanks s = c :: r → c ≠ 32 := by
  induction s with
  | nil => exact ⟨[], by simp [Blank], rfl, by simp [skipBlanks]⟩
  | cons c s ih =>
    rw [skipBlanks]
    split
    · rename_i hc
      obtain ⟨b, h1, h2, h3⟩ := ih
      refine ⟨c :: b, ?_, by rw [List.cons_append, ← h2], h3⟩
      intro a ha
      rcases List.mem_cons.1 ha with rfl | ha
      · exact hc
      · exact h1 a ha
    · rename_i hc
      exact ⟨[], by simp [Blank], rfl, by rintro a r h; injection h with h; exact h ▸ hc⟩

theorem skipBlanks_blank {b s : Bytes} (hb : Blank b) (hs : ∀ c r, s = c :: r → c ≠ 32) : skipBlanks (b ++ s) = s := by
  induction b with
  | nil =>
    cases s with
    | nil => rfl
    | cons c s => rw [List.nil_append, skipBlanks, if_neg (hs c s rfl)]
  | cons c b ih =>
    rw [List.cons_append, skipBlanks, if_pos (hb c (by simp))]
    exact ih fun a ha => hb a (by simp [ha])

theorem isUpper_ne {c : UInt8} (h : IsUpper c) : c ≠ 32 ∧ c ≠ 45 ∧ c ≠ 46 ∧ ¬ IsDigit c := by
  refine ⟨?_, ?_, ?_, ?_⟩
  · rintro rfl; revert h; decide
  · rintro rfl; revert h; decide
  · rintro rfl; revert h; decide
  · intro h'; unfold IsUpper at h; unfold IsDigit at h'; omega

/-! ## C07 -/

/-- Exactly the texts made of blanks and then 1 to 7 upper-case letters are accepted as a symbol code, with the packed
letters as the value. -/
theorem c07_code_parse {s : Bytes} {v : Nat} : stringToSymbolCode s = some v ↔
    ∃ b l, s = b ++ l ∧ Blank b ∧ CodeText l ∧ v = leVal l := by
  unfold stringToSymbolCode
  constructor
  · intro h
    simp only [Option.bind_eq_bind, Option.bind_eq_some_iff, Prod.exists] at h
    obtain ⟨v', n, r, h1, h2⟩ := h
    split at h2
    · rename_i hc
      obtain ⟨hn, rfl⟩ := hc
      injection h2 with h2
      subst h2
      obtain ⟨w, hw, hu, -, hl, hv, rfl⟩ := (symbolCodeLoop_iff (l := [])).1 h1
      obtain ⟨b, hb, hs, -⟩ := skipBlanks_eq s
      rw [hw, List.append_nil] at hs
      refine ⟨b, w, hs, hb, ⟨?_, ?_, hu⟩, by simpa using hv⟩
      · simp at hn
        cases w with
        | nil => exact absurd rfl hn
        | cons => simp
      · rcases hl with rfl | hl
        · simp
        · simpa using hl
    · simp at h2
  · rintro ⟨b, l, rfl, hb, ⟨h1, h2, h3⟩, rfl⟩
    rw [skipBlanks_blank hb (fun c r e => (isUpper_ne (h3 c (by simp [e]))).1)]
    have := (symbolCodeLoop_iff (l := []) (s := l) (r := []) (v := leVal l) (n := l.length)).2
      ⟨l, by simp, h3, by simp, .inr (by simpa using h2), by simp, by simp⟩
    simp only [leVal, List.length_nil] at this
    simp only [this, Option.bind_eq_bind, Option.bind_some]
    simp only [and_true]
    rw [if_pos (by omega)]

theorem and_ff (n : Nat) : n &&& 0xff = n % 256 := Nat.and_two_pow_sub_one_eq_mod n 8

theorem shr8 (n : Nat) : n >>> 8 = n / 256 := Nat.shiftRight_eq_div_pow n 8

/-- A symbol code prints its letters. -/
theorem c07_code_print {l : Bytes} (h : ∀ c ∈ l, IsUpper c) : symbolCodeToString (leVal l) = l := by
  induction l with
  | nil => rw [symbolCodeToString]; simp [leVal]
  | cons c l ih =>
    have hc : IsUpper c := h c (by simp)
    have hlt := c.toNat_lt
    rw [symbolCodeToString, leVal, dif_pos (by unfold IsUpper at hc; omega), and_ff, shr8,
      show (c.toNat + 256 * leVal l) % 256 = c.toNat by omega, show (c.toNat + 256 * leVal l) / 256 = leVal l by omega,
      ih fun a ha => h a (by simp [ha])]
    simp

/-- Printing a symbol code and reading the text gives it back. -/
theorem c07_code_roundtrip {l : Bytes} (h : CodeText l) :
    stringToSymbolCode (symbolCodeToString (leVal l)) = some (leVal l) := by
  rw [c07_code_print h.2.2, c07_code_parse]
  exact ⟨[], l, rfl, by simp [Blank], h, rfl⟩

/-- An accepted text without leading blanks is printed again. -/
theorem c07_text_roundtrip {s : Bytes} {v : Nat} (h : stringToSymbolCode s = some v) :
    ∃ b, Blank b ∧ s = b ++ symbolCodeToString v := by
  obtain ⟨b, l, rfl, hb, hl, rfl⟩ := c07_code_parse.1 h
  exact ⟨b, hb, by rw [c07_code_print hl.2.2]⟩

/-- Every raw 64-bit value prints its bytes up to the last non-zero one; reading back the text of any valid symbol code: -/
example : stringToSymbolCode (symbolCodeToString (leVal (str "EOS"))) = some 5459781 := by
  rw [c07_code_roundtrip (by decide)]; decide

theorem precStep_eq (p : Nat) (c : UInt8) : precStep p c = (p * 10 + digitVal c) % 256 := by
  rw [digitVal_eq]; unfold precStep; rfl

theorem precisionLoop_eq {p : Nat} {f : Bool} {w r : Bytes} (hw : ∀ c ∈ w, IsDigit c) (hr : ∀ c r', r = c :: r' → ¬ IsDigit c)
    (hp : p < 256) : precisionLoop p f (w ++ r) = (decFrom p w % 256, f || !w.isEmpty, r) := by
  induction w generalizing p f with
  | nil =>
    cases r with
    | nil => simp [precisionLoop, decFrom, Nat.mod_eq_of_lt hp]
    | cons c r =>
      have : ¬ isDigitC c = true := fun h => hr c r rfl (isDigitC_iff.1 h)
      simp [precisionLoop, decFrom, Nat.mod_eq_of_lt hp, this]
  | cons c w ih =>
    have := isDigitC_iff.2 (hw c (by simp))
    rw [List.cons_append, precisionLoop, if_pos this, precStep_eq, ih (fun a ha => hw a (by simp [ha])) (Nat.mod_lt _ (by decide)), decFrom]
    have hm : decFrom ((p * 10 + digitVal c) % 256) w % 256 = decFrom (p * 10 + digitVal c) w % 256 := by
      rw [decFrom_eq, decFrom_eq (p * 10 + digitVal c), Nat.add_mod, Nat.mul_mod, Nat.mod_mod, ← Nat.mul_mod, ← Nat.add_mod]
    rw [hm]
    simp

theorem digits_split (s : Bytes) : ∃ w r, s = w ++ r ∧ (∀ c ∈ w, IsDigit c) ∧ ∀ c r', r = c :: r' → ¬ IsDigit c := by
  induction s with
  | nil => exact ⟨[], [], rfl, by simp, by simp⟩
  | cons c s ih =>
    by_cases hc : IsDigit c
    · obtain ⟨w, r, rfl, h1, h2⟩ := ih
      refine ⟨c :: w, r, rfl, ?_, h2⟩
      simp only [List.mem_cons]
      rintro a (rfl | ha)
      · exact hc
      · exact h1 a ha
    · exact ⟨[], c :: s, rfl, by simp, by rintro a r h; injection h with h; exact h ▸ hc⟩

theorem pack_symbol {v p : Nat} (hv : v < 256 ^ 7) (hp : p < 256) : ((v <<< 8) ||| p) % 2 ^ 64 = p + 256 * v := by
  have : p ||| (v <<< (8 * 1)) = p + 256 ^ 1 * v := or_shift (by simpa using hp)
  rw [Nat.or_comm, show (8 : Nat) = 8 * 1 from rfl, this, Nat.mod_eq_of_lt (by omega)]
  simp

theorem codeText_lt {l : Bytes} (h : CodeText l) : leVal l < 256 ^ 7 :=
  Nat.lt_of_lt_of_le (leVal_lt l) (Nat.pow_le_pow_right (by decide) h.2.1)

/-- Exactly the texts `precision,CODE` are accepted as a symbol: decimal digits, a comma, blanks, 1 to 7 letters. The
precision is taken modulo 256. -/
theorem c07_symbol_parse {s : Bytes} {v : Nat} : stringToSymbol s = some v ↔
    ∃ w b l, s = w ++ 44 :: (b ++ l) ∧ w ≠ [] ∧ (∀ c ∈ w, IsDigit c) ∧ Blank b ∧ CodeText l ∧ v = decVal w % 256 + 256 * leVal l := by
  obtain ⟨w, r, rfl, hw, hr⟩ := digits_split s
  unfold stringToSymbol
  rw [precisionLoop_eq hw hr (by decide)]
  simp only [Bool.false_or, Bool.not_not]
  constructor
  · intro h
    cases w with
    | nil => simp at h
    | cons x w =>
      cases r with
      | nil => simp at h
      | cons c r =>
        simp only [List.isEmpty_cons, Bool.false_eq_true, if_false] at h
        by_cases hc : c = 44
        · subst hc
          simp only [ne_eq, not_true_eq_false, if_false, Option.map_eq_some_iff] at h
          obtain ⟨code, h1, rfl⟩ := h
          obtain ⟨b, l, rfl, hb, hl, rfl⟩ := c07_code_parse.1 h1
          exact ⟨x :: w, b, l, rfl, by simp, hw, hb, hl, pack_symbol (codeText_lt hl) (Nat.mod_lt _ (by decide))⟩
        · simp [hc] at h
  · rintro ⟨w', b, l, hs, hne, hw', hb, hl, rfl⟩
    have : w = w' ∧ r = 44 :: (b ++ l) := by
      clear hne
      induction w generalizing w' with
      | nil =>
        cases w' with
        | nil => exact ⟨rfl, by simpa using hs⟩
        | cons x w' =>
          simp only [List.nil_append, List.cons_append] at hs
          exact absurd (hw' x (by simp)) (hr x _ hs)
      | cons y w ih =>
        cases w' with
        | nil =>
          simp only [List.nil_append, List.cons_append, List.cons.injEq] at hs
          have := hw y (by simp)
          rw [hs.1] at this
          exact absurd this (by decide)
        | cons x w' =>
          simp only [List.cons_append, List.cons.injEq] at hs
          obtain ⟨rfl, hs⟩ := hs
          obtain ⟨rfl, h2⟩ := ih (fun a ha => hw a (by simp [ha])) w' hs (fun a ha => hw' a (by simp [ha]))
          exact ⟨rfl, h2⟩
    obtain ⟨rfl, rfl⟩ := this
    cases w with
    | nil => exact absurd rfl hne
    | cons x w =>
      have h1 : stringToSymbolCode (b ++ l) = some (leVal l) := c07_code_parse.2 ⟨b, l, rfl, hb, hl, rfl⟩
      simp only [List.isEmpty_cons, Bool.false_eq_true, if_false, ne_eq, not_true_eq_false, h1, Option.map_some]
      exact congrArg some (pack_symbol (codeText_lt hl) (Nat.mod_lt _ (by decide)))

/-- A symbol with precision `p` and code `l` prints as `p,l`. -/
theorem c07_symbol_print {p : Nat} {l : Bytes} (hp : p < 256) (hl : CodeText l) :
    ∃ w, IsDecimal w p ∧ symbolToString (p + 256 * leVal l) = w ++ 44 :: l := by
  refine ⟨(decRev p).reverse, natDec_isDecimal p, ?_⟩
  unfold symbolToString
  rw [and_ff, shr8, show (p + 256 * leVal l) % 256 = p by omega, show (p + 256 * leVal l) / 256 = leVal l by omega,
    c07_code_print hl.2.2]

/-- Printing a symbol and reading the text gives it back. -/
theorem c07_symbol_roundtrip {p : Nat} {l : Bytes} (hp : p < 256) (hl : CodeText l) :
    stringToSymbol (symbolToString (p + 256 * leVal l)) = some (p + 256 * leVal l) := by
  obtain ⟨w, hw, h⟩ := c07_symbol_print hp hl
  rw [h, c07_symbol_parse]
  exact ⟨w, [], l, rfl, hw.1, hw.2.1, by simp [Blank], hl, by rw [hw.2.2, Nat.mod_eq_of_lt hp]⟩

example : stringToSymbol (symbolToString (4 + 256 * leVal (str "SYS"))) = some 1398362884 := by
  rw [c07_symbol_roundtrip (by decide) (by decide)]; decide +kernel

/-- The precision wraps around: `260,SYS` is read as `4,SYS`. -/
example : stringToSymbol (str "260,SYS") = some 1398362884 := by decide +kernel

theorem restIsZero_iff {k v : Nat} (h : v / 256 < 256 ^ k) : restIsZero v k = true ↔ v / 256 = 0 := by
  induction k generalizing v with
  | zero => simp [restIsZero]; omega
  | succ k ih =>
    rw [restIsZero, and_ff, shr8]
    split
    · simp; omega
    · rw [ih (by rw [Nat.pow_succ] at h; omega)]
      omega

theorem isValidLoop_iff {k v : Nat} (hk : k ≤ 7) (h : v < 256 ^ (k + 1)) : isValidLoop v k = true ↔
    k = 0 ∨ (∃ l, 1 ≤ l.length ∧ l.length < k ∧ (∀ c ∈ l, IsUpper c) ∧ v = leVal l) ∨
      ∃ l b, l.length = k ∧ (∀ c ∈ l, IsUpper c) ∧ v = leVal l + 256 ^ k * b := by
  induction k generalizing v with
  | zero => simp [isValidLoop]
  | succ k ih =>
    rw [isValidLoop, and_ff, shr8, and_ff]
    have hb : v % 256 < 256 := Nat.mod_lt _ (by decide)
    have hlt : v / 256 < 256 ^ (k + 1) := by rw [Nat.pow_succ] at h; omega
    have hto : (UInt8.ofNat (v % 256)).toNat = v % 256 := by simp
    have hcons : ∀ l : Bytes, (∀ c ∈ l, IsUpper c) → IsUpper (UInt8.ofNat (v % 256)) → ∀ c ∈ UInt8.ofNat (v % 256) :: l, IsUpper c := by
      intro l hl hu c hc
      rcases List.mem_cons.1 hc with rfl | hc
      · exact hu
      · exact hl c hc
    by_cases hu : IsUpper (UInt8.ofNat (v % 256))
    · simp only [isLetter_iff.2 hu, Bool.not_true, Bool.false_eq_true, if_false]
      split
      · rename_i hz
        rw [restIsZero_iff (by rw [Nat.pow_succ] at hlt ⊢; omega)]
        constructor
        · intro hzz
          have hv : v = leVal [UInt8.ofNat (v % 256)] := by simp [leVal, hto]; omega
          cases k with
          | zero => exact .inr (.inr ⟨[UInt8.ofNat (v % 256)], 0, rfl, hcons [] (by simp) hu, by simpa using hv⟩)
          | succ k => exact .inr (.inl ⟨[UInt8.ofNat (v % 256)], by simp, by simp, hcons [] (by simp) hu, hv⟩)
        · rintro (h0 | ⟨l, h1, h2, h3, h4⟩ | ⟨l, b, h1, h2, h3⟩)
          · omega
          · cases l with
            | nil => simp at h1
            | cons c l =>
              rw [leVal] at h4
              have := c.toNat_lt
              cases l with
              | nil => simp [leVal] at h4; omega
              | cons d l =>
                have hd : IsUpper d := h3 d (by simp)
                rw [leVal] at h4
                have := d.toNat_lt
                unfold IsUpper at hd
                omega
          · cases l with
            | nil => simp at h1
            | cons c l =>
              rw [leVal] at h3
              have := c.toNat_lt
              cases l with
              | nil =>
                simp at h1
                subst h1
                simp [leVal] at h3
                have : v / 256 = b := by omega
                have : b < 256 := by simp at hlt; omega
                omega
              | cons d l =>
                have hd : IsUpper d := h2 d (by simp)
                rw [leVal] at h3
                have := d.toNat_lt
                unfold IsUpper at hd
                have hk2 : ∃ j, k = j + 1 := by
                  simp at h1; exact ⟨k - 1, by omega⟩
                obtain ⟨j, rfl⟩ := hk2
                have e : 256 ^ (j + 1 + 1) * b = 256 * (256 * (256 ^ j * b)) := by rw [Nat.pow_succ, Nat.pow_succ]; ring
                rw [e] at h3
                omega
      · rename_i hz
        rw [ih (by omega) hlt]
        constructor
        · rintro (rfl | ⟨l, h1, h2, h3, h4⟩ | ⟨l, b, h1, h2, h3⟩)
          · exact .inr (.inr ⟨[UInt8.ofNat (v % 256)], v / 256, rfl, hcons [] (by simp) hu, by simp [leVal, hto]; omega⟩)
          · exact .inr (.inl ⟨UInt8.ofNat (v % 256) :: l, by simp, by simp; omega, hcons l h3 hu, by rw [leVal, hto, ← h4]; omega⟩)
          · exact .inr (.inr ⟨UInt8.ofNat (v % 256) :: l, b, by simp [h1], hcons l h2 hu, by
              rw [leVal, hto, Nat.pow_succ]
              have : 256 ^ k * 256 * b = 256 * (256 ^ k * b) := by ring
              omega⟩)
        · rintro (h0 | ⟨l, h1, h2, h3, h4⟩ | ⟨l, b, h1, h2, h3⟩)
          · omega
          · cases l with
            | nil => simp at h1
            | cons c l =>
              rw [leVal] at h4
              have := c.toNat_lt
              cases l with
              | nil => simp [leVal] at h4; omega
              | cons d l =>
                exact .inr (.inl ⟨d :: l, by simp, by simp at h2 ⊢; omega, fun a ha => h3 a (by simp at ha ⊢; right; exact ha), by omega⟩)
          · cases l with
            | nil => simp at h1
            | cons c l =>
              rw [leVal] at h3
              have := c.toNat_lt
              by_cases hk0 : k = 0
              · exact .inl hk0
              · refine .inr (.inr ⟨l, b, by simpa using h1, fun a ha => h2 a (by simp [ha]), ?_⟩)
                rw [Nat.pow_succ] at h3
                have : 256 ^ k * 256 * b = 256 * (256 ^ k * b) := by ring
                omega
    · have : isLetter (UInt8.ofNat (v % 256)) = false := by
        cases h : isLetter (UInt8.ofNat (v % 256))
        · rfl
        · exact absurd (isLetter_iff.1 h) hu
      simp only [this, Bool.not_false, if_true, Bool.false_eq_true, false_iff]
      have hmod : ∀ (c : UInt8) (x : Nat), v = c.toNat + 256 * x → IsUpper c → False := by
        intro c x hx hc
        have := c.toNat_lt
        have hce : c = UInt8.ofNat (v % 256) := by
          apply uint8_ext
          rw [hto]; omega
        exact hu (hce ▸ hc)
      rintro (h0 | ⟨l, h1, h2, h3, h4⟩ | ⟨l, b, h1, h2, h3⟩)
      · omega
      · cases l with
        | nil => simp at h1
        | cons c l => exact hmod c _ (by rw [leVal] at h4; exact h4) (h3 c (by simp))
      · cases l with
        | nil => simp at h1
        | cons c l =>
          refine hmod c (leVal l + 256 ^ k * b) ?_ (h2 c (by simp))
          rw [h3, leVal, Nat.pow_succ]; ring

/-- `symbol::is_valid` holds exactly when the code is 1 to 7 letters followed only by zero bytes. -/
theorem c07_symbol_is_valid {v : Nat} (h : v < 2 ^ 64) :
    symbolIsValid v = true ↔ ∃ p l, p < 256 ∧ CodeText l ∧ v = p + 256 * leVal l := by
  unfold symbolIsValid symbolCodeIsValid
  rw [shr8, isValidLoop_iff (by decide) (by omega)]
  constructor
  · rintro (h0 | ⟨l, h1, h2, h3, h4⟩ | ⟨l, b, h1, h2, h3⟩)
    · omega
    · exact ⟨v % 256, l, Nat.mod_lt _ (by decide), ⟨h1, by omega, h3⟩, by omega⟩
    · have hb : b = 0 := by
        have := leVal_lt l
        apply Nat.eq_zero_of_not_pos
        intro hb
        have : 256 ^ 7 * 1 ≤ 256 ^ 7 * b := Nat.mul_le_mul_left _ hb
        omega
      subst hb
      exact ⟨v % 256, l, Nat.mod_lt _ (by decide), ⟨by omega, by omega, h2⟩, by simp at h3; omega⟩
  · rintro ⟨p, l, hp, ⟨h1, h2, h3⟩, rfl⟩
    have e : (p + 256 * leVal l) / 256 = leVal l := by omega
    rw [e]
    by_cases h7 : l.length = 7
    · exact .inr (.inr ⟨l, 0, h7, h3, by simp⟩)
    · exact .inr (.inl ⟨l, h1, by omega, h3, rfl⟩)

/-- `symbol_code::is_valid` holds exactly when the bytes are 1 to 6 letters followed only by zero bytes, or 7 letters and
*any* eighth byte. -/
theorem c07_symbol_code_is_valid {v : Nat} (h : v < 2 ^ 64) :
    symbolCodeIsValid v = true ↔ (∃ l, CodeText l ∧ v = leVal l) ∨
      ∃ l b, l.length = 7 ∧ CodeText l ∧ b < 256 ∧ v = leVal l + 256 ^ 7 * b := by
  unfold symbolCodeIsValid
  rw [isValidLoop_iff (by decide) (by omega)]
  constructor
  · rintro (h0 | ⟨l, h1, h2, h3, h4⟩ | ⟨l, b, h1, h2, h3⟩)
    · omega
    · exact .inl ⟨l, ⟨h1, by omega, h3⟩, h4⟩
    · refine .inr ⟨l, b, h1, ⟨by omega, by omega, h2⟩, ?_, h3⟩
      apply Nat.lt_of_not_le
      intro hb
      have : 256 ^ 7 * 256 ≤ 256 ^ 7 * b := Nat.mul_le_mul_left _ hb
      omega
  · rintro (⟨l, ⟨h1, h2, h3⟩, rfl⟩ | ⟨l, b, h1, ⟨-, -, h2⟩, -, h3⟩)
    · by_cases h7 : l.length = 7
      · exact .inr (.inr ⟨l, 0, h7, h3, by simp⟩)
      · exact .inr (.inl ⟨l, h1, by omega, h3, rfl⟩)
    · exact .inr (.inr ⟨l, b, h1, h2, h3⟩)

/-- so an invalid code is called valid: seven letters and a non-zero eighth byte, which prints as eight characters -/
example : symbolCodeIsValid (leVal (str "AAAAAAA!")) = true ∧ ¬ CodeText (str "AAAAAAA!") := by decide

/-- `length` is the number of letters. -/
theorem c07_length {l : Bytes} (h : CodeText l) : symbolCodeLength (leVal l) = l.length := by
  obtain ⟨-, h2, h3⟩ := h
  have key : ∀ (l : Bytes) (len k : Nat), l.length < k → (∀ c ∈ l, IsUpper c) → symbolLengthLoop (leVal l) len k = len + l.length := by
    intro l
    induction l with
    | nil =>
      intro len k hk _
      cases k with
      | zero => simp at hk
      | succ k => simp [symbolLengthLoop, leVal]
    | cons c l ih =>
      intro len k hk hl
      cases k with
      | zero => simp at hk
      | succ k =>
        have hc : IsUpper c := hl c (by simp)
        have := c.toNat_lt
        unfold IsUpper at hc
        rw [symbolLengthLoop, and_ff, shr8, leVal, if_pos (by omega), show (c.toNat + 256 * leVal l) / 256 = leVal l by omega,
          ih _ _ (by simpa using hk) (fun a ha => hl a (by simp [ha]))]
        simp; omega
  unfold symbolCodeLength
  rw [key l 0 8 (by omega) h3]
  omega

/-- The constructor from a text accepts up to 7 upper-case letters (also the empty text) and agrees with the parser. -/
theorem c07_ctor {s : Bytes} {v : Nat} : symbolCodeCtor s = .ok v ↔ s.length ≤ 7 ∧ (∀ c ∈ s, IsUpper c) ∧ v = leVal s := by
  have key : ∀ (s t : Bytes) (v : Nat), symbolCodeCtorLoop (leVal t) s = .ok v ↔ (∀ c ∈ s, IsUpper c) ∧ v = leVal (s.reverse ++ t) := by
    intro s
    induction s with
    | nil => intro t v; simp [symbolCodeCtorLoop, eq_comm]
    | cons c s ih =>
      intro t v
      rw [symbolCodeCtorLoop]
      by_cases hc : IsUpper c
      · have e : (leVal t <<< 8) ||| c.toNat = leVal (c :: t) := by
          rw [Nat.or_comm, show (8 : Nat) = 8 * 1 from rfl, or_shift (by have := c.toNat_lt; omega), leVal]; simp
        rw [if_pos (isLetter_iff.2 hc), e, ih]
        simp [hc]
      · rw [if_neg (fun h => hc (isLetter_iff.1 h))]
        simp [hc]
  unfold symbolCodeCtor
  split
  · simp; omega
  · rw [show (0 : Nat) = leVal [] from rfl, key]
    simp
    omega

/-! ## C08 -/

theorem amountStep_eq (u : Nat) (c : UInt8) : amountStep u c = (u * 10 + digitVal c) % 2 ^ 64 := by
  rw [digitVal_eq]; unfold amountStep; rfl

theorem amountLoop_eq {u n : Nat} {w r : Bytes} (hw : ∀ c ∈ w, IsDigit c) (hr : ∀ c r', r = c :: r' → ¬ IsDigit c)
    (hu : u < 2 ^ 64) : amountLoop u n (w ++ r) = (decFrom u w % 2 ^ 64, n + w.length, r) := by
  induction w generalizing u n with
  | nil =>
    cases r with
    | nil => simp only [List.append_nil, amountLoop, decFrom, Nat.mod_eq_of_lt hu]; simp
    | cons c r =>
      have : ¬ isDigitC c = true := fun h => hr c r rfl (isDigitC_iff.1 h)
      simp only [List.nil_append, amountLoop, decFrom, Nat.mod_eq_of_lt hu, if_neg this]; simp
  | cons c w ih =>
    have := isDigitC_iff.2 (hw c (by simp))
    rw [List.cons_append, amountLoop, if_pos this, amountStep_eq, ih (fun a ha => hw a (by simp [ha])) (Nat.mod_lt _ (by decide)), decFrom]
    have hm : decFrom ((u * 10 + digitVal c) % 2 ^ 64) w % 2 ^ 64 = decFrom (u * 10 + digitVal c) w % 2 ^ 64 := by
      rw [decFrom_eq, decFrom_eq (u * 10 + digitVal c), Nat.add_mod, Nat.mul_mod, Nat.mod_mod, ← Nat.mul_mod, ← Nat.add_mod]
    rw [hm]
    simp; omega

/-- The value of an asset text, with the C++ reduction to 64 bits. -/
def signed64 (neg : Bool) (n : Nat) : Int := toI64 (if neg then (2 ^ 64 - n % 2 ^ 64) % 2 ^ 64 else n % 2 ^ 64)

theorem asset_body {s w f T : Bytes} {v : Nat} {neg pt : Bool} (hw : ∀ c ∈ w, IsDigit c) (hf : ∀ c ∈ f, IsDigit c)
    (hpt : pt = false → f = []) (hcode : stringToSymbolCode T = some v) (hv : v < 256 ^ 7)
    (htail : ∀ c r, T = c :: r → ¬ IsDigit c ∧ c ≠ 46 ∧ c ≠ 45)
    (hs : skipBlanks s = (if neg then [45] else []) ++ (w ++ ((if pt then 46 :: f else []) ++ T))) :
    stringToAsset s = some (signed64 neg (decVal (w ++ f)), f.length % 256 + 256 * v) := by
  have hfrac : ∀ u, u < 2 ^ 64 → assetFraction u ((if pt then 46 :: f else []) ++ T) = (decFrom u f % 2 ^ 64, f.length, T) := by
    intro u hu
    cases pt with
    | false =>
      rw [hpt rfl]
      cases T with
      | nil => simp only [Bool.false_eq_true, if_false, List.append_nil, decFrom, Nat.mod_eq_of_lt hu, assetFraction]; rfl
      | cons c T =>
        have := (htail c T rfl).2.1
        simp only [Bool.false_eq_true, if_false, List.nil_append, assetFraction, if_neg this, decFrom, Nat.mod_eq_of_lt hu]
        rfl
    | true =>
      simp only [if_true, List.cons_append, assetFraction]
      rw [amountLoop_eq hf (fun c r h => (htail c r h).1) hu]
      simp
  have hwhole : ∀ c r', (if pt then 46 :: f else []) ++ T = c :: r' → ¬ IsDigit c := by
    intro c r' h
    cases pt with
    | false => simp only [Bool.false_eq_true, if_false, List.nil_append] at h; exact (htail c r' h).1
    | true => simp at h; rw [← h.1]; decide
  have hbody : ∀ c r', (w ++ ((if pt then 46 :: f else []) ++ T)) = c :: r' → c ≠ 45 := by
    intro c r' h
    cases w with
    | cons x w =>
      have hx := hw x (by simp)
      simp at h
      rw [← h.1]
      rintro rfl
      exact absurd hx (by decide)
    | nil =>
      cases pt with
      | false => simp only [Bool.false_eq_true, if_false, List.nil_append] at h; exact (htail c r' h).2.2
      | true => simp at h; rw [← h.1]; decide
  have hsign : assetSign (skipBlanks s) = (neg, w ++ ((if pt then 46 :: f else []) ++ T)) := by
    rw [hs]
    cases neg with
    | true => simp [assetSign]
    | false =>
      simp only [Bool.false_eq_true, if_false, List.nil_append]
      cases h : w ++ ((if pt then 46 :: f else []) ++ T) with
      | nil => rfl
      | cons c r => rw [assetSign, if_neg (hbody c r h)]
  unfold stringToAsset
  simp only [hsign, amountLoop_eq hw hwhole (show 0 < 2 ^ 64 by decide), hfrac _ (Nat.mod_lt _ (show 0 < 2 ^ 64 by decide)), hcode]
  have hm : decFrom (decFrom 0 w % 2 ^ 64) f % 2 ^ 64 = decVal (w ++ f) % 2 ^ 64 := by
    rw [decVal, decFrom_append, decFrom_eq, decFrom_eq (decFrom 0 w), Nat.add_mod, Nat.mul_mod, Nat.mod_mod, ← Nat.mul_mod, ← Nat.add_mod]
  rw [hm, pack_symbol hv (Nat.mod_lt _ (by decide))]
  rfl

/-- Texts of the form blanks, an optional minus sign, digits, optionally a point and digits, blanks, 1 to 7 letters are
accepted. The number of digits after the point gives the precision; the amount is the number without the point. -/
theorem c08_parse {b w f b' l : Bytes} {neg pt : Bool} (hb : Blank b) (hw : ∀ c ∈ w, IsDigit c) (hf : ∀ c ∈ f, IsDigit c)
    (hpt : pt = false → f = []) (hb' : Blank b') (hl : CodeText l) :
    stringToAsset (b ++ ((if neg then [45] else []) ++ (w ++ ((if pt then 46 :: f else []) ++ (b' ++ l))))) =
      some (signed64 neg (decVal (w ++ f)), f.length % 256 + 256 * leVal l) := by
  obtain ⟨l1, l2, l3⟩ := hl
  have htail : ∀ b'', Blank b'' → ∀ c r, b'' ++ l = c :: r → ¬ IsDigit c ∧ c ≠ 46 ∧ c ≠ 45 := by
    intro b'' hb'' c r h
    have : c ∈ b'' ++ l := by rw [h]; simp
    rcases List.mem_append.1 this with h1 | h1
    · rw [hb'' c h1]; decide
    · have := isUpper_ne (l3 c h1); exact ⟨this.2.2.2, this.2.2.1, this.2.1⟩
  by_cases hA : neg = false ∧ w = [] ∧ pt = false
  · obtain ⟨rfl, rfl, rfl⟩ := hA
    obtain rfl := hpt rfl
    refine asset_body (neg := false) (pt := false) (w := []) (f := []) (T := l) (by simp) (by simp) (by simp)
      (c07_code_parse.2 ⟨[], l, rfl, by simp [Blank], ⟨l1, l2, l3⟩, rfl⟩) (codeText_lt ⟨l1, l2, l3⟩) (htail [] (by simp [Blank])) ?_
    simp only [Bool.false_eq_true, if_false, List.nil_append]
    rw [← List.append_assoc]
    apply skipBlanks_blank
    · intro c hc
      rcases List.mem_append.1 hc with h | h
      · exact hb c h
      · exact hb' c h
    · exact fun c r e => (isUpper_ne (l3 c (by simp [e]))).1
  · refine asset_body hw hf hpt (c07_code_parse.2 ⟨b', l, rfl, hb', ⟨l1, l2, l3⟩, rfl⟩) (codeText_lt ⟨l1, l2, l3⟩) (htail b' hb') ?_
    apply skipBlanks_blank hb
    rintro c r h rfl
    apply hA
    cases neg with
    | true => simp at h
    | false =>
      cases w with
      | cons x w =>
        have hx := hw x (by simp)
        simp at h
        rw [h.1] at hx
        exact absurd hx (by decide)
      | nil =>
        cases pt with
        | true => simp at h
        | false => simp

/-- Only such texts are accepted. -/
theorem c08_parse_only {s : Bytes} {r : Int × Nat} (h : stringToAsset s = some r) :
    ∃ (b w f b' l : Bytes) (neg pt : Bool), Blank b ∧ (∀ c ∈ w, IsDigit c) ∧ (∀ c ∈ f, IsDigit c) ∧ (pt = false → f = []) ∧ Blank b' ∧ CodeText l ∧
      s = b ++ ((if neg then [45] else []) ++ (w ++ ((if pt then 46 :: f else []) ++ (b' ++ l)))) := by
  obtain ⟨b, hb, hs, hns⟩ := skipBlanks_eq s
  generalize skipBlanks s = X at *
  subst hs
  -- sign
  obtain ⟨neg, Y, hY, hneg⟩ : ∃ (neg : Bool) (Y : Bytes), X = (if neg then [45] else []) ++ Y ∧ (neg = false → ∀ c r, Y = c :: r → c ≠ 45) := by
    cases X with
    | nil => exact ⟨false, [], rfl, by simp⟩
    | cons c X =>
      by_cases hc : c = 45
      · exact ⟨true, X, by simp [hc], by simp⟩
      · exact ⟨false, c :: X, rfl, by rintro - a r h; injection h with h; exact h ▸ hc⟩
  obtain ⟨w, Z, rfl, hw, hZ⟩ := digits_split Y
  obtain ⟨pt, f, T, hT, hf, hpt, hTd⟩ : ∃ (pt : Bool) (f T : Bytes), Z = (if pt then 46 :: f else []) ++ T ∧ (∀ c ∈ f, IsDigit c) ∧
      (pt = false → f = []) ∧ (∀ c r, T = c :: r → ¬ IsDigit c ∧ (pt = false → c ≠ 46)) := by
    cases Z with
    | nil => exact ⟨false, [], [], rfl, by simp, by simp, by simp⟩
    | cons c Z =>
      by_cases hc : c = 46
      · obtain ⟨f, T, rfl, h1, h2⟩ := digits_split Z
        exact ⟨true, f, T, by simp [hc], h1, by simp, fun a r h => ⟨h2 a r h, by simp⟩⟩
      · exact ⟨false, [], c :: Z, rfl, by simp, by simp, fun a r h => ⟨hZ a r h, fun _ => by injection h with h; exact h ▸ hc⟩⟩
  subst hT hY
  have hsk : skipBlanks (b ++ ((if neg then [45] else []) ++ (w ++ ((if pt then 46 :: f else []) ++ T)))) =
      (if neg then [45] else []) ++ (w ++ ((if pt then 46 :: f else []) ++ T)) := skipBlanks_blank hb hns
  have hcode : ∃ v, stringToSymbolCode T = some v := by
    unfold stringToAsset at h
    rw [hsk] at h
    have hsign : assetSign ((if neg then [45] else []) ++ (w ++ ((if pt then 46 :: f else []) ++ T))) = (neg, w ++ ((if pt then 46 :: f else []) ++ T)) := by
      cases neg with
      | true => simp [assetSign]
      | false =>
        simp only [Bool.false_eq_true, if_false, List.nil_append]
        cases h' : w ++ ((if pt then 46 :: f else []) ++ T) with
        | nil => rfl
        | cons c r => rw [assetSign, if_neg (hneg rfl c r h')]
    have hfrac : ∀ u, u < 2 ^ 64 → assetFraction u ((if pt then 46 :: f else []) ++ T) = (decFrom u f % 2 ^ 64, f.length, T) := by
      intro u hu
      cases pt with
      | false =>
        rw [hpt rfl]
        cases T with
        | nil => simp only [Bool.false_eq_true, if_false, List.append_nil, decFrom, Nat.mod_eq_of_lt hu, assetFraction]; rfl
        | cons c T =>
          have := (hTd c T rfl).2 rfl
          simp only [Bool.false_eq_true, if_false, List.nil_append, assetFraction, if_neg this, decFrom, Nat.mod_eq_of_lt hu]
          rfl
      | true =>
        simp only [if_true, List.cons_append, assetFraction]
        rw [amountLoop_eq hf (fun c r h => (hTd c r h).1) hu]
        simp
    simp only [hsign, amountLoop_eq hw hZ (show 0 < 2 ^ 64 by decide), hfrac _ (Nat.mod_lt _ (show 0 < 2 ^ 64 by decide))] at h
    cases hv : stringToSymbolCode T with
    | none => rw [hv] at h; simp at h
    | some v => exact ⟨v, rfl⟩
  obtain ⟨v, hv⟩ := hcode
  obtain ⟨b', l, rfl, hb', hl, -⟩ := c07_code_parse.1 hv
  exact ⟨b, w, f, b', l, neg, pt, hb, hw, hf, hpt, hb', hl, rfl⟩

theorem fractionDigits_eq (u p : Nat) : (fractionDigits u p).1.length = p ∧ (∀ c ∈ (fractionDigits u p).1, IsDigit c) ∧
    decVal (fractionDigits u p).1.reverse = u % 10 ^ p ∧ (fractionDigits u p).2 = u / 10 ^ p := by
  induction p generalizing u with
  | zero => simp [fractionDigits, decVal, decFrom, Nat.mod_one]
  | succ p ih =>
    obtain ⟨h1, h2, h3, h4⟩ := ih (u / 10)
    refine ⟨by simp [fractionDigits, h1], ?_, ?_, ?_⟩
    · simp only [fractionDigits, List.mem_cons]
      rintro c (rfl | hc)
      · exact digit_isDigit (Nat.mod_lt _ (by decide))
      · exact h2 c hc
    · simp only [fractionDigits, List.reverse_cons]
      rw [decVal_snoc, h3, digit_toNat (Nat.mod_lt _ (by decide)), Nat.pow_succ, Nat.mul_comm (10 ^ p) 10, Nat.mod_mul]
      omega
    · simp only [fractionDigits]
      rw [h4, Nat.div_div_eq_div_mul, Nat.pow_succ, Nat.mul_comm 10]

/-- The text of an asset is the exact decimal number `amount / 10^p` with `p` digits after the point (no point if `p` is
0), a blank and the code. -/
theorem c08_print {a : Int} {p : Nat} {l : Bytes} (ha : -2 ^ 63 < a) (hp : p < 256) (hl : CodeText l) :
    ∃ w f, IsDecimal w (a.natAbs / 10 ^ p) ∧ f.length = p ∧ (∀ c ∈ f, IsDigit c) ∧ decVal f = a.natAbs % 10 ^ p ∧
      assetToString a (p + 256 * leVal l) = .ok ((if a < 0 then [45] else []) ++ (w ++ ((if p ≠ 0 then 46 :: f else []) ++ 32 :: l))) := by
  obtain ⟨h1, h2, h3, h4⟩ := fractionDigits_eq a.natAbs p
  refine ⟨(decRev (a.natAbs / 10 ^ p)).reverse, (fractionDigits a.natAbs p).1.reverse, natDec_isDecimal _, by simpa using h1,
    fun c hc => h2 c (by simpa using hc), h3, ?_⟩
  unfold assetToString
  rw [if_neg (by omega), shr8, show (p + 256 * leVal l) % 256 = p by omega, show (p + 256 * leVal l) / 256 = leVal l by omega,
    c07_code_print hl.2.2]
  simp only [h4]
  congr 1
  split <;> split <;> simp

/-- Printing an asset and reading the text gives back amount and symbol: every 64-bit amount but the smallest (for which
printing is undefined), every precision, every symbol code. -/
theorem c08_roundtrip {a : Int} {p : Nat} {l : Bytes} (ha : -2 ^ 63 < a) (ha' : a < 2 ^ 63) (hp : p < 256) (hl : CodeText l) :
    ∃ t, assetToString a (p + 256 * leVal l) = .ok t ∧ stringToAsset t = some (a, p + 256 * leVal l) := by
  obtain ⟨w, f, hw, hfl, hf, hfv, h⟩ := c08_print ha hp hl
  refine ⟨_, h, ?_⟩
  have := c08_parse (b := []) (b' := [32]) (w := w) (f := f) (l := l) (neg := decide (a < 0)) (pt := decide (p ≠ 0)) (by simp [Blank]) hw.2.1
    hf (fun h0 => by simp at h0; subst h0; exact List.length_eq_zero_iff.1 hfl) (by simp [Blank]) hl
  simp only [List.nil_append, List.singleton_append, decide_eq_true_eq] at this
  rw [this, hfl, Nat.mod_eq_of_lt hp]
  have hd : decVal (w ++ f) = a.natAbs := by
    rw [decVal, decFrom_append, decFrom_eq, hfv, hfl, show decFrom 0 w = decVal w from rfl, hw.2.2, Nat.mul_comm]
    exact Nat.div_add_mod _ _
  have : signed64 (decide (a < 0)) (decVal (w ++ f)) = a := by
    rw [hd]
    unfold signed64 toI64
    by_cases h0 : a < 0
    · simp only [h0, decide_true, if_true]
      rw [Nat.mod_eq_of_lt (a := a.natAbs) (by omega), Nat.mod_eq_of_lt (by omega), if_neg (by omega)]
      omega
    · simp only [h0, decide_false, Bool.false_eq_true, if_false]
      rw [Nat.mod_eq_of_lt (a := a.natAbs) (by omega), if_pos (by omega)]
      omega
  rw [this]

example : ∃ t, assetToString (-4611686018427387904) (200 + 256 * leVal (str "SYS")) = .ok t ∧
    stringToAsset t = some (-4611686018427387904, 200 + 256 * leVal (str "SYS")) :=
  c08_roundtrip (by decide) (by decide) (by decide) (by decide)

/-- The amount wraps around modulo 2^64, and the digits may be missing. -/
example : stringToAsset (str "18446744073709551617 SYS") = some (1, 1398362880) ∧ stringToAsset (str "SYS") = some (0, 1398362880) ∧
    stringToAsset (str "-0.0500 SYS") = some (-500, 1398362884) := by decide +kernel

end Abieos
