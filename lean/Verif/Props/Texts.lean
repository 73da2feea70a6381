import Verif.Proofs.ShownKey
/-
C01, C04, C07, C08, C11, C16, C18: what is read and printed, exactly.
-/
namespace Abieos
open Spec

/-- **C01, exactly.** A 32-bit number is read from a LEB128 form of at most five bytes, which need not be the shortest; bits beyond the 32nd are dropped. Nothing else is
read, and what follows is left. -/
theorem c01_varuint32_exact (bin r : Bytes) (v : Nat) : varuint32FromBin bin = .ok (v, r) ↔ ∃ b, bin = b ++ r ∧ VarRead 32 5 v b := varuint32_iff

/-- **C01, exactly.** The same for 64-bit numbers and ten bytes. -/
theorem c01_varuint64_exact (bin r : Bytes) (v : Nat) : varuint64FromBin bin = .ok (v, r) ↔ ∃ b, bin = b ++ r ∧ VarRead 64 10 v b := varuint64_iff

/-- **C02, exactly.** A signed number is read as the unsigned number that stands for it. -/
theorem c02_varint32_exact (bin r : Bytes) (v : Int) : (∃ x, varint32FromBin bin = .ok (x, r) ∧ x.toInt = v) ↔
    -(2 ^ 31) ≤ v ∧ v < 2 ^ 31 ∧ ∃ b, bin = b ++ r ∧ VarRead 32 5 (if 0 ≤ v then 2 * v else -2 * v - 1).toNat b := by
  unfold varint32FromBin
  constructor
  · rintro ⟨x, h, rfl⟩
    obtain ⟨⟨n, r'⟩, h0, h1⟩ := bind_eq_ok.1 h
    cases h1
    obtain ⟨b, rfl, h2⟩ := varuint32_iff.1 h0
    have b1 : -(2 ^ 31) ≤ (unzigzag (BitVec.ofNat 32 n)).toInt := by have := (unzigzag (BitVec.ofNat 32 n)).le_toInt; simpa using this
    have b2 : (unzigzag (BitVec.ofNat 32 n)).toInt < 2 ^ 31 := by have := (unzigzag (BitVec.ofNat 32 n)).toInt_lt; simpa using this
    refine ⟨b1, b2, b, rfl, ?_⟩
    have e := (unzigzag_nat _ b1 b2 n (varRead_lt h2)).1 rfl
    rw [← e]
    exact h2
  · rintro ⟨b1, b2, b, rfl, h2⟩
    rw [(varuint32_iff (r := r)).2 ⟨b, rfl, h2⟩]
    exact ⟨_, rfl, (unzigzag_nat v b1 b2 _ (varRead_lt h2)).2 rfl⟩

/-- **C04, exactly.** The text of a name is the one valid name text that spells it and does not end with a dot. -/
theorem c04_text_exact (v : Nat) (hv : v < 2 ^ 64) (s : Bytes) : nameToString v = s ↔ ValidNameText s ∧ nameBits 0 s = v ∧ s.getLast? ≠ some 46 := by
  rw [eq_comm]; exact (nameShown_iff hv).symm

/-- **C07, exactly.** The text of a symbol code is the string of its bytes, lowest first, without zeros at the end. -/
theorem c07_code_text_exact (v : Nat) (s : Bytes) : symbolCodeToString v = s ↔ leVal s = v ∧ s.getLast? ≠ some 0 := by
  rw [eq_comm]; exact codeShown_iff.symm

/-- **C08, exactly.** The text of an asset. -/
theorem c08_text_exact (a : Int) (ha : a ≠ -2 ^ 63) (sym : Nat) (s : Bytes) : assetToString a sym = .ok s ↔ AssetShown a (sym % 256) (sym / 256) s :=
  (assetShown_iff ha).symm

/-- **C11, exactly.** The text of a time, for all times. -/
theorem c11_text_exact (us : Int) (s : Bytes) : microsecondsToStr us = s ↔ TimeShown us s := by
  rw [eq_comm]; exact timeShown_iff.symm

/-- **C16, exactly.** The text of an integer: digits without leading zeros, a minus sign before negative numbers, quotes for types wider than four bytes. -/
theorem c16_text_exact (t : IntTy) (n : Nat) (hn : n = 1 ∨ n = 2 ∨ n = 4 ∨ n = 8 ∨ n = 16) (ht : t.bits = 8 * n) (v : Int)
    (hv : if t.signed then -(2 ^ (8 * n - 1)) ≤ v ∧ v < 2 ^ (8 * n - 1) else 0 ≤ v ∧ v < 2 ^ (8 * n)) (s : Bytes) : intToJson t v = s ↔ IntShown n v s := by
  have hs : t.Std := by unfold IntTy.Std; omega
  have hi : t.In v := by
    unfold IntTy.In IntTy.min IntTy.max
    rw [ht]
    split at hv <;> rename_i hsg
    · rw [if_pos hsg, if_pos hsg]; exact ⟨hv.1, by omega⟩
    · rw [if_neg hsg, if_neg hsg]; exact ⟨hv.1, by omega⟩
  rw [eq_comm]
  exact (intShown_iff hs ht hi).symm

/-- **C18, exactly.** The text of a string. -/
theorem c18_text_exact (s t : Bytes) : jsonString s = t ↔ JsonStr s t := by
  rw [eq_comm]; exact jsonStr_iff.symm

example : VarRead 32 5 3 [0x83, 0x80, 0] :=
  ⟨3, .more (c := 0x83) (n := 0) (by decide) (.more (c := 0x80) (n := 0) (by decide) (.last (c := 0) (by decide))), by decide, rfl⟩
example : AssetShown (-1005) 2 (leVal (str "ABC")) (str "-10.05 ABC") := by
  have := (c08_text_exact (-1005) (by omega) (2 + 256 * leVal (str "ABC")) (str "-10.05 ABC")).1 (by decide +kernel)
  rwa [show (2 + 256 * leVal (str "ABC")) % 256 = 2 by decide +kernel, show (2 + 256 * leVal (str "ABC")) / 256 = leVal (str "ABC") by decide +kernel] at this
example : TimeShown (-1) (str "1969-12-31T23:59:59.999") := (c11_text_exact _ _).1 (by decide +kernel)
example : JsonStr [97, 34, 255, 10] (str "\"a\\\"?\\u000A\"") := (c18_text_exact _ _).1 (by decide +kernel)

end Abieos
