import Verif.Proofs.Leaf
import Verif.Props.Ripemd160
/-! Builtin types, continued: names, times, symbols, assets, keys. -/
namespace Abieos
open Spec

theorem patch_ascii {s : Bytes} (h : ∀ c ∈ s, c.toNat < 128) : patch s = s := patch_eq_of_utf8 (utf8_ascii h)

theorem digit_ascii {c : UInt8} (h : IsDigit c) : c.toNat < 128 := by
  unfold IsDigit at h
  omega

/-! ### names -/

theorem name_ascii {v : Nat} (hv : v < 2 ^ 64) : ∀ c ∈ nameToString v, c.toNat < 128 := by
  have h := (c05_strict_accepts_iff (nameToString v)).1 ⟨v, (c04_name_roundtrip v hv).2⟩
  have key : ∀ c, NameChar c → c.toNat < 128 := by apply forall_uint8; decide +kernel
  intro c hc
  exact key c (h.2.1 c hc)

theorem pair_name {v : Nat} (hv : v < 2 ^ 64) (e : Err) : ∃ s, Pair (encWord 8 (fun s => some (hashName s)) e) (decWord 8 nameToString) (leBytes 8 v)
    (jsonString (nameToString v)) s := by
  refine ⟨_, pair_word (by decide) (by simpa using hv) ?_⟩
  rw [patch_ascii (name_ascii hv)]
  exact congrArg some ((c45_hash_name []).2.2 v hv)

/-! ### times -/

theorem datetime_ascii {y m d h mi s : Nat} {w : Bytes} (hw : DateTimeText y m d h mi s w) : ∀ c ∈ w, c.toNat < 128 := by
  obtain ⟨a1, a2, a3, a4, a5, a6, h1, h2, h3, h4, h5, h6, rfl⟩ := hw
  intro c hc
  simp only [List.mem_append, List.mem_singleton] at hc
  have hd : ∀ {k v : Nat} {x : Bytes}, Padded k v x → c ∈ x → c.toNat < 128 := fun hp hx => digit_ascii (hp.2.1 c hx)
  rcases hc with (((((((((hc | hc) | hc) | hc) | hc) | hc) | hc) | hc) | hc) | hc) | hc
  all_goals first
    | (subst hc; decide)
    | exact hd h1 hc
    | exact hd h2 hc
    | exact hd h3 hc
    | exact hd h4 hc
    | exact hd h5 hc
    | exact hd h6 hc

theorem time_ascii {us : Nat} (h : us < 2 ^ 32 * 1000000) : ∀ c ∈ microsecondsToStr us, c.toNat < 128 := by
  obtain ⟨n, y, hour, min, sec, ms, w, f, hy, hw, hf, h1, h2, h3, h4, h5⟩ := c11_print h
  rw [h5]
  intro c hc
  rcases List.mem_append.1 hc with hc | hc
  · exact datetime_ascii hw c hc
  · rcases List.mem_cons.1 hc with rfl | hc
    · decide
    · exact digit_ascii (hf.2.1 c hc)

theorem toI64_small {v : Nat} (h : v < 2 ^ 63) : toI64 v = v := by
  unfold toI64; rw [if_pos h]

theorem pair_time_point {us : Nat} (h : us < 2 ^ 32 * 1000000) (hm : us % 1000 = 0) (e : Err) : ∃ s,
    Pair (encWord 8 stringToUtcMicroseconds e) (decWord 8 (fun v => microsecondsToStr (toI64 v))) (leBytes 8 us) (jsonString (microsecondsToStr us)) s := by
  have h64 : toI64 us = us := toI64_small (by omega)
  have := pair_word (n := 8) (parse := stringToUtcMicroseconds) (print := fun v => microsecondsToStr (toI64 v)) (e := e) (v := us) (by decide)
    (by have : (256 : Nat) ^ 8 = 18446744073709551616 := by norm_num
        omega) (by
      rw [h64, patch_ascii (time_ascii h), c11_time_point_roundtrip h]
      exact congrArg some (by omega))
  simp only [h64] at this
  exact ⟨_, this⟩

theorem pair_time_point_sec {s : Nat} (h : s < 2 ^ 32) (e : Err) : ∃ x,
    Pair (encWord 4 timePointSecFromText e) (decWord 4 timePointSecToText) (leBytes 4 s) (jsonString (timePointSecToText s)) x := by
  refine ⟨_, pair_word (by decide) (by omega) ?_⟩
  have ha := time_ascii (us := s * 1000000) (by omega)
  have : timePointSecToText s = microsecondsToStr ((s * 1000000 : Nat) : Int) := by unfold timePointSecToText; push_cast; rfl
  rw [patch_ascii (this ▸ ha), c11_time_point_sec_roundtrip h]

theorem pair_block_timestamp {s : Nat} (h : s < 2 ^ 32) (e : Err) : ∃ x,
    Pair (encWord 4 slotFromText e) (decWord 4 slotToText) (leBytes 4 s) (jsonString (slotToText s)) x := by
  refine ⟨_, pair_word (by decide) (by omega) ?_⟩
  have ha := time_ascii (us := (s * 500 + 946684800000) * 1000) (by omega)
  have : slotToText s = microsecondsToStr (((s * 500 + 946684800000) * 1000 : Nat) : Int) := by unfold slotToText slotToTime; push_cast; rfl
  rw [patch_ascii (this ▸ ha), c11_block_timestamp_roundtrip h]

theorem parseFraction_lt : ∀ (fuel k acc : Nat) (s : Bytes), (parseFraction acc (10 ^ k / 10) fuel s).1 < acc + 10 ^ k
  | 0, k, acc, s => by
    have : 0 < 10 ^ k := Nat.pos_of_ne_zero (by simp)
    simp [parseFraction]
  | fuel + 1, k, acc, [] => by
    have : 0 < 10 ^ k := Nat.pos_of_ne_zero (by simp)
    simp [parseFraction]
  | fuel + 1, k, acc, c :: s => by
    have hpos : 0 < 10 ^ k := Nat.pos_of_ne_zero (by simp)
    rw [parseFraction]
    split
    · rename_i h1
      split
      · rename_i v hv
        obtain ⟨hd, rfl⟩ := digitOf_some.1 hv
        cases k with
        | zero => simp at h1
        | succ k =>
          have e : 10 ^ (k + 1) / 10 = 10 ^ k := by rw [Nat.pow_succ]; omega
          rw [e]
          have := parseFraction_lt fuel k (acc + digitVal c * 10 ^ k) s
          have hv9 : digitVal c ≤ 9 := by
            unfold IsDigit at hd
            unfold digitVal; omega
          have : digitVal c * 10 ^ k ≤ 9 * 10 ^ k := Nat.mul_le_mul_right _ hv9
          rw [Nat.pow_succ]; omega
      · simp only; omega
    · simp only; omega

theorem parseFraction_lt' {sc : Nat} (fuel acc : Nat) (s : Bytes) (h : sc = 10 ^ 6 / 10) : (parseFraction acc sc fuel s).1 < acc + 1000000 := by
  rw [h]; exact parseFraction_lt fuel 6 acc s

theorem utcMicroseconds_lt {s : Bytes} {us : Nat} (h : stringToUtcMicroseconds s = some us) : us < 2 ^ 32 * 1000000 := by
  have hsec : ∀ {s r x}, stringToUtcSeconds false false s = some (x, r) → x < 2 ^ 32 := by
    intro s r x h
    unfold stringToUtcSeconds at h
    simp only [Option.bind_eq_bind, Option.bind_eq_some_iff, Prod.exists] at h
    obtain ⟨y, m, d, hh, mi, sc, s', -, h⟩ := h
    have h0 := dateSeconds y m d hh mi sc
    simp at h
    omega
  unfold stringToUtcMicroseconds at h
  simp only [Option.bind_eq_bind, Option.bind_eq_some_iff, Prod.exists] at h
  obtain ⟨x, r, h1, h⟩ := h
  have hx := hsec h1
  split at h
  · simp only [Option.some.injEq] at h; omega
  · split at h
    · simp at h
    · split at h
      · simp only [Option.some.injEq] at h
        have hq := parseFraction_lt' (sc := 100000) 7 (x * 1000000) (by assumption) (by norm_num)
        rw [h] at hq
        clear * - hq hx
        have : (2:Nat)^32 = 4294967296 := by norm_num
        rw [this] at *
        omega
      · simp at h

theorem slotFromText_lt {s : Bytes} {v : Nat} (h : slotFromText s = some v) : v < 2 ^ 32 := by
  unfold slotFromText at h
  simp only [Option.map_eq_some_iff] at h
  obtain ⟨us, -, rfl⟩ := h
  unfold timeToSlot toU32
  omega

/-! ### symbols and assets -/

theorem upper_ascii {c : UInt8} (h : IsUpper c) : c.toNat < 128 := by
  unfold IsUpper at h; omega

theorem leVal_code_lt {l : Bytes} (h : CodeText l) : leVal l < 256 ^ 7 :=
  lt_of_lt_of_le (leVal_lt l) (Nat.pow_le_pow_right (by decide) h.2.1)

theorem pair_symbol_code {l : Bytes} (h : CodeText l) (e : Err) : ∃ x,
    Pair (encWord 8 stringToSymbolCode e) (decWord 8 symbolCodeToString) (leBytes 8 (leVal l)) (jsonString l) x := by
  have hp := c07_code_print h.2.2
  have := pair_word (n := 8) (parse := stringToSymbolCode) (print := symbolCodeToString) (e := e) (v := leVal l) (by decide)
    (by have := leVal_code_lt h; norm_num at this ⊢; omega) (by
      rw [hp, patch_ascii (fun c hc => upper_ascii (h.2.2 c hc))]
      have := c07_code_roundtrip h
      rwa [hp] at this)
  rw [hp] at this
  exact ⟨_, this⟩

theorem pair_symbol {p : Nat} {l : Bytes} (hp : p < 256) (h : CodeText l) (e : Err) : ∃ x,
    Pair (encWord 8 stringToSymbol e) (decWord 8 symbolToString) (leBytes 8 (p + 256 * leVal l)) (jsonString (symbolToString (p + 256 * leVal l))) x := by
  refine ⟨_, pair_word (by decide) (by have := leVal_code_lt h; norm_num at this ⊢; omega) ?_⟩
  obtain ⟨w, hw, ht⟩ := c07_symbol_print hp h
  rw [patch_ascii, c07_symbol_roundtrip hp h]
  rw [ht]
  intro c hc
  rcases List.mem_append.1 hc with hc | hc
  · exact digit_ascii (hw.2.1 c hc)
  · rcases List.mem_cons.1 hc with rfl | hc
    · decide
    · exact upper_ascii (h.2.2 c hc)

theorem pair_asset {a : Int} {p : Nat} {l : Bytes} (ha : -2 ^ 63 < a) (ha' : a < 2 ^ 63) (hp : p < 256) (hl : CodeText l) :
    ∃ t, assetToString a (p + 256 * leVal l) = .ok t ∧
      Pair encAsset decAsset (intToBin ⟨true, 64⟩ a ++ leBytes 8 (p + 256 * leVal l)) (jsonString t) t := by
  obtain ⟨w, f, hw, hfl, hf, hfv, hpr⟩ := c08_print ha hp hl
  obtain ⟨t, h1, h2⟩ := c08_roundtrip ha ha' hp hl
  have ht : IntTy.Std ⟨true, 64⟩ := by simp [IntTy.Std]
  have hin : IntTy.In ⟨true, 64⟩ a := by simp [IntTy.In, IntTy.min, IntTy.max]; omega
  have hasc : ∀ c ∈ t, c.toNat < 128 := by
    rw [h1] at hpr
    simp only [Except.ok.injEq] at hpr
    subst hpr
    intro c hc
    simp only [List.mem_append, List.mem_cons] at hc
    rcases hc with hc | hc | hc | hc | hc
    · split at hc
      · simp at hc; subst hc; decide
      · simp at hc
    · exact digit_ascii (hw.2.1 c hc)
    · split at hc
      · rcases List.mem_cons.1 hc with rfl | hc
        · decide
        · exact digit_ascii (hf c hc)
      · simp at hc
    · subst hc; decide
    · exact upper_ascii (hl.2.2 c hc)
  refine ⟨t, h1, ?_, fun r => ?_, reads_jsonString_utf8 (utf8_ascii hasc), fun h0 => leBytes_ne_nil (by decide) (List.append_eq_nil_iff.1 h0).2⟩
  · unfold encAsset; rw [h2]
  · unfold decAsset
    rw [List.append_assoc, intFromBin_intToBin ht hin, bind_ok]
    simp only
    rw [readBytes_append 8 _ _ (leBytes_length _ _), bind_ok]
    simp only
    rw [leVal_leBytes, Nat.mod_eq_of_lt (by have := leVal_code_lt hl; norm_num at this ⊢; omega), h1]
    rfl

theorem signed64_range (neg : Bool) (n : Nat) : -2 ^ 63 ≤ signed64 neg n ∧ signed64 neg n < 2 ^ 63 := by
  unfold signed64 toI64
  cases neg <;> simp <;> split <;> omega

theorem stringToAsset_ok {s : Bytes} {a : Int} {y : Nat} (h : stringToAsset s = some (a, y)) :
    -2 ^ 63 ≤ a ∧ a < 2 ^ 63 ∧ ∃ p l, p < 256 ∧ CodeText l ∧ y = p + 256 * leVal l := by
  obtain ⟨b, w, f, b', l, neg, pt, hb, hw, hf, hpt, hb', hl, rfl⟩ := c08_parse_only h
  rw [c08_parse hb hw hf hpt hb' hl] at h
  simp only [Option.some.injEq, Prod.mk.injEq] at h
  obtain ⟨rfl, rfl⟩ := h
  obtain ⟨h1, h2⟩ := signed64_range neg (decVal (w ++ f))
  exact ⟨h1, h2, f.length % 256, l, Nat.mod_lt _ (by decide), hl, rfl⟩

/-! ### keys -/

theorem base58_ascii (b : Bytes) : ∀ c ∈ toBase58 b, c.toNat < 128 := by
  have h := (c13_accepts (toBase58 b)).1 ⟨b, c13_roundtrip b⟩
  intro c hc
  rcases h c hc with rfl | ⟨d, hd⟩
  · decide
  · have key : ∀ c : UInt8, (∃ d, base58Digit c d) → c.toNat < 128 := by
      intro c
      rintro ⟨d, hd⟩
      unfold base58Digit at hd
      have hm := List.mem_of_getElem? hd
      have : ∀ c ∈ str "123456789ABCDEFGHJKLMNPQRSTUVWXYZabcdefghijkmnopqrstuvwxyz", c.toNat < 128 := by decide +kernel
      exact this c hm
    exact key c ⟨d, hd⟩

theorem keyToString_ascii {H : Bytes → Bytes} {t : BTy} {v : BVal} {suf pre s : Bytes} (hp : ∀ c ∈ pre, c.toNat < 128)
    (h : keyToString H t v suf pre = .ok s) : (∀ c ∈ s, c.toNat < 128) ∧ ∃ b, toBinG vectorWrite t v [] = .ok b := by
  unfold keyToString at h
  obtain ⟨b, h1, h2⟩ := bind_eq_ok.1 h
  simp only [Except.ok.injEq] at h2
  subst h2
  refine ⟨fun c hc => ?_, b, by rw [← convertToBin_eq]; exact h1⟩
  rcases List.mem_append.1 hc with hc | hc
  · exact hp c hc
  · exact base58_ascii _ c hc

theorem readN_raw1 : ∀ (n : Nat) (s r : Bytes) (l : List BVal), readN (fromBin (.raw 1)) n s = .ok (l, r) →
    ∃ a : Bytes, s = a ++ r ∧ a.length = n ∧ l = a.map fun c => .raw [c]
  | 0, s, r, l, h => by
    simp only [readN, Except.ok.injEq, Prod.mk.injEq] at h
    exact ⟨[], by simp [h.2], rfl, by simp [← h.1]⟩
  | n + 1, s, r, l, h => by
    rw [readN] at h
    obtain ⟨⟨v, s1⟩, h1, h⟩ := bind_eq_ok.1 h
    obtain ⟨⟨l', s2⟩, h2, h3⟩ := bind_eq_ok.1 h
    simp only [Except.ok.injEq, Prod.mk.injEq] at h3
    obtain ⟨rfl, rfl⟩ := h3
    rw [fromBin] at h1
    obtain ⟨⟨b, s3⟩, h4, h5⟩ := bind_eq_ok.1 h1
    simp only [Except.ok.injEq, Prod.mk.injEq] at h5
    obtain ⟨rfl, rfl⟩ := h5
    obtain ⟨rfl, hl⟩ := readBytes_ok h4
    obtain ⟨a, rfl, ha, rfl⟩ := readN_raw1 n _ _ _ h2
    obtain ⟨c, rfl⟩ := List.length_eq_one_iff.1 hl
    exact ⟨c :: a, by simp, by simp [ha], by simp⟩

theorem charArray_read {n : Nat} {s r : Bytes} {v : BVal} (h : fromBin (charArray n) s = .ok (v, r)) : ∃ a, s = a ++ r ∧ Layout (charArray n) v a := by
  unfold charArray at h
  rw [fromBin] at h
  obtain ⟨⟨l, s1⟩, h1, h2⟩ := bind_eq_ok.1 h
  simp only [Except.ok.injEq, Prod.mk.injEq] at h2
  obtain ⟨rfl, rfl⟩ := h2
  obtain ⟨a, rfl, ha, rfl⟩ := readN_raw1 _ _ _ _ h1
  exact ⟨a, rfl, charArray_layout ha⟩

theorem str_read {s r : Bytes} {v : BVal} (h : fromBin .str s = .ok (v, r)) : ∃ a, Layout .str v a := by
  rw [fromBin] at h
  obtain ⟨⟨n, s1⟩, h1, h2⟩ := bind_eq_ok.1 h
  obtain ⟨⟨b, s2⟩, h3, h4⟩ := bind_eq_ok.1 h2
  simp only [Except.ok.injEq, Prod.mk.injEq] at h4
  obtain ⟨rfl, rfl⟩ := h4
  obtain ⟨hh, hs⟩ := size_exists (c01_varuint32_read _ _ _ h1).1
  rw [← (readBytes_ok h3).2] at hs
  exact ⟨hh ++ b, hh, b, rfl, hs, rfl⟩

theorem raw_read {n : Nat} {s r : Bytes} {v : BVal} (h : fromBin (.raw n) s = .ok (v, r)) : ∃ a, Layout (.raw n) v a := by
  rw [fromBin] at h
  obtain ⟨⟨b, s1⟩, h1, h2⟩ := bind_eq_ok.1 h
  simp only [Except.ok.injEq, Prod.mk.injEq] at h2
  exact ⟨b, h2.1.symm, (readBytes_ok h1).2⟩

theorem rawVec1_read {s r : Bytes} {v : BVal} (h : fromBin (.rawVec 1) s = .ok (v, r)) : ∃ b, v = .raw b ∧
    (b.length < 2 ^ 32 → ∃ a, Layout (.rawVec 1) v a) := by
  rw [fromBin] at h
  obtain ⟨⟨k, s1⟩, h1, h2⟩ := bind_eq_ok.1 h
  obtain ⟨_, -, h2⟩ := bind_eq_ok.1 h2
  obtain ⟨_, -, h2⟩ := bind_eq_ok.1 h2
  obtain ⟨⟨b, s2⟩, h3, h4⟩ := bind_eq_ok.1 h2
  simp only [Except.ok.injEq, Prod.mk.injEq] at h4
  obtain ⟨rfl, rfl⟩ := h4
  refine ⟨b, rfl, fun hb => ?_⟩
  obtain ⟨hh, hs⟩ := size_exists hb
  exact ⟨hh ++ b, hh, b, b.length, rfl, hs, by simp, by omega, rfl⟩

/-- inversion of the reading of a variant -/
theorem variant_read {ts : List BTy} {s r : Bytes} {v : BVal} (h : fromBin (.variant ts) s = .ok (v, r)) :
    ∃ u x s1, v = .alt u x ∧ u < 2 ^ 32 ∧ variantFromBin ts u s1 = .ok (x, r) := by
  rw [fromBin] at h
  obtain ⟨⟨u, s1⟩, h1, h2⟩ := bind_eq_ok.1 h
  obtain ⟨⟨x, s2⟩, h3, h4⟩ := bind_eq_ok.1 h2
  simp only [Except.ok.injEq, Prod.mk.injEq] at h4
  obtain ⟨rfl, rfl⟩ := h4
  exact ⟨u, x, s1, rfl, (c01_varuint32_read _ _ _ h1).1, h3⟩

theorem publicKey_layout {s r : Bytes} {v : BVal} (h : fromBin publicKeyTy s = .ok (v, r)) : ∃ b, Layout publicKeyTy v b := by
  obtain ⟨u, x, s1, rfl, hu, h⟩ := variant_read h
  obtain ⟨hd, hs⟩ := size_exists hu
  suffices ∃ e, LayoutAlt [charArray 33, charArray 33, .struct [charArray 33, .raw 1, .str]] u x e by
    obtain ⟨e, he⟩ := this
    exact ⟨hd ++ e, u, x, hd, e, rfl, hs, he, rfl⟩
  match u, h with
  | 0, h =>
    rw [variantFromBin] at h
    obtain ⟨a, -, ha⟩ := charArray_read h
    exact ⟨a, .inl ⟨rfl, ha⟩⟩
  | 1, h =>
    rw [variantFromBin, variantFromBin] at h
    obtain ⟨a, -, ha⟩ := charArray_read h
    exact ⟨a, .inr ⟨0, rfl, .inl ⟨rfl, ha⟩⟩⟩
  | 2, h =>
    rw [variantFromBin, variantFromBin, variantFromBin, fromBin] at h
    obtain ⟨⟨l, s2⟩, h1, h2⟩ := bind_eq_ok.1 h
    simp only [Except.ok.injEq, Prod.mk.injEq] at h2
    obtain ⟨rfl, rfl⟩ := h2
    rw [fromBinFields] at h1
    obtain ⟨⟨v1, s3⟩, h3, h1⟩ := bind_eq_ok.1 h1
    obtain ⟨⟨l2, s4⟩, h4, h5⟩ := bind_eq_ok.1 h1
    simp only [Except.ok.injEq, Prod.mk.injEq] at h5
    obtain ⟨rfl, rfl⟩ := h5
    rw [fromBinFields] at h4
    obtain ⟨⟨v2, s5⟩, h6, h4⟩ := bind_eq_ok.1 h4
    obtain ⟨⟨l3, s6⟩, h7, h8⟩ := bind_eq_ok.1 h4
    simp only [Except.ok.injEq, Prod.mk.injEq] at h8
    obtain ⟨rfl, rfl⟩ := h8
    rw [fromBinFields] at h7
    obtain ⟨⟨v3, s7⟩, h9, h7⟩ := bind_eq_ok.1 h7
    obtain ⟨⟨l4, s8⟩, h10, h11⟩ := bind_eq_ok.1 h7
    simp only [Except.ok.injEq, Prod.mk.injEq] at h11
    obtain ⟨rfl, rfl⟩ := h11
    rw [fromBinFields] at h10
    simp only [Except.ok.injEq, Prod.mk.injEq] at h10
    obtain ⟨rfl, rfl⟩ := h10
    obtain ⟨a1, -, ha1⟩ := charArray_read h3
    obtain ⟨a2, ha2⟩ := raw_read h6
    obtain ⟨a3, ha3⟩ := str_read h9
    refine ⟨a1 ++ (a2 ++ (a3 ++ [])), .inr ⟨1, rfl, .inr ⟨0, rfl, .inl ⟨rfl, [v1, v2, v3], rfl, ?_⟩⟩⟩⟩
    exact ⟨v1, _, a1, _, rfl, ha1, ⟨v2, _, a2, _, rfl, ha2, ⟨v3, _, a3, _, rfl, ha3, ⟨rfl, rfl⟩, rfl⟩, rfl⟩, rfl⟩
  | u + 3, h =>
    rw [variantFromBin, variantFromBin, variantFromBin, variantFromBin] at h
    simp at h

theorem privateKey_layout {s r : Bytes} {v : BVal} (h : fromBin privateKeyTy s = .ok (v, r)) : ∃ b, Layout privateKeyTy v b := by
  obtain ⟨u, x, s1, rfl, hu, h⟩ := variant_read h
  obtain ⟨hd, hs⟩ := size_exists hu
  suffices ∃ e, LayoutAlt [charArray 32, charArray 32] u x e by
    obtain ⟨e, he⟩ := this
    exact ⟨hd ++ e, u, x, hd, e, rfl, hs, he, rfl⟩
  match u, h with
  | 0, h =>
    rw [variantFromBin] at h
    obtain ⟨a, -, ha⟩ := charArray_read h
    exact ⟨a, .inl ⟨rfl, ha⟩⟩
  | 1, h =>
    rw [variantFromBin, variantFromBin] at h
    obtain ⟨a, -, ha⟩ := charArray_read h
    exact ⟨a, .inr ⟨0, rfl, .inl ⟨rfl, ha⟩⟩⟩
  | u + 2, h =>
    rw [variantFromBin, variantFromBin, variantFromBin] at h
    simp at h

/-- A vector in a WebAuthn signature may be longer than can be written. -/
theorem signature_layout {s r w : Bytes} {v : BVal} (h : fromBin signatureTy s = .ok (v, r)) (hw : toBinG vectorWrite signatureTy v [] = .ok w) :
    ∃ b, Layout signatureTy v b := by
  obtain ⟨u, x, s1, rfl, hu, h⟩ := variant_read h
  obtain ⟨hd, hs⟩ := size_exists hu
  suffices ∃ e, LayoutAlt [charArray 65, charArray 65, .struct [charArray 65, .rawVec 1, .str]] u x e by
    obtain ⟨e, he⟩ := this
    exact ⟨hd ++ e, u, x, hd, e, rfl, hs, he, rfl⟩
  match u, h, hw with
  | 0, h, _ =>
    rw [variantFromBin] at h
    obtain ⟨a, -, ha⟩ := charArray_read h
    exact ⟨a, .inl ⟨rfl, ha⟩⟩
  | 1, h, _ =>
    rw [variantFromBin, variantFromBin] at h
    obtain ⟨a, -, ha⟩ := charArray_read h
    exact ⟨a, .inr ⟨0, rfl, .inl ⟨rfl, ha⟩⟩⟩
  | 2, h, hw =>
    rw [variantFromBin, variantFromBin, variantFromBin, fromBin] at h
    obtain ⟨⟨l, s2⟩, h1, h2⟩ := bind_eq_ok.1 h
    simp only [Except.ok.injEq, Prod.mk.injEq] at h2
    obtain ⟨rfl, rfl⟩ := h2
    rw [fromBinFields] at h1
    obtain ⟨⟨v1, s3⟩, h3, h1⟩ := bind_eq_ok.1 h1
    obtain ⟨⟨l2, s4⟩, h4, h5⟩ := bind_eq_ok.1 h1
    simp only [Except.ok.injEq, Prod.mk.injEq] at h5
    obtain ⟨rfl, rfl⟩ := h5
    rw [fromBinFields] at h4
    obtain ⟨⟨v2, s5⟩, h6, h4⟩ := bind_eq_ok.1 h4
    obtain ⟨⟨l3, s6⟩, h7, h8⟩ := bind_eq_ok.1 h4
    simp only [Except.ok.injEq, Prod.mk.injEq] at h8
    obtain ⟨rfl, rfl⟩ := h8
    rw [fromBinFields] at h7
    obtain ⟨⟨v3, s7⟩, h9, h7⟩ := bind_eq_ok.1 h7
    obtain ⟨⟨l4, s8⟩, h10, h11⟩ := bind_eq_ok.1 h7
    simp only [Except.ok.injEq, Prod.mk.injEq] at h11
    obtain ⟨rfl, rfl⟩ := h11
    rw [fromBinFields] at h10
    simp only [Except.ok.injEq, Prod.mk.injEq] at h10
    obtain ⟨rfl, rfl⟩ := h10
    obtain ⟨a1, -, ha1⟩ := charArray_read h3
    obtain ⟨b, rfl, hb⟩ := rawVec1_read h6
    obtain ⟨a3, ha3⟩ := str_read h9
    have hlen : b.length < 2 ^ 32 := by
      unfold signatureTy at hw
      rw [toBinG] at hw
      obtain ⟨w1, -, hw⟩ := bind_eq_ok.1 hw
      rw [toBinAlt, toBinAlt, toBinAlt, toBinG, toBinFields] at hw
      obtain ⟨w2, -, hw⟩ := bind_eq_ok.1 hw
      rw [toBinFields] at hw
      obtain ⟨w3, hw, -⟩ := bind_eq_ok.1 hw
      rw [toBinG] at hw
      obtain ⟨w4, hw, -⟩ := bind_eq_ok.1 hw
      unfold varuint32Write at hw
      obtain ⟨w5, hw, -⟩ := bind_eq_ok.1 hw
      have := (size_iff.2 hw).1
      simpa using this
    obtain ⟨a2, ha2⟩ := hb hlen
    refine ⟨a1 ++ (a2 ++ (a3 ++ [])), .inr ⟨1, rfl, .inr ⟨0, rfl, .inl ⟨rfl, [v1, .raw b, v3], rfl, ?_⟩⟩⟩⟩
    exact ⟨v1, _, a1, _, rfl, ha1, ⟨.raw b, _, a2, _, rfl, ha2, ⟨v3, _, a3, _, rfl, ha3, ⟨rfl, rfl⟩, rfl⟩, rfl⟩, rfl⟩
  | u + 3, h, _ =>
    rw [variantFromBin, variantFromBin, variantFromBin, variantFromBin] at h
    simp at h

theorem pair_key {ts : List BTy} {v : BVal} {b s : Bytes} {toStr : BVal → Res Bytes} {fromStr : Bytes → Res BVal} (hw : WfType (.variant ts))
    (hl : Layout (.variant ts) v b) (h1 : toStr v = .ok s) (h2 : fromStr s = .ok v) (ha : ∀ c ∈ s, c.toNat < 128) :
    Pair (encKey (.variant ts) fromStr) (decKey (.variant ts) toStr) b (jsonString s) s := by
  refine ⟨?_, fun r => ?_, reads_jsonString_utf8 (utf8_ascii ha), layout_ne_nil (.variant ts) _ _ trivial hl⟩
  · unfold encKey
    rw [h2, bind_ok, layout_write _ _ _ hw hl]; rfl
  · unfold decKey
    rw [layout_read _ _ _ hw hl, bind_ok]
    simp only
    rw [h1]; rfl

/-- What is needed of a key type. -/
structure KeyType (ts : List BTy) (toStr : BVal → Res Bytes) (fromStr : Bytes → Res BVal) : Prop where
  wf : WfType (.variant ts)
  layout : ∀ s r v w, fromBin (.variant ts) s = .ok (v, r) → toBinG vectorWrite (.variant ts) v [] = .ok w → ∃ b, Layout (.variant ts) v b
  roundtrip : ∀ v b, Layout (.variant ts) v b → ∃ s, toStr v = .ok s ∧ fromStr s = .ok v
  ascii : ∀ v s, toStr v = .ok s → (∀ c ∈ s, c.toNat < 128) ∧ ∃ w, toBinG vectorWrite (.variant ts) v [] = .ok w
  parse : ∀ s v, fromStr s = .ok v → ∃ bin r, fromBin (.variant ts) bin = .ok (v, r)

theorem key_pair_of_layout {ts : List BTy} {toStr : BVal → Res Bytes} {fromStr : Bytes → Res BVal} (K : KeyType ts toStr fromStr) {v : BVal} {b : Bytes}
    (hl : Layout (.variant ts) v b) : ∃ s, toStr v = .ok s ∧ Pair (encKey (.variant ts) fromStr) (decKey (.variant ts) toStr) b (jsonString s) s := by
  obtain ⟨s, h1, h2⟩ := K.roundtrip v b hl
  exact ⟨s, h1, pair_key K.wf hl h1 h2 (K.ascii v s h1).1⟩

theorem encKey_stable {ts : List BTy} {toStr : BVal → Res Bytes} {fromStr : Bytes → Res BVal} (K : KeyType ts toStr fromStr) {s b : Bytes}
    (h : encKey (.variant ts) fromStr s = .ok b) : ∃ x s', Pair (encKey (.variant ts) fromStr) (decKey (.variant ts) toStr) b x s' := by
  unfold encKey at h
  obtain ⟨v, h1, h2⟩ := bind_eq_ok.1 h
  obtain ⟨bin, r, h3⟩ := K.parse s v h1
  obtain ⟨b', hl⟩ := K.layout _ _ _ _ h3 h2
  rw [layout_write _ _ _ K.wf hl] at h2
  simp only [List.nil_append, Except.ok.injEq] at h2
  obtain ⟨s', -, h4⟩ := key_pair_of_layout K hl
  exact ⟨_, _, h2 ▸ h4⟩

theorem decKey_stable {ts : List BTy} {toStr : BVal → Res Bytes} {fromStr : Bytes → Res BVal} (K : KeyType ts toStr fromStr) {bin x rest : Bytes}
    (h : decKey (.variant ts) toStr bin = .ok (x, rest)) : ∃ b s', Pair (encKey (.variant ts) fromStr) (decKey (.variant ts) toStr) b x s' := by
  unfold decKey at h
  obtain ⟨⟨v, r⟩, h1, h⟩ := bind_eq_ok.1 h
  obtain ⟨s, h2, h3⟩ := bind_eq_ok.1 h
  simp only [Except.ok.injEq, Prod.mk.injEq] at h3
  obtain ⟨w, hw⟩ := (K.ascii v s h2).2
  obtain ⟨b', hl⟩ := K.layout _ _ _ _ h1 hw
  obtain ⟨s', h4, h5⟩ := key_pair_of_layout K hl
  rw [h2] at h4
  simp only [Except.ok.injEq] at h4
  subst h4
  exact ⟨_, _, h3.1 ▸ h5⟩

theorem keyType_public {H : Bytes → Bytes} (hH : ∀ m, (H m).length = 20) :
    KeyType [charArray 33, charArray 33, .struct [charArray 33, .raw 1, .str]] (publicKeyToString H) (publicKeyFromString H) where
  wf := wf_publicKey
  layout := fun _ _ _ _ h _ => publicKey_layout h
  roundtrip := fun v b h => c14_public_key hH h
  ascii := fun v s h => by
    unfold publicKeyToString at h
    split at h
    · exact keyToString_ascii (by decide) h
    · split at h
      · exact keyToString_ascii (by decide) h
      · split at h
        · exact keyToString_ascii (by decide) h
        · simp at h
  parse := fun s v h => by
    obtain ⟨_, _, _, _, _, _, _, _, _, rest, h⟩ := (c15_public_key hH s v).1 h
    exact ⟨_, _, h⟩

theorem keyType_private {H : Bytes → Bytes} (hH : ∀ m, (H m).length = 20) :
    KeyType [charArray 32, charArray 32] (privateKeyToString H) (privateKeyFromString H) where
  wf := wf_privateKey
  layout := fun _ _ _ _ h _ => privateKey_layout h
  roundtrip := fun v b h => c14_private_key hH h
  ascii := fun v s h => by
    unfold privateKeyToString at h
    split at h
    · exact keyToString_ascii (by decide) h
    · split at h
      · exact keyToString_ascii (by decide) h
      · simp at h
  parse := fun s v h => by
    have conv : ∀ {bin}, convertFromBin privateKeyTy bin = .ok v → ∃ bin r, fromBin privateKeyTy bin = .ok (v, r) := by
      intro bin h
      unfold convertFromBin at h
      obtain ⟨⟨v', r⟩, h1, h2⟩ := bind_eq_ok.1 h
      simp only [Except.ok.injEq] at h2
      exact ⟨_, _, h2 ▸ h1⟩
    have key : ∀ {t a b}, stringToKey H privateKeyTy t a b = .ok v → ∃ bin r, fromBin privateKeyTy bin = .ok (v, r) := by
      intro t a b h
      obtain ⟨_, _, _, r, h⟩ := (stringToKey_ok hH).1 h
      exact ⟨_, _, h⟩
    unfold privateKeyFromString at h
    split at h
    · exact key h
    · split at h
      · exact key h
      · split at h
        · simp at h
        · unfold wifFromString at h
          obtain ⟨_, -, h⟩ := bind_eq_ok.1 h
          obtain ⟨_, -, h⟩ := bind_eq_ok.1 h
          exact conv h

theorem keyType_signature {H : Bytes → Bytes} (hH : ∀ m, (H m).length = 20) :
    KeyType [charArray 65, charArray 65, .struct [charArray 65, .rawVec 1, .str]] (signatureToString H) (signatureFromString H) where
  wf := wf_signature
  layout := fun _ _ _ _ h hw => signature_layout h hw
  roundtrip := fun v b h => c14_signature hH h
  ascii := fun v s h => by
    unfold signatureToString at h
    split at h
    · exact keyToString_ascii (by decide) h
    · split at h
      · exact keyToString_ascii (by decide) h
      · split at h
        · exact keyToString_ascii (by decide) h
        · simp at h
  parse := fun s v h => by
    obtain ⟨_, _, _, _, _, _, _, _, _, rest, h⟩ := (c15_signature hH s v).1 h
    exact ⟨_, _, h⟩

end Abieos
