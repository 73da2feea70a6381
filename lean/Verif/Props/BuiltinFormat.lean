import Verif.Props.TimeExact
import Verif.Spec.BuiltinFormat
import Verif.Props.HashName
import Verif.Props.Time
import Verif.Props.Symbol
import Verif.Props.KeyFormat
import Verif.Props.JsonInt
import Verif.Props.Hex
import Verif.Proofs.LeafAll
/-! # C52: the binary form of the builtin types -/
namespace Abieos
open Spec

theorem twos_iff {n : Nat} {v : Int} {b : Bytes} : TwosComplement n v b ↔ b = leBytes n (v % 256 ^ n).toNat := by
  have hp : (0 : Int) < 256 ^ n := by positivity
  have h0 := Int.emod_nonneg v (ne_of_gt hp)
  have h1 := Int.emod_lt_of_pos v hp
  have h2 : (v % 256 ^ n).toNat < 256 ^ n := by
    have : (((v % 256 ^ n).toNat : Nat) : Int) < ((256 ^ n : Nat) : Int) := by rw [Int.toNat_of_nonneg h0]; push_cast; exact h1
    exact_mod_cast this
  constructor
  · rintro ⟨rfl, h⟩
    rw [← h, Int.toNat_natCast, leBytes_leVal]
  · rintro rfl
    refine ⟨leBytes_length _ _, ?_⟩
    rw [leVal_leBytes, Nat.mod_eq_of_lt h2, Int.toNat_of_nonneg h0]

theorem twos_nat {n v : Nat} {b : Bytes} : TwosComplement n (v : Int) b ↔ b = leBytes n v := by
  rw [twos_iff]
  have e : ((v : Int) % 256 ^ n).toNat = v % 256 ^ n := by
    rw [show ((v : Int) % 256 ^ n) = ((v % 256 ^ n : Nat) : Int) by push_cast; rfl, Int.toNat_natCast]
  rw [e]
  have : leBytes n (v % 256 ^ n) = leBytes n v := by
    apply leVal_inj
    · rw [leBytes_length, leBytes_length]
    · rw [leVal_leBytes, leVal_leBytes, Nat.mod_mod]
  rw [this]

theorem int_stored {t : IntTy} (ht : t.Std) {n : Nat} (hn : t.bits = 8 * n) {s b : Bytes} :
    encInt t s = .ok b ↔ IntStored t.signed n s b := by
  unfold encInt IntStored
  rw [bind_eq_ok]
  simp only [c16_from_json_int_iff t ht, twos_iff, intToBin, Except.ok.injEq]
  have e1 : t.bits / 8 = n := by omega
  have e2 : (2 : Int) ^ t.bits = 256 ^ n := by rw [hn, pow_mul]; norm_num
  rw [e1, e2]
  have hin : ∀ v, t.In v ↔ (if t.signed then -(2 ^ (8 * n - 1)) ≤ v ∧ v < 2 ^ (8 * n - 1) else 0 ≤ v ∧ v < 2 ^ (8 * n)) := by
    intro v
    unfold IntTy.In IntTy.min IntTy.max
    rw [hn]
    cases t.signed <;> simp <;> omega
  constructor
  · rintro ⟨v, ⟨h1, h2⟩, rfl⟩; exact ⟨v, h1, (hin v).1 h2, rfl⟩
  · rintro ⟨v, h1, h2, rfl⟩; exact ⟨v, ⟨h1, (hin v).2 h2⟩, rfl⟩

theorem hexVal_iff (c : UInt8) (n : Nat) : HexVal c n ↔ unhexDigit c = some n := by
  have e1 : ∀ a b : UInt8, a ≤ b ↔ a.toNat ≤ b.toNat := fun a b => Iff.rfl
  unfold unhexDigit
  simp only [e1]
  constructor
  · intro h
    cases h with
    | digit h1 h2 => rw [if_pos ⟨h1, h2⟩]
    | lower h1 h2 => rw [if_neg (by simp; omega), if_pos ⟨h1, h2⟩]
    | upper h1 h2 => rw [if_neg (by simp; omega), if_neg (by simp; omega), if_pos ⟨h1, h2⟩]
  · intro h
    split at h
    · rename_i h1; injection h with h; subst h; exact .digit h1.1 h1.2
    · split at h
      · rename_i h1; injection h with h; subst h; exact .lower h1.1 h1.2
      · split at h
        · rename_i h1; injection h with h; subst h; exact .upper h1.1 h1.2
        · cases h

theorem hexText_iff : ∀ (s b : Bytes), HexText s b ↔ unhexLoop s = some b
  | [], b => by
    constructor
    · intro h; cases h; rfl
    · intro h; simp [unhexLoop] at h; subst h; exact .nil
  | [c], b => by
    constructor
    · intro h; cases h
    · intro h; simp [unhexLoop] at h
  | c :: d :: s, b => by
    have key : ∀ h l : Nat, h < 16 → l < 16 → (h <<< 4) ||| l = 16 * h + l := by
      intro h l _ hl
      rw [← Nat.shiftLeft_add_eq_or_of_lt (by omega), Nat.shiftLeft_eq]; omega
    have lt : ∀ c n, HexVal c n → n < 16 := by
      intro c n h; cases h <;> omega
    simp only [unhexLoop, Option.bind_eq_bind, Option.bind_eq_some_iff, Option.pure_def, Option.some.injEq]
    constructor
    · intro h
      cases h with
      | @cons _ _ x h l _ b' h1 h2 h3 h4 =>
        refine ⟨h, (hexVal_iff _ _).1 h1, l, (hexVal_iff _ _).1 h2, b', (hexText_iff s b').1 h4, ?_⟩
        rw [key _ _ (lt _ _ h1) (lt _ _ h2), ← h3]
        simp
    · rintro ⟨h, h1, l, h2, b', h4, rfl⟩
      have h1 := (hexVal_iff _ _).2 h1
      have h2 := (hexVal_iff _ _).2 h2
      refine .cons h1 h2 ?_ ((hexText_iff s b').2 h4)
      rw [key _ _ (lt _ _ h1) (lt _ _ h2)]
      have := lt _ _ h1
      have := lt _ _ h2
      simp; omega

theorem fixed_stored {n : Nat} {s b : Bytes} : encFixed n s = .ok b ↔ HexText s b ∧ b.length = n := by
  unfold encFixed
  rw [hexText_iff, c03_unhex_same]
  constructor
  · intro h
    obtain ⟨v, h1, h⟩ := bind_eq_ok.1 h
    obtain ⟨u, h2, h⟩ := bind_eq_ok.1 h
    cases h
    exact ⟨h1, by simpa [check_eq_ok] using h2⟩
  · rintro ⟨h, rfl⟩
    rw [h]
    simp [check]

theorem word_stored {n : Nat} {parse : Bytes → Option Nat} {e : Err} {s b : Bytes} :
    encWord n parse e s = .ok b ↔ ∃ v, parse s = some v ∧ TwosComplement n (v : Int) b := by
  unfold encWord
  simp only [twos_nat]
  cases h : parse s with
  | none => simp
  | some v => simp [eq_comm]

theorem float_stored {strto : Bytes → Option Nat} {n : Nat} {s b : Bytes} :
    encFloat strto n s = .ok b ↔ ∃ bits : Nat, s ≠ [] ∧ strto s = some bits ∧ TwosComplement n (bits : Int) b := by
  unfold encFloat
  simp only [twos_nat]
  by_cases hs : s = []
  · simp [hs]
  · simp only [hs, if_false]
    cases h : strto s with
    | none => simp
    | some v => simp [eq_comm, hs]

theorem nameSymbol_eq : ∀ c, NameChar c → nameSymbol c = charToNameDigit c := by
  unfold nameSymbol
  apply forall_uint8; decide +kernel

theorem nameBits_eq : ∀ (s : Bytes) (i : Nat), i + s.length ≤ 13 → NameFrom i s → nameBits i s = nameTail i s
  | [], i, _, _ => rfl
  | c :: s, i, hl, h => by
    simp only [List.length_cons] at hl
    unfold NameFrom at h
    simp only [nameBits, nameTail]
    obtain ⟨h1, h2, h3⟩ := h
    rw [nameSymbol_eq c h1, nameBits_eq s (i + 1) (by omega) h3]
    by_cases hi : i < 12
    · rw [if_pos hi, if_pos hi, show 59 - 5 * i = 64 - 5 * (i + 1) by omega]
    · rw [if_neg hi, if_neg hi]
      obtain rfl : s = [] := List.length_eq_zero_iff.1 (by omega)
      have := h2 (by omega)
      simp only [nameTail]
      omega

theorem nameValue_eq (s : Bytes) : nameValue s = hashName s := by
  unfold nameValue
  split
  · rename_i h
    obtain ⟨v, hv⟩ := (c05_strict_accepts_iff s).2 h
    have h2 := (strictLoop_ok s 0 0 v (by omega)).1 hv
    have e := c05_lenient_agrees s v hv
    rw [show hashName s = v by simp [hashName, hv], ← e, stringToName_eq]
    exact nameBits_eq s 0 h2.1 h2.2.1
  · rename_i h
    exact (c45_murmur s h).symm

theorem key_stored {ts : List BTy} {toStr : BVal → Res Bytes} {fromStr : Bytes → Res BVal} (K : KeyType ts toStr fromStr) {s b : Bytes} :
    encKey (.variant ts) fromStr s = .ok b ↔ ∃ v, fromStr s = .ok v ∧ Layout (.variant ts) v b := by
  unfold encKey
  rw [bind_eq_ok]
  constructor
  · rintro ⟨v, h1, h2⟩
    obtain ⟨bin, r, h3⟩ := K.parse s v h1
    obtain ⟨b', hl⟩ := K.layout _ _ _ _ h3 h2
    rw [layout_write _ _ _ K.wf hl] at h2
    simp only [List.nil_append, Except.ok.injEq] at h2
    exact ⟨v, h1, h2 ▸ hl⟩
  · rintro ⟨v, h1, h2⟩
    exact ⟨v, h1, by rw [layout_write _ _ _ K.wf h2]; rfl⟩

theorem varuint_stored {s b : Bytes} : encVaruint s = .ok b ↔ ∃ n : Nat, IsIntText false s n ∧ n < 2 ^ 32 ∧ Leb n b := by
  unfold encVaruint
  rw [bind_eq_ok]
  simp only [c16_from_json_int_iff ⟨false, 32⟩ (std_int _ (by decide)), ← size_iff, Size]
  constructor
  · rintro ⟨v, ⟨h1, h2⟩, h3, h4⟩
    have h0 : 0 ≤ v := h2.1
    refine ⟨v.toNat, ?_, h3, h4⟩
    rw [Int.toNat_of_nonneg h0]; exact h1
  · rintro ⟨n, h1, h2, h3⟩
    refine ⟨n, ⟨h1, ?_⟩, by simpa using h2, by simpa using h3⟩
    simp [IntTy.In, IntTy.min, IntTy.max]
    omega

theorem varint_stored {s b : Bytes} : encVarint s = .ok b ↔
    ∃ v : Int, IsIntText true s v ∧ -(2 ^ 31) ≤ v ∧ v < 2 ^ 31 ∧ Leb (if 0 ≤ v then 2 * v else -2 * v - 1).toNat b := by
  unfold encVarint
  rw [bind_eq_ok]
  simp only [c16_from_json_int_iff ⟨true, 32⟩ (std_int _ (by decide)), varint32ToBin, ← size_iff, Size]
  have hz : ∀ v : Int, -(2 ^ 31) ≤ v → v < 2 ^ 31 → (zigzag (BitVec.ofInt 32 v)).toNat = (if 0 ≤ v then 2 * v else -2 * v - 1).toNat := by
    intro v h1 h2
    have := zigzag_toNat (BitVec.ofInt 32 v)
    rw [BitVec.toInt_ofInt_eq_self (by decide) (by simpa using h1) (by simpa using h2)] at this
    rw [← this, Int.toNat_natCast]
  constructor
  · rintro ⟨v, ⟨h1, h2⟩, h3, h4⟩
    have h5 : -(2 ^ 31) ≤ v ∧ v < 2 ^ 31 := by
      simp [IntTy.In, IntTy.min, IntTy.max] at h2; omega
    rw [hz v h5.1 h5.2] at h4
    exact ⟨v, h1, h5.1, h5.2, h4⟩
  · rintro ⟨v, h1, h2, h3, h4⟩
    refine ⟨v, ⟨h1, ?_⟩, (zigzag _).isLt, by rw [hz v h2 h3]; exact h4⟩
    simp [IntTy.In, IntTy.min, IntTy.max]; omega

theorem bytes_stored {s b : Bytes} : encBytes s = .ok b ↔ ∃ h a, HexText s a ∧ Size a.length h ∧ b = h ++ a := by
  unfold encBytes
  rw [bind_eq_ok]
  simp only [check_eq_ok, hexText_iff, size_iff]
  constructor
  · rintro ⟨u, h1, h⟩
    obtain ⟨n, h2, h⟩ := bind_eq_ok.1 h
    cases hs : unhexLoop s with
    | none => simp [hs] at h
    | some v =>
      simp only [hs, Except.ok.injEq] at h
      obtain ⟨-, -, -, hl⟩ := unhexLoop_some _ _ hs
      refine ⟨n, v, rfl, ?_, h.symm⟩
      rw [show v.length = s.length / 2 by omega]; exact h2
  · rintro ⟨h, a, h1, h2, rfl⟩
    obtain ⟨he, -, -, hl⟩ := unhexLoop_some _ _ h1
    refine ⟨(), ?_, ?_⟩
    · rw [Nat.and_one_is_mod, he]; rfl
    · rw [show s.length / 2 = a.length by omega, h2, h1]; rfl

theorem string_stored {s b : Bytes} : encString s = .ok b ↔ ∃ h, Size s.length h ∧ b = h ++ s := by
  unfold encString
  rw [bind_eq_ok]
  simp only [size_iff, Except.ok.injEq, eq_comm]

theorem digest_len (m : Bytes) : (keyDigest m).length = 20 := keyDigest_length m

theorem asset_stored {s b : Bytes} : encAsset s = .ok b ↔ AssetStored s b := by
  have hx : ∀ (neg : Bool) (n : Nat) x, TwosComplement 8 (if neg = true then -(n : Int) else (n : Int)) x ↔ x = intToBin ⟨true, 64⟩ (signed64 neg n) := by
    intro neg n x
    rw [twos_iff]
    unfold intToBin signed64 toI64
    have e : ((if neg = true then -(n : Int) else (n : Int)) % 256 ^ 8).toNat =
        ((if (if neg = true then (2 ^ 64 - n % 2 ^ 64) % 2 ^ 64 else n % 2 ^ 64) < 2 ^ 63 then
          ((if neg = true then (2 ^ 64 - n % 2 ^ 64) % 2 ^ 64 else n % 2 ^ 64 : Nat) : Int)
          else ((if neg = true then (2 ^ 64 - n % 2 ^ 64) % 2 ^ 64 else n % 2 ^ 64 : Nat) : Int) - 2 ^ 64) % 2 ^ 64).toNat := by
      have : (256 : Int) ^ 8 = 2 ^ 64 := by norm_num
      rw [this]
      cases neg <;> simp <;> split <;> omega
    rw [e]
    exact Iff.rfl
  unfold encAsset AssetStored
  simp only [hx, twos_nat]
  constructor
  · intro h
    cases hs : stringToAsset s with
    | none => simp [hs] at h
    | some r =>
      obtain ⟨b1, w, f, b2, l, neg, pt, h1, h2, h3, h4, h5, h6, rfl⟩ := c08_parse_only hs
      rw [c08_parse h1 h2 h3 h4 h5 h6] at h
      simp only [Except.ok.injEq] at h
      exact ⟨b1, w, f, b2, l, neg, pt, _, _, h1, h2, h3, h4, h5, h6, rfl, rfl, rfl, h.symm⟩
  · rintro ⟨b1, w, f, b2, l, neg, pt, x, y, h1, h2, h3, h4, h5, h6, rfl, rfl, rfl, rfl⟩
    rw [c08_parse h1 h2 h3 h4 h5 h6]

/-- **C52**: for every builtin type but `bool` and the times, the texts that are accepted and what they are in binary. -/
theorem c52_text_to_binary (F : Floats) (k : Builtin) (hk : ¬ IsTime k) (s b : Bytes) : builtinToBin F k (.str s) = .ok b ↔ StoredAs F k s b := by
  have i : ∀ (sg : Bool) (n : Nat), (n = 1 ∨ n = 2 ∨ n = 4 ∨ n = 8 ∨ n = 16) → (encInt ⟨sg, 8 * n⟩ s = .ok b ↔ IntStored sg n s b) := by
    intro sg n hn
    exact int_stored (t := ⟨sg, 8 * n⟩) (std_int _ (by omega)) rfl
  cases k with
  | bool => simp [builtinToBin, StoredAs]
  | int8 => exact i true 1 (by decide)
  | uint8 => exact i false 1 (by decide)
  | int16 => exact i true 2 (by decide)
  | uint16 => exact i false 2 (by decide)
  | int32 => exact i true 4 (by decide)
  | uint32 => exact i false 4 (by decide)
  | int64 => exact i true 8 (by decide)
  | uint64 => exact i false 8 (by decide)
  | int128 => exact i true 16 (by decide)
  | uint128 => exact i false 16 (by decide)
  | varuint32 => exact varuint_stored
  | varint32 => exact varint_stored
  | float32 => exact float_stored
  | float64 => exact float_stored
  | float128 => exact fixed_stored
  | time_point => exact absurd trivial hk
  | time_point_sec => exact absurd trivial hk
  | block_timestamp => exact absurd trivial hk
  | name =>
    show encWord 8 (fun s => some (hashName s)) .invalid_name s = .ok b ↔ TwosComplement 8 (nameValue s) b
    rw [word_stored, nameValue_eq]
    simp
  | bytes => exact bytes_stored
  | string => exact string_stored
  | checksum160 => exact fixed_stored
  | checksum256 => exact fixed_stored
  | checksum512 => exact fixed_stored
  | public_key =>
    refine (key_stored (keyType_public digest_len)).trans ?_
    simp only [c15_public_key digest_len]
    rfl
  | private_key =>
    refine (key_stored (keyType_private digest_len)).trans ?_
    simp only [StoredAs]
    by_cases hs : ∃ r, s = str "PVT_" ++ r
    · simp only [c15_private_key digest_len s _ hs]
      constructor
      · rintro ⟨v, h⟩; exact .inl ⟨hs, v, h⟩
      · rintro (⟨-, v, h⟩ | ⟨h, -⟩)
        · exact ⟨v, h⟩
        · exact absurd hs h
    · simp only [c15_wif _ hs]
      constructor
      · rintro ⟨v, ⟨a, key, extra, h1, h2, h3, h4⟩, h5⟩
        exact .inr ⟨hs, a, key, extra, h1, h2, h3, by
          have e1 := layout_write _ _ _ wf_privateKey h4 []
          have e2 := layout_write _ _ _ wf_privateKey h5 []
          have e3 := e1.symm.trans e2
          simpa using e3.symm⟩
      · rintro (⟨h, -⟩ | ⟨-, a, key, extra, h1, h2, h3, rfl⟩)
        · exact absurd h hs
        · obtain ⟨v, hv⟩ := (c14_private_key_format (0 :: key)).2 (.k1 h2)
          exact ⟨v, ⟨a, key, extra, h1, h2, h3, hv⟩, hv⟩
  | signature =>
    refine (key_stored (keyType_signature digest_len)).trans ?_
    simp only [c15_signature digest_len]
    rfl
  | symbol =>
    show encWord 8 stringToSymbol .expected_symbol s = .ok b ↔ _
    rw [word_stored]
    simp only [c07_symbol_parse, StoredAs]
    grind
  | symbol_code =>
    show encWord 8 stringToSymbolCode .expected_symbol_code s = .ok b ↔ _
    rw [word_stored]
    simp only [c07_code_parse, StoredAs]
    grind
  | asset => exact asset_stored

/-- **C52**: `bool` is one byte, and is the only type whose JSON value is not a string or number. -/
theorem c52_bool (F : Floats) (k : Builtin) (x : Bool) (b : Bytes) :
    builtinToBin F k (.bool x) = .ok b ↔ k = .bool ∧ b = [if x then 1 else 0] := by
  cases k <;> simp [builtinToBin, eq_comm]

/-- **C52**: the times. A date of the calendar from 1970 on, a time of day, and an optional fraction: a `time_point` is the number of
microseconds, in eight bytes; a `time_point_sec` the number of seconds, in four; a `block_timestamp` the number of half seconds since
2000-01-01T00:00:00, in four (from 2068-01-19T03:14:08 on that number does not fit, and wraps). -/
theorem c52_times (F : Floats) {n y h mi s : Nat} {w g : Bytes} (hy : (dayDate n).y = y)
    (hw : DateTimeText y (dayDate n).m (dayDate n).d h mi s w) (hg : ∀ c ∈ g, IsDigit c) (hl : g.length ≤ 6)
    (hr : instant n h mi s < 2 ^ 32) (b : Bytes) :
    (builtinToBin F .time_point (.str (w ++ 46 :: g)) = .ok b ↔
      TwosComplement 8 ((instant n h mi s * 1000000 + decVal g * 10 ^ (6 - g.length) : Nat) : Int) b) ∧
    (builtinToBin F .time_point (.str w) = .ok b ↔ TwosComplement 8 ((instant n h mi s * 1000000 : Nat) : Int) b) ∧
    (builtinToBin F .time_point_sec (.str (w ++ 46 :: g)) = .ok b ↔ TwosComplement 4 (instant n h mi s : Int) b) ∧
    (builtinToBin F .time_point_sec (.str w) = .ok b ↔ TwosComplement 4 (instant n h mi s : Int) b) ∧
    (10957 ≤ n → (builtinToBin F .block_timestamp (.str (w ++ 46 :: g)) = .ok b ↔
      TwosComplement 4 (((instant n h mi s * 1000000 + decVal g * 10 ^ (6 - g.length)) / 500000 - instant 10957 0 0 0 * 2 : Nat) : Int) b)) ∧
    (10957 ≤ n → (builtinToBin F .block_timestamp (.str w) = .ok b ↔
      TwosComplement 4 ((instant n h mi s * 2 - instant 10957 0 0 0 * 2 : Nat) : Int) b)) := by
  obtain ⟨h1, h2⟩ := c11_parse_microseconds hy hw hg hl hr
  have h3 := c11_parse_seconds hy hw (.inr ⟨g, rfl, hg⟩) hr
  have h4 := c11_parse_seconds (f := []) hy hw (.inl rfl) hr
  rw [List.append_nil] at h4
  have hlt : decVal g * 10 ^ (6 - g.length) < 1000000 := by
    have h5 := decVal_lt g hg
    calc decVal g * 10 ^ (6 - g.length) < 10 ^ g.length * 10 ^ (6 - g.length) := Nat.mul_lt_mul_of_pos_right h5 (by positivity)
      _ = 1000000 := by rw [← Nat.pow_add, show g.length + (6 - g.length) = 6 by omega]
  have slot : ∀ (t : Bytes) (us : Nat), stringToUtcMicroseconds t = some us → 946684800000000 ≤ us → us < 2 ^ 32 * 1000000 →
      (builtinToBin F .block_timestamp (.str t) = .ok b ↔ TwosComplement 4 ((us / 500000 - instant 10957 0 0 0 * 2 : Nat) : Int) b) := by
    intro t us ht h0 h5
    show encWord 4 slotFromText .expected_time_point t = .ok b ↔ _
    have e : slotFromText t = some ((us / 500000 - instant 10957 0 0 0 * 2) % 2 ^ 32) := by
      unfold slotFromText
      rw [ht, Option.map_some, timeToSlot_eq (by omega)]
      refine congrArg some ?_
      simp only [instant]
      have e1 : us / 1000 / 500 = us / 500000 := by rw [Nat.div_div_eq_div_mul]
      have e2 : (us : Int) / 1000 - 946684800000 = ((us / 1000 - 946684800000 : Nat) : Int) := by omega
      have e3 : (us / 1000 - 946684800000) / 500 = us / 500000 - 1893369600 := by omega
      rw [e2]
      have e4 : us / 500000 < 8589934592 := by omega
      have e5 : ((us / 1000 - 946684800000 : Nat) : Int) / 500 = ((us / 500000 - 1893369600 : Nat) : Int) := by omega
      rw [e5]
      clear e1 e2 e3 e4 e5 hlt h0 h5 hr
      have e6 : (((10957 * 24 + 0) * 60 + 0) * 60 + 0) * 2 = 1893369600 := by norm_num
      rw [e6, show (2 : Nat) ^ 32 = 4294967296 by norm_num]
      generalize us / 500000 - 1893369600 = k
      have e7 : ((k : Int) % 4294967296) = ((k % 4294967296 : Nat) : Int) := by push_cast; rfl
      rw [e7, Int.toNat_natCast]
    rw [word_stored, e]
    have e' : ∀ x : Nat, TwosComplement 4 ((x % 2 ^ 32 : Nat) : Int) b ↔ TwosComplement 4 (x : Int) b := by
      intro x
      rw [twos_nat, twos_nat]
      have : leBytes 4 (x % 2 ^ 32) = leBytes 4 x := by
        apply leVal_inj
        · rw [leBytes_length, leBytes_length]
        · rw [leVal_leBytes, leVal_leBytes]; omega
      rw [this]
    rw [← e']
    simp
  refine ⟨?_, ?_, ?_, ?_, ?_, ?_⟩
  · show encWord 8 stringToUtcMicroseconds .expected_time_point _ = .ok b ↔ _
    rw [word_stored, h1]; simp
  · show encWord 8 stringToUtcMicroseconds .expected_time_point _ = .ok b ↔ _
    rw [word_stored, h2]; simp
  · show encWord 4 timePointSecFromText .expected_time_point _ = .ok b ↔ _
    rw [word_stored, h3]; simp
  · show encWord 4 timePointSecFromText .expected_time_point _ = .ok b ↔ _
    rw [word_stored, h4]; simp
  · intro hn
    refine slot _ _ h1 ?_ (by omega)
    have : instant 10957 0 0 0 ≤ instant n h mi s := by simp only [instant]; omega
    simp only [instant] at this ⊢
    omega
  · intro hn
    have := slot _ _ h2 (by
      have : instant 10957 0 0 0 ≤ instant n h mi s := by simp only [instant]; omega
      simp only [instant] at this ⊢
      omega) (by omega)
    rw [this]
    rw [show instant n h mi s * 1000000 / 500000 = instant n h mi s * 2 by omega]

/-- **C52**: back to text. What a text is in binary is decoded, whatever follows, to a text of a value that is the same in binary. -/
theorem c52_binary_to_text {F : Floats} (hF : FloatBits F) (k : Builtin) (hk : ¬ IsTime k) {s b : Bytes} (hu : Utf8 s) (h : StoredAs F k s b)
    (hl : Lossless F k b) : ∃ t s', (∀ rest, builtinFromBin k (b ++ rest) = .ok (t, rest)) ∧ Reads t (.str s') ∧ StoredAs F k s' b := by
  rw [← c52_text_to_binary F k hk] at h
  obtain ⟨t, s', h1, h2, h3, -⟩ := builtin_encode hF (s := .str s) hu h hl
  have h1 : builtinToBin F k s' = .ok b := h1
  cases s' with
  | bool x =>
    obtain ⟨rfl, -⟩ := (c52_bool F k x b).1 h1
    cases h
  | str s' => exact ⟨t, s', h2, h3, (c52_text_to_binary F k hk s' b).1 h1⟩

/-- **C52**: every builtin type, every scalar: which ones are accepted, and what they are in binary. -/
theorem c52_scalar_to_binary (F : Floats) (k : Builtin) (s : Scalar) (b : Bytes) : builtinToBin F k s = .ok b ↔ StoredScalar F k s b := by
  cases s with
  | bool x => exact c52_bool F k x b
  | str s =>
    by_cases hk : IsTime k
    · cases k <;> first | exact hk.elim | skip
      · show encWord 8 stringToUtcMicroseconds .expected_time_point s = .ok b ↔ _
        rw [word_stored]
        simp only [StoredScalar, StoredAs, TimeStored, false_or, c11_microseconds_iff]
        constructor
        · rintro ⟨v, ⟨t, g, h1, rfl⟩, h2⟩
          refine ⟨t, g, h1, ?_⟩
          rwa [show t % 2 ^ 32 * 1000000 + ((decVal g * 10 ^ (6 - g.length) : Nat) : Int) =
            (((t % 2 ^ 32).toNat * 1000000 + decVal g * 10 ^ (6 - g.length) : Nat) : Int) by omega]
        · rintro ⟨t, g, h1, h2⟩
          refine ⟨_, ⟨t, g, h1, rfl⟩, ?_⟩
          rwa [show t % 2 ^ 32 * 1000000 + ((decVal g * 10 ^ (6 - g.length) : Nat) : Int) =
            (((t % 2 ^ 32).toNat * 1000000 + decVal g * 10 ^ (6 - g.length) : Nat) : Int) by omega] at h2
      · show encWord 4 timePointSecFromText .expected_time_point s = .ok b ↔ _
        rw [word_stored]
        simp only [StoredScalar, StoredAs, TimeStored, false_or, c11_seconds_iff]
        have key : ∀ t : Int, TwosComplement 4 ((t % 2 ^ 32).toNat : Int) b ↔ TwosComplement 4 t b := by
          intro t; unfold TwosComplement; omega
        constructor
        · rintro ⟨v, ⟨t, g, h1, rfl⟩, h2⟩; exact ⟨t, g, h1, (key t).1 h2⟩
        · rintro ⟨t, g, h1, h2⟩; exact ⟨_, ⟨t, g, h1, rfl⟩, (key t).2 h2⟩
      · show encWord 4 slotFromText .expected_time_point s = .ok b ↔ _
        rw [word_stored]
        simp only [StoredScalar, StoredAs, TimeStored, false_or, slotFromText, Option.map_eq_some_iff, c11_microseconds_iff]
        have key : ∀ (t : Int) (f : Nat), TwosComplement 4 (timeToSlot (((t % 2 ^ 32).toNat * 1000000 + f : Nat) : Int) : Int) b ↔
            TwosComplement 4 ((t % 2 ^ 32 * 1000 + (f / 1000 : Nat) - 946684800000).tdiv 500) b := by
          intro t f
          have e : ((((t % 2 ^ 32).toNat * 1000000 + f : Nat) : Int)).tdiv 1000 = t % 2 ^ 32 * 1000 + (f / 1000 : Nat) := by
            rw [Int.tdiv_eq_ediv_of_nonneg (by omega)]; omega
          unfold timeToSlot toU32
          rw [e]
          generalize (t % 2 ^ 32 * 1000 + ((f / 1000 : Nat) : Int) - 946684800000).tdiv 500 = z
          unfold TwosComplement; omega
        constructor
        · rintro ⟨v, ⟨u, ⟨t, g, h1, rfl⟩, rfl⟩, h2⟩; exact ⟨t, g, h1, (key t _).1 h2⟩
        · rintro ⟨t, g, h1, h2⟩; exact ⟨_, ⟨_, ⟨t, g, h1, rfl⟩, rfl⟩, (key t _).2 h2⟩
    · rw [c52_text_to_binary F k hk]
      have : ¬ TimeStored k s b := by
        intro h
        cases k <;> first | exact hk trivial | exact h
      simp [StoredScalar, this]

/-! Examples. -/
example : builtinToBin ⟨fun _ => none, fun _ => none⟩ .int16 (.str (str "-2")) = .ok [254, 255] := by decide +kernel
example : IntStored true 2 (str "-2") [254, 255] :=
  ⟨-2, .inr ⟨rfl, str "2", 2, by decide, ⟨by decide, by decide, by decide +kernel⟩, rfl⟩, by decide, by decide, by decide⟩
example : builtinToBin ⟨fun _ => none, fun _ => none⟩ .asset (.str (str "-1.05 SYS")) = .ok [151, 255, 255, 255, 255, 255, 255, 255, 2, 83, 89, 83, 0, 0, 0, 0] := by decide +kernel
example : builtinToBin ⟨fun _ => none, fun _ => none⟩ .name (.str (str "eosio")) = .ok [0, 0, 0, 0, 0, 234, 48, 85] := by decide +kernel
example : nameBits 0 (str "eosio") = 6138663577826885632 := by decide +kernel
example : builtinToBin ⟨fun _ => none, fun _ => none⟩ .block_timestamp (.str (str "2000-01-01T00:00:01.500")) = .ok [3, 0, 0, 0] := by decide +kernel

end Abieos
