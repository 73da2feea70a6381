import Verif.Proofs.LeafWords
import Verif.Proofs.Local
import Verif.Proofs.SerDec
import Verif.Props.Extension
import Verif.Props.Float
import Verif.Spec.Lossless
/-
All builtin types: encodings that are kept, and texts that are taken back.
-/
namespace Abieos
open Spec

theorem leafSer_of_pair {F : Floats} {k : Builtin} (hk : k ≠ .bool) {b t s : Bytes} (h : Pair (strToBin F k) (builtinFromBin k) b t s) :
    LeafSer (builtins F) k b t (.str s) := by
  obtain ⟨h1, h2, h3, h4⟩ := h
  refine ⟨?_, h2, h3, h4⟩
  show builtinToBin F k (.str s) = .ok b
  cases k <;> first | exact absurd rfl hk | exact h1

theorem encFloat_ok {strto : Bytes → Option Nat} {n : Nat} {s b : Bytes} (h : encFloat strto n s = .ok b) : ∃ v, strto s = some v ∧ b = leBytes n v := by
  unfold encFloat at h
  split at h
  · cases h
  · split at h
    · rename_i v hv; cases h; exact ⟨v, hv, rfl⟩
    · cases h

theorem pair_float {strto : Bytes → Option Nat} {n : Nat} {toDouble : Nat → Nat} {v : Nat} {t s : Bytes} (hn : 0 < n) (hv : v < 256 ^ n)
    (h1 : fpToJson (toDouble v) = .ok t) (h2 : Reads t (.str s)) (h3 : s ≠ []) (h4 : strto s = some v) :
    Pair (encFloat strto n) (decFloat n toDouble) (leBytes n v) t s := by
  refine ⟨?_, fun r => ?_, h2, leBytes_ne_nil hn⟩
  · unfold encFloat; rw [if_neg h3, h4]
  · unfold decFloat
    rw [readBytes_append n _ _ (leBytes_length n v), bind_ok]
    simp only
    rw [leVal_leBytes, Nat.mod_eq_of_lt hv, h1]; rfl

theorem std_int (s : Bool) {b : Nat} (h : b = 8 ∨ b = 16 ∨ b = 32 ∨ b = 64 ∨ b = 128) : IntTy.Std ⟨s, b⟩ := h

/-- Every encoding of a scalar, if it is one that is kept, decodes to a text that reads as a scalar with the same encoding. -/
theorem builtin_encode {F : Floats} (hF : FloatBits F) {k : Builtin} {s : Scalar} {b : Bytes} (hu : ScalarUtf8 s)
    (h : (builtins F).toBin k s = .ok b) (hl : Lossless F k b) : ∃ t s', LeafSer (builtins F) k b t s' := by
  have up : k ≠ .bool → (∀ s, strToBin F k s = .ok b → Utf8 s → ∃ t s', Pair (strToBin F k) (builtinFromBin k) b t s') →
      ∃ t s', LeafSer (builtins F) k b t s' := by
    intro hk hp
    have h : builtinToBin F k s = .ok b := h
    cases s with
    | bool c => cases k <;> first | exact absurd rfl hk | cases h
    | str s =>
      obtain ⟨t, s', hp⟩ := hp s (by cases k <;> first | exact absurd rfl hk | exact h) hu
      exact ⟨t, _, leafSer_of_pair hk hp⟩
  cases k with
  | bool =>
    have h : builtinToBin F .bool s = .ok b := h
    cases s with
    | str s => cases h
    | bool c =>
      cases h
      refine ⟨if c then str "true" else str "false", .bool c, rfl, fun r => ?_, ?_, by simp⟩
      · cases c <;> rfl
      · cases c
        · exact reads_false
        · exact reads_true
  | int8 => exact up (by decide) fun s h _ => encInt_stable (std_int _ (by decide)) h
  | uint8 => exact up (by decide) fun s h _ => encInt_stable (std_int _ (by decide)) h
  | int16 => exact up (by decide) fun s h _ => encInt_stable (std_int _ (by decide)) h
  | uint16 => exact up (by decide) fun s h _ => encInt_stable (std_int _ (by decide)) h
  | int32 => exact up (by decide) fun s h _ => encInt_stable (std_int _ (by decide)) h
  | uint32 => exact up (by decide) fun s h _ => encInt_stable (std_int _ (by decide)) h
  | int64 => exact up (by decide) fun s h _ => encInt_stable (std_int _ (by decide)) h
  | uint64 => exact up (by decide) fun s h _ => encInt_stable (std_int _ (by decide)) h
  | int128 => exact up (by decide) fun s h _ => encInt_stable (std_int _ (by decide)) h
  | uint128 => exact up (by decide) fun s h _ => encInt_stable (std_int _ (by decide)) h
  | varuint32 => exact up (by decide) fun s h _ => encVaruint_stable h
  | varint32 => exact up (by decide) fun s h _ => encVarint_stable h
  | float32 =>
    refine up (by decide) fun s h _ => ?_
    obtain ⟨v, hv, rfl⟩ := encFloat_ok h
    have hlt := hF.strtof _ _ hv
    have hlt' : v < 256 ^ 4 := by norm_num at hlt ⊢; exact hlt
    obtain ⟨t, s', h1, h2, h3, h4⟩ := hl
    rw [leVal_leBytes, Nat.mod_eq_of_lt hlt'] at h1 h4
    exact ⟨t, s', pair_float (by decide) hlt' h1 h2 h3 h4⟩
  | float64 =>
    refine up (by decide) fun s h _ => ?_
    obtain ⟨v, hv, rfl⟩ := encFloat_ok h
    have hlt := hF.strtod _ _ hv
    have hlt' : v < 256 ^ 8 := by norm_num at hlt ⊢; exact hlt
    obtain ⟨t, s', h1, h2, h3, h4⟩ := hl
    rw [leVal_leBytes, Nat.mod_eq_of_lt hlt'] at h1 h4
    exact ⟨t, s', pair_float (toDouble := id) (by decide) hlt' h1 h2 h3 h4⟩
  | float128 => exact up (by decide) fun s h _ => encFixed_stable (by decide) h
  | time_point =>
    refine up (by decide) fun s h _ => ?_
    obtain ⟨v, hv, rfl⟩ := encWord_ok h
    have hlt := utcMicroseconds_lt hv
    have hl : leVal (leBytes 8 v) % 1000 = 0 := hl
    rw [leVal_leBytes, Nat.mod_eq_of_lt (show v < 256 ^ 8 by norm_num at hlt ⊢; omega)] at hl
    obtain ⟨x, hx⟩ := pair_time_point hlt hl .expected_time_point
    exact ⟨_, x, hx⟩
  | time_point_sec =>
    refine up (by decide) fun s h _ => ?_
    obtain ⟨v, hv, rfl⟩ := encWord_ok h
    obtain ⟨x, hx⟩ := pair_time_point_sec (s := v % 2 ^ 32) (Nat.mod_lt _ (by decide)) .expected_time_point
    rw [show leBytes 4 v = leBytes 4 (v % 2 ^ 32) from by rw [← leBytes_mod 4 v, show (256 : Nat) ^ 4 = 2 ^ 32 by norm_num]]
    exact ⟨_, x, hx⟩
  | block_timestamp =>
    refine up (by decide) fun s h _ => ?_
    obtain ⟨v, hv, rfl⟩ := encWord_ok h
    obtain ⟨x, hx⟩ := pair_block_timestamp (slotFromText_lt hv) .expected_time_point
    exact ⟨_, x, hx⟩
  | name =>
    refine up (by decide) fun s h _ => ?_
    have h : encWord 8 (fun s => some (hashName s)) .invalid_name s = .ok b := h
    obtain ⟨v, hv, rfl⟩ := encWord_ok h
    obtain ⟨x, hx⟩ := pair_name (v := v % 2 ^ 64) (Nat.mod_lt _ (by decide)) .invalid_name
    rw [show leBytes 8 v = leBytes 8 (v % 2 ^ 64) from by rw [← leBytes_mod 8 v, show (256 : Nat) ^ 8 = 2 ^ 64 by norm_num]]
    exact ⟨_, x, hx⟩
  | bytes => exact up (by decide) fun s h _ => encBytes_stable h
  | string => exact up (by decide) fun s h hu => encString_stable hu h
  | checksum160 => exact up (by decide) fun s h _ => encFixed_stable (by decide) h
  | checksum256 => exact up (by decide) fun s h _ => encFixed_stable (by decide) h
  | checksum512 => exact up (by decide) fun s h _ => encFixed_stable (by decide) h
  | public_key => exact up (by decide) fun s h _ => encKey_stable (keyType_public keyDigest_length) h
  | private_key => exact up (by decide) fun s h _ => encKey_stable (keyType_private keyDigest_length) h
  | signature => exact up (by decide) fun s h _ => encKey_stable (keyType_signature keyDigest_length) h
  | symbol =>
    refine up (by decide) fun s h _ => ?_
    obtain ⟨v, hv, rfl⟩ := encWord_ok h
    obtain ⟨w, b, l, -, -, -, -, hcl, rfl⟩ := c07_symbol_parse.1 hv
    obtain ⟨x, hx⟩ := pair_symbol (p := decVal w % 256) (Nat.mod_lt _ (by decide)) hcl .expected_symbol
    exact ⟨_, x, hx⟩
  | symbol_code =>
    refine up (by decide) fun s h _ => ?_
    obtain ⟨v, hv, rfl⟩ := encWord_ok h
    obtain ⟨b, l, -, -, hcl, rfl⟩ := c07_code_parse.1 hv
    obtain ⟨x, hx⟩ := pair_symbol_code hcl .expected_symbol_code
    exact ⟨_, x, hx⟩
  | asset =>
    refine up (by decide) fun s h _ => ?_
    have h : encAsset s = .ok b := h
    unfold encAsset at h
    split at h
    · rename_i a y hv
      cases h
      obtain ⟨h1, h2, p, l, hp, hcl, rfl⟩ := stringToAsset_ok hv
      have hl : leVal ((intToBin ⟨true, 64⟩ a ++ leBytes 8 (p + 256 * leVal l)).take 8) ≠ 2 ^ 63 := hl
      have hne : a ≠ -2 ^ 63 := by
        rintro rfl
        apply hl
        rw [List.take_left' (show (intToBin ⟨true, 64⟩ (-2 ^ 63)).length = 8 by decide)]
        unfold intToBin
        rw [leVal_leBytes]
        decide
      obtain ⟨t, -, hx⟩ := pair_asset (by omega) h2 hp hcl
      exact ⟨_, t, hx⟩
    · cases h

/-! ## Decoding -/

theorem microsecondsToStr_ms (us : Nat) : microsecondsToStr ((us - us % 1000 : Nat) : Int) = microsecondsToStr us := by
  have h1 : ((us - us % 1000 : Nat) : Int) / 86400000000 = (us : Int) / 86400000000 := by omega
  have h2 : ((us - us % 1000 : Nat) : Int) / 1000 = (us : Int) / 1000 := by omega
  unfold microsecondsToStr
  rw [h1, h2]

theorem jsonNumber_quote {t : Bytes} (h : JsonNumber t) : t.head? ≠ some 34 ∧ t.head? ≠ some 78 ∧ t.head? ≠ some 73 ∧ ∀ c, t.head? = some 45 → t[1]? = some c → c ≠ 73 := by
  obtain ⟨sign, int, frac, exp, rfl, hs, hi, -⟩ := h
  obtain ⟨hne, hd⟩ := hi
  cases int with
  | nil => exact absurd rfl hne
  | cons c int =>
    have hc := hd c (List.mem_cons_self ..)
    unfold IsDigit at hc
    have key : ∀ x : UInt8, (x.toNat < 48 ∨ 57 < x.toNat) → c ≠ x := by rintro x hx rfl; omega
    rcases hs with rfl | rfl
    · refine ⟨?_, ?_, ?_, ?_⟩
      · intro h; exact key 34 (by decide) (Option.some.inj h)
      · intro h; exact key 78 (by decide) (Option.some.inj h)
      · intro h; exact key 73 (by decide) (Option.some.inj h)
      · intro x h _; exact absurd (Option.some.inj h) (key 45 (by decide))
    · refine ⟨by intro h; exact absurd (Option.some.inj h) (by decide), by intro h; exact absurd (Option.some.inj h) (by decide), by intro h; exact absurd (Option.some.inj h) (by decide), ?_⟩
      intro x _ h
      rintro rfl
      exact key 73 (by decide) (Option.some.inj h)

/-- The JSON text of a floating point number: a number, or one of three strings. -/
theorem fpToJson_reads {d : Nat} {t : Bytes} (h : fpToJson d = .ok t) :
    (JsonNumber t ∧ Reads t (.str t)) ∨ ∃ s, (s = str "NaN" ∨ s = str "Infinity" ∨ s = str "-Infinity") ∧ t = 34 :: (s ++ [34]) ∧ Reads t (.str s) := by
  by_cases hf : Spec.Finite d
  · obtain ⟨x, hx, -⟩ := c48_print_nearest hf h
    have := numberValue_json hx
    exact .inl ⟨this, reads_number this⟩
  · right
    rw [c48_print_special hf] at h
    have key : ∀ s : Bytes, (s = str "NaN" ∨ s = str "Infinity" ∨ s = str "-Infinity") → Reads (34 :: (s ++ [34])) (.str s) := by
      rintro s (rfl | rfl | rfl) <;> exact reads_plain (by decide)
    split at h
    · cases h; exact ⟨str "NaN", .inl rfl, by decide, key _ (.inl rfl)⟩
    · split at h
      · cases h; exact ⟨str "-Infinity", .inr (.inr rfl), by decide, key _ (.inr (.inr rfl))⟩
      · cases h; exact ⟨str "Infinity", .inr (.inl rfl), by decide, key _ (.inr (.inl rfl))⟩

/-- Floating point texts that read the same are the same. -/
theorem fpToJson_same {d d' : Nat} {t t' s : Bytes} (h : fpToJson d = .ok t) (h' : fpToJson d' = .ok t') (hs : Reads t (.str s)) (hs' : Reads t' (.str s)) : t = t' := by
  have key : ∀ {u u' : Bytes}, JsonNumber u → (u' = str "NaN" ∨ u' = str "Infinity" ∨ u' = str "-Infinity") → u ≠ u' := by
    rintro u u' hu h rfl
    obtain ⟨-, k2, k3, k4⟩ := jsonNumber_quote hu
    rcases h with rfl | rfl | rfl
    · exact k2 (by decide)
    · exact k3 (by decide)
    · exact k4 73 (by decide) (by decide) rfl
  rcases fpToJson_reads h with ⟨a, b⟩ | ⟨u, a, b, c⟩ <;> rcases fpToJson_reads h' with ⟨a', b'⟩ | ⟨u', a', b', c'⟩
  · have e := hs.unique b; have e' := hs'.unique b'
    cases e; cases e'; rfl
  · have e := hs.unique b; have e' := hs'.unique c'
    cases e; cases e'; exact absurd rfl (key a a')
  · have e := hs.unique c; have e' := hs'.unique b'
    cases e; cases e'; exact absurd rfl (key a' a)
  · have e := hs.unique c; have e' := hs'.unique c'
    cases e; cases e'; rw [b, b']

theorem decFloat_ok {n : Nat} {toDouble : Nat → Nat} {bin t rest : Bytes} (h : decFloat n toDouble bin = .ok (t, rest)) :
    ∃ v, v < 256 ^ n ∧ fpToJson (toDouble v) = .ok t := by
  unfold decFloat at h
  obtain ⟨⟨a, r⟩, h1, h2⟩ := bind_eq_ok.1 h
  obtain ⟨x, h3, h4⟩ := bind_eq_ok.1 h2
  simp only [Except.ok.injEq, Prod.mk.injEq] at h4
  obtain ⟨rfl, rfl⟩ := h4
  have := leVal_lt a
  rw [(readBytes_ok h1).2] at this
  exact ⟨_, this, h3⟩

theorem float_decode {strto : Bytes → Option Nat} {n : Nat} {toDouble : Nat → Nat} (hn : 0 < n) (hF : ∀ s v, strto s = some v → v < 256 ^ n) {bin t rest : Bytes}
    (h : decFloat n toDouble bin = .ok (t, rest)) : ∃ s, Reads t (.str s) ∧
      ((∃ bits t', strto s = some bits ∧ fpToJson (toDouble bits) = .ok t' ∧ Reads t' (.str s)) → ∃ b, Pair (encFloat strto n) (decFloat n toDouble) b t s) := by
  obtain ⟨v, -, hv⟩ := decFloat_ok h
  have hr : ∃ s, Reads t (.str s) ∧ s ≠ [] := by
    rcases fpToJson_reads hv with ⟨a, b⟩ | ⟨u, a, b, c⟩
    · exact ⟨t, b, by rintro rfl; obtain ⟨h0, -⟩ := b; simp at h0⟩
    · exact ⟨u, c, by rcases a with rfl | rfl | rfl <;> decide⟩
  obtain ⟨s, hs, hne⟩ := hr
  refine ⟨s, hs, ?_⟩
  rintro ⟨bits, t', h1, h2, h3⟩
  obtain rfl := fpToJson_same hv h2 hs h3
  exact ⟨_, pair_float hn (hF _ _ h1) h2 hs hne h1⟩

theorem hexEncode_len (a : Bytes) : (hexEncode a).length = 2 * a.length := by
  induction a with
  | nil => rfl
  | cons b a ih => simp [hexEncode, ih]; omega

/-- Every text that `bin_to_json` yields for a builtin type reads as a scalar. If the scalar is one that is taken back, it has an
encoding, which decodes to the same text. -/
theorem builtin_decode {F : Floats} (hF : FloatBits F) {k : Builtin} {bin t rest : Bytes} (h : (builtins F).fromBin k bin = .ok (t, rest)) :
    ∃ s, Reads t (ofScalar s) ∧ (TakesBack F k s → ∃ b, LeafSer (builtins F) k b t s) := by
  have h : builtinFromBin k bin = .ok (t, rest) := h
  have up : k ≠ .bool → (∃ b s, Pair (strToBin F k) (builtinFromBin k) b t s) →
      ∃ s, Reads t (ofScalar s) ∧ (TakesBack F k s → ∃ b, LeafSer (builtins F) k b t s) := by
    rintro hk ⟨b, s, hp⟩
    exact ⟨.str s, hp.2.2.1, fun _ => ⟨b, leafSer_of_pair hk hp⟩⟩
  -- a text, and what it takes to take it back
  have upS : ∀ (u : Bytes), k ≠ .bool → t = jsonString u → (TakesBack F k (.str (patch u)) → ∃ b s, Pair (strToBin F k) (builtinFromBin k) b t s) →
      ∃ s, Reads t (ofScalar s) ∧ (TakesBack F k s → ∃ b, LeafSer (builtins F) k b t s) := by
    rintro u hk rfl hp
    have hr := reads_jsonString u
    refine ⟨.str (patch u), hr, fun ht => ?_⟩
    obtain ⟨b, s, hp⟩ := hp ht
    have := hr.unique hp.2.2.1
    cases this
    exact ⟨b, leafSer_of_pair hk hp⟩
  cases k with
  | bool =>
    simp only [builtinFromBin] at h
    obtain ⟨⟨c, r⟩, h1, h2⟩ := bind_eq_ok.1 h
    simp only [Except.ok.injEq, Prod.mk.injEq] at h2
    have key : ∀ b : Bool, LeafSer (builtins F) .bool [if b then 1 else 0] (if b then str "true" else str "false") (.bool b) := by
      intro b
      refine ⟨by cases b <;> rfl, fun r => by cases b <;> rfl, ?_, by simp⟩
      cases b
      · exact reads_false
      · exact reads_true
    obtain ⟨h2, -⟩ := h2
    by_cases hc : c = 0
    · rw [if_neg (not_not.2 hc)] at h2
      subst h2
      exact ⟨.bool false, (key false).2.2.1, fun _ => ⟨_, key false⟩⟩
    · rw [if_pos hc] at h2
      subst h2
      exact ⟨.bool true, (key true).2.2.1, fun _ => ⟨_, key true⟩⟩
  | int8 => exact up (by decide) (decInt_stable (std_int _ (by decide)) h)
  | uint8 => exact up (by decide) (decInt_stable (std_int _ (by decide)) h)
  | int16 => exact up (by decide) (decInt_stable (std_int _ (by decide)) h)
  | uint16 => exact up (by decide) (decInt_stable (std_int _ (by decide)) h)
  | int32 => exact up (by decide) (decInt_stable (std_int _ (by decide)) h)
  | uint32 => exact up (by decide) (decInt_stable (std_int _ (by decide)) h)
  | int64 => exact up (by decide) (decInt_stable (std_int _ (by decide)) h)
  | uint64 => exact up (by decide) (decInt_stable (std_int _ (by decide)) h)
  | int128 => exact up (by decide) (decInt_stable (std_int _ (by decide)) h)
  | uint128 => exact up (by decide) (decInt_stable (std_int _ (by decide)) h)
  | varuint32 => exact up (by decide) (decVaruint_stable h)
  | varint32 => exact up (by decide) (decVarint_stable h)
  | float32 =>
    obtain ⟨s, h1, h2⟩ := float_decode (strto := F.strtof) (n := 4) (by decide) (fun s v hv => by have := hF.strtof s v hv; norm_num at this ⊢; exact this) h
    refine ⟨.str s, h1, fun ht => ?_⟩
    obtain ⟨b, hb⟩ := h2 ht
    exact ⟨b, leafSer_of_pair (by decide) hb⟩
  | float64 =>
    obtain ⟨s, h1, h2⟩ := float_decode (strto := F.strtod) (n := 8) (by decide) (fun s v hv => by have := hF.strtod s v hv; norm_num at this ⊢; exact this) h
    refine ⟨.str s, h1, fun ht => ?_⟩
    obtain ⟨b, hb⟩ := h2 ht
    exact ⟨b, leafSer_of_pair (by decide) hb⟩
  | float128 => exact up (by decide) (decFixed_stable (by decide) h)
  | time_point =>
    have h : decWord 8 (fun v => microsecondsToStr (toI64 v)) bin = .ok (t, rest) := h
    obtain ⟨v, -, -, ht⟩ := decWord_ok h
    refine upS _ (by decide) ht ?_
    rintro ⟨us, h1, h2⟩
    obtain ⟨x, hx⟩ := pair_time_point (us := us - us % 1000) (by omega) (by omega) .expected_time_point
    rw [microsecondsToStr_ms, ← Scalar.str.inj h2, jsonString_patch, ← ht] at hx
    exact ⟨_, x, hx⟩
  | time_point_sec =>
    have h : decWord 4 timePointSecToText bin = .ok (t, rest) := h
    obtain ⟨v, hv, -, ht⟩ := decWord_ok h
    obtain ⟨x, hx⟩ := pair_time_point_sec (s := v) (lt_of_lt_of_eq hv (by norm_num)) .expected_time_point
    exact up (by decide) ⟨_, x, ht ▸ hx⟩
  | block_timestamp =>
    have h : decWord 4 slotToText bin = .ok (t, rest) := h
    obtain ⟨v, hv, -, ht⟩ := decWord_ok h
    obtain ⟨x, hx⟩ := pair_block_timestamp (s := v) (lt_of_lt_of_eq hv (by norm_num)) .expected_time_point
    exact up (by decide) ⟨_, x, ht ▸ hx⟩
  | name =>
    have h : decWord 8 nameToString bin = .ok (t, rest) := h
    obtain ⟨v, hv, -, ht⟩ := decWord_ok h
    obtain ⟨x, hx⟩ := pair_name (v := v) (lt_of_lt_of_eq hv (by norm_num)) .invalid_name
    exact up (by decide) ⟨_, x, ht ▸ hx⟩
  | bytes =>
    obtain ⟨a, rfl, h2⟩ := decBytes_ok h
    refine ⟨.str (hexEncode a), reads_plain (hexEncode_chars a), fun ht => ?_⟩
    have ht : (hexEncode a).length < 2 ^ 33 := ht
    rw [hexEncode_len] at ht
    obtain ⟨b, s, hp⟩ := h2 (by omega)
    have := (reads_plain (hexEncode_chars a)).unique hp.2.2.1
    cases this
    exact ⟨b, leafSer_of_pair (by decide) hp⟩
  | string => exact up (by decide) (decString_stable h)
  | checksum160 => exact up (by decide) (decFixed_stable (by decide) h)
  | checksum256 => exact up (by decide) (decFixed_stable (by decide) h)
  | checksum512 => exact up (by decide) (decFixed_stable (by decide) h)
  | public_key => exact up (by decide) (decKey_stable (keyType_public keyDigest_length) h)
  | private_key => exact up (by decide) (decKey_stable (keyType_private keyDigest_length) h)
  | signature => exact up (by decide) (decKey_stable (keyType_signature keyDigest_length) h)
  | symbol =>
    have h : decWord 8 symbolToString bin = .ok (t, rest) := h
    obtain ⟨v, hv, -, ht⟩ := decWord_ok h
    refine upS _ (by decide) ht ?_
    rintro ⟨p, l, hp, hl, h2⟩
    obtain ⟨x, hx⟩ := pair_symbol hp hl .expected_symbol
    rw [← Scalar.str.inj h2, jsonString_patch, ← ht] at hx
    exact ⟨_, x, hx⟩
  | symbol_code =>
    have h : decWord 8 symbolCodeToString bin = .ok (t, rest) := h
    obtain ⟨v, hv, -, ht⟩ := decWord_ok h
    refine upS _ (by decide) ht ?_
    rintro ⟨l, hl, h2⟩
    obtain ⟨x, hx⟩ := pair_symbol_code hl .expected_symbol_code
    rw [← Scalar.str.inj h2, jsonString_patch, ← ht] at hx
    exact ⟨_, x, hx⟩
  | asset =>
    have h : decAsset bin = .ok (t, rest) := h
    unfold decAsset at h
    obtain ⟨⟨a, r⟩, h1, h⟩ := bind_eq_ok.1 h
    obtain ⟨⟨y, r'⟩, h2, h⟩ := bind_eq_ok.1 h
    obtain ⟨u, h3, h⟩ := bind_eq_ok.1 h
    simp only [Except.ok.injEq, Prod.mk.injEq] at h
    refine upS u (by decide) h.1.symm ?_
    rintro ⟨a, p, l, w, ha, ha', hp, hl, hw, h4⟩
    obtain ⟨w', e, hx⟩ := pair_asset ha ha' hp hl
    rw [hw] at e
    cases e
    rw [← Scalar.str.inj h4] at hx
    rw [jsonString_patch, h.1] at hx
    exact ⟨_, _, hx⟩

end Abieos
