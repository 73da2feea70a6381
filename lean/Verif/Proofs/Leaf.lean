import Verif.Model.Builtins
import Verif.Proofs.Local
import Verif.Proofs.NumberText
import Verif.Proofs.Utf8
import Verif.Props.Hex
import Verif.Props.JsonString
import Verif.Props.JsonInt
import Verif.Props.Name
import Verif.Props.Varint
import Verif.Props.Time
import Verif.Props.Symbol
import Verif.Props.Keys
/-! Builtin types: encoding, decoding and text of one value. -/
namespace Abieos
open Spec

/-- Printing a string and printing what is read back give the same text. -/
theorem jsonChars_patch (s : Bytes) : jsonChars (patch s) = jsonChars s := by
  induction hn : s.length using Nat.strongRecOn generalizing s with
  | _ m ih =>
    cases s with
    | nil => rw [patch.eq_def]
    | cons c r =>
      subst hn
      cases hu : utf8Seq (c :: r) with
      | none =>
        rw [patch_cons_none hu, jsonChars_plain (n := 1) (by decide) (utf8Seq_1 (by decide))]
        by_cases hc : plainByte c = true
        · rw [jsonChars_bad hc hu]
          simp only [List.take_succ_cons, List.take_zero, Nat.sub_self, List.drop_zero, List.cons_append, List.nil_append]
          rw [ih r.length (by simp) r rfl]
        · exfalso
          apply hc
          by_cases h2 : 0x80 ≤ c
          · exact tail_plain c h2
          · exfalso
            have h3 : c < 0x80 := by rw [u8_lt]; rw [u8_le] at h2; omega
            rw [utf8Seq_1 (by rw [u8_lt] at h3; exact h3)] at hu
            simp at hu
      | some n =>
        obtain ⟨h1, h2, h3, h4⟩ := utf8Seq_spec hu
        have hu' := h4 (patch (r.drop (n - 1)))
        rw [patch_cons_some hu]
        obtain ⟨k, rfl⟩ : ∃ k, n = k + 1 := ⟨n - 1, by omega⟩
        rw [List.take_succ_cons, List.cons_append] at hu' ⊢
        have hlen : (r.take k).length = k := by simp at h2 ⊢; omega
        by_cases hc : plainByte c = true
        · rw [jsonChars_plain hc hu', jsonChars_plain hc hu]
          simp only [List.take_succ_cons, Nat.add_sub_cancel]
          rw [List.take_left' hlen, List.drop_left' hlen, ih _ (by simp [List.length_drop]; try omega) _ rfl]
        · have hc' : plainByte c = false := by simpa using hc
          rw [jsonChars_escape hc', jsonChars_escape hc']
          have hk : k = 0 := by
            have : c.toNat < 128 := by
              by_cases h5 : 0x80 ≤ c
              · rw [tail_plain c h5] at hc'; simp at hc'
              · rw [u8_le] at h5
                have : (0x80 : UInt8).toNat = 128 := rfl
                omega
            rw [utf8Seq_1 this] at hu
            simp at hu; omega
          subst hk
          simp only [List.take_zero, List.nil_append, Nat.zero_add, Nat.sub_self, List.drop_zero]
          rw [ih r.length (by simp) r rfl]

theorem jsonString_patch (s : Bytes) : jsonString (patch s) = jsonString s := by
  unfold jsonString; rw [jsonChars_patch]

theorem reads_jsonString_utf8 {s : Bytes} (h : Utf8 s) : Reads (jsonString s) (.str s) := by
  have := reads_jsonString s
  rwa [patch_eq_of_utf8 h] at this

/-! ## One type -/

/-- `b` is the encoding of the text `s`, and its JSON text `t` reads `s`. -/
def Pair (enc : Bytes → Res Bytes) (dec : Bytes → Res (Bytes × Bytes)) (b t s : Bytes) : Prop :=
  enc s = .ok b ∧ (∀ r, dec (b ++ r) = .ok (t, r)) ∧ Reads t (.str s) ∧ b ≠ []

theorem leBytes_ne_nil {n v : Nat} (h : 0 < n) : leBytes n v ≠ [] := by
  intro h0
  have := congrArg List.length h0
  rw [leBytes_length] at this
  simp at this; omega

/-- Words: what has to be checked is that the text that is printed is parsed again. -/
theorem pair_word {n : Nat} {parse : Bytes → Option Nat} {print : Nat → Bytes} {e : Err} {v : Nat} (hn : 0 < n) (hv : v < 256 ^ n)
    (h : parse (patch (print v)) = some v) :
    Pair (encWord n parse e) (decWord n print) (leBytes n v) (jsonString (print v)) (patch (print v)) := by
  refine ⟨by simp [encWord, h], fun r => ?_, reads_jsonString _, leBytes_ne_nil hn⟩
  unfold decWord
  rw [readBytes_append n _ _ (leBytes_length n v), bind_ok]
  simp only
  rw [leVal_leBytes, Nat.mod_eq_of_lt hv]

theorem decWord_ok {n : Nat} {print : Nat → Bytes} {bin t rest : Bytes} (h : decWord n print bin = .ok (t, rest)) :
    ∃ v, v < 256 ^ n ∧ bin = leBytes n v ++ rest ∧ t = jsonString (print v) := by
  unfold decWord at h
  obtain ⟨⟨a, r⟩, h1, h2⟩ := bind_eq_ok.1 h
  obtain ⟨rfl, hl⟩ := readBytes_ok h1
  simp only [Except.ok.injEq, Prod.mk.injEq] at h2
  refine ⟨leVal a, ?_, ?_, h2.1.symm⟩
  · have := leVal_lt a; rwa [hl] at this
  · rw [← hl, leBytes_leVal, h2.2]

theorem encWord_ok {n : Nat} {parse : Bytes → Option Nat} {e : Err} {s b : Bytes} (h : encWord n parse e s = .ok b) :
    ∃ v, parse s = some v ∧ b = leBytes n v := by
  unfold encWord at h
  split at h
  · rename_i v hv
    simp only [Except.ok.injEq] at h
    exact ⟨v, hv, h.symm⟩
  · simp at h

/-! ### integers -/

theorem reads_intToJson {t : IntTy} (ht : t.Std) {v : Int} (hv : t.In v) : Reads (intToJson t v) (.str (intText t v)) := by
  have e := intText_eq t ht v hv
  have hnum : JsonNumber (intText t v) := by
    refine isInt_jsonNumber (neg := decide (v < 0)) (n := v.natAbs) ?_
    rw [e]; split <;> simp_all
  unfold intToJson
  split
  · have hc : ∀ c ∈ intText t v, plainByte c = true ∧ c.toNat < 128 := by
      have key : ∀ c : UInt8, (IsDigit c ∨ c = 45) → plainByte c = true ∧ c.toNat < 128 := by
        apply forall_uint8; decide +kernel
      intro c hc
      apply key
      rw [e] at hc
      split at hc
      · rcases List.mem_cons.1 hc with rfl | hc
        · exact .inr rfl
        · exact .inl (decRev_isDigit _ c (by simpa using hc))
      · exact .inl (decRev_isDigit _ c (by simpa using hc))
    have hj : jsonString (intText t v) = 34 :: intText t v ++ [34] := by
      unfold jsonString
      have : ∀ s : Bytes, (∀ c ∈ s, plainByte c = true ∧ c.toNat < 128) → jsonChars s = s := by
        intro s
        induction s with
        | nil => intro _; rw [jsonChars.eq_def]
        | cons c s ih =>
          intro h
          rw [jsonChars_plain (h c (by simp)).1 (utf8Seq_1 (h c (by simp)).2)]
          simp only [List.take_succ_cons, List.take_zero, Nat.sub_self, List.drop_zero, List.cons_append, List.nil_append]
          rw [ih (fun d hd => h d (by simp [hd]))]
      rw [this _ hc]; rfl
    rw [← hj]
    exact reads_jsonString_utf8 (utf8_ascii fun c h => (hc c h).2)
  · exact reads_number hnum

theorem int_size {t : IntTy} (ht : t.Std) : 0 < t.bits / 8 ∧ 256 ^ (t.bits / 8) = 2 ^ t.bits := by
  obtain ⟨s, b⟩ := t
  rcases ht with h | h | h | h | h <;> simp only at h <;> subst h <;> norm_num

theorem intFromBin_intToBin {t : IntTy} (ht : t.Std) {v : Int} (hv : t.In v) (r : Bytes) : intFromBin t (intToBin t v ++ r) = .ok (v, r) := by
  unfold intFromBin intToBin
  rw [readBytes_append _ _ _ (leBytes_length _ _), bind_ok]
  simp only
  rw [leVal_leBytes, (int_size ht).2]
  refine congrArg Except.ok (Prod.ext ?_ rfl)
  simp only
  obtain ⟨s, b⟩ := t
  rcases ht with h | h | h | h | h <;> simp only at h <;> subst h <;> cases s <;>
    simp [IntTy.In, IntTy.min, IntTy.max, IntTy.wrap] at hv ⊢ <;> (try split) <;> omega

theorem wrap_range {t : IntTy} (ht : t.Std) (x : Int) : t.In (t.wrap x) := by
  obtain ⟨s, b⟩ := t
  rcases ht with h | h | h | h | h <;> simp only at h <;> subst h <;> cases s <;>
    simp [IntTy.In, IntTy.min, IntTy.max, IntTy.wrap] <;> (try split) <;> omega

theorem intFromBin_ok {t : IntTy} (ht : t.Std) {bin rest : Bytes} {v : Int} (h : intFromBin t bin = .ok (v, rest)) : t.In v := by
  unfold intFromBin at h
  obtain ⟨⟨a, r⟩, h1, h2⟩ := bind_eq_ok.1 h
  simp only [Except.ok.injEq, Prod.mk.injEq] at h2
  rw [← h2.1]; exact wrap_range ht _

theorem pair_int {t : IntTy} (ht : t.Std) {v : Int} (hv : t.In v) : Pair (encInt t) (decInt t) (intToBin t v) (intToJson t v) (intText t v) := by
  refine ⟨?_, fun r => ?_, reads_intToJson ht hv, leBytes_ne_nil (int_size ht).1⟩
  · unfold encInt; rw [c16_int_roundtrip t ht v hv]; rfl
  · unfold decInt; rw [intFromBin_intToBin ht hv]; rfl

theorem encInt_stable {t : IntTy} (ht : t.Std) {s b : Bytes} (h : encInt t s = .ok b) : ∃ x s', Pair (encInt t) (decInt t) b x s' := by
  unfold encInt at h
  obtain ⟨v, h1, h2⟩ := bind_eq_ok.1 h
  simp only [Except.ok.injEq] at h2
  exact ⟨_, _, h2 ▸ pair_int ht ((c16_from_json_int_iff t ht s v).1 h1).2⟩

theorem decInt_stable {t : IntTy} (ht : t.Std) {bin x rest : Bytes} (h : decInt t bin = .ok (x, rest)) : ∃ b s', Pair (encInt t) (decInt t) b x s' := by
  unfold decInt at h
  obtain ⟨⟨v, r⟩, h1, h2⟩ := bind_eq_ok.1 h
  simp only [Except.ok.injEq, Prod.mk.injEq] at h2
  exact ⟨_, _, h2.1 ▸ pair_int ht (intFromBin_ok ht h1)⟩

/-! ### variable-length integers -/

theorem pair_varuint {v : Nat} (hv : v < 2 ^ 32) : ∃ b s, varuint32ToBin v = .ok b ∧ Pair encVaruint decVaruint b (intToJson ⟨false, 32⟩ v) s := by
  have ht : IntTy.Std ⟨false, 32⟩ := by simp [IntTy.Std]
  have hin : IntTy.In ⟨false, 32⟩ v := by simp [IntTy.In, IntTy.min, IntTy.max]; omega
  have hb := varuint32ToBin_eq hv
  refine ⟨_, intText ⟨false, 32⟩ v, hb, ?_, fun r => ?_, reads_intToJson ht hin, size_ne_nil (size_iff.2 hb)⟩
  · unfold encVaruint; rw [c16_int_roundtrip _ ht _ hin, bind_ok]; exact hb
  · unfold decVaruint; rw [size_read (size_iff.2 hb)]; rfl

theorem encVaruint_stable {s b : Bytes} (h : encVaruint s = .ok b) : ∃ x s', Pair encVaruint decVaruint b x s' := by
  unfold encVaruint at h
  obtain ⟨v, h1, h2⟩ := bind_eq_ok.1 h
  have hin := ((c16_from_json_int_iff ⟨false, 32⟩ (by simp [IntTy.Std]) s v).1 h1).2
  simp [IntTy.In, IntTy.min, IntTy.max] at hin
  obtain ⟨b', s', h3, h4⟩ := pair_varuint (v := v.toNat) (by omega)
  rw [h3] at h2
  simp only [Except.ok.injEq] at h2
  exact ⟨_, _, h2 ▸ h4⟩

theorem decVaruint_stable {bin x rest : Bytes} (h : decVaruint bin = .ok (x, rest)) : ∃ b s', Pair encVaruint decVaruint b x s' := by
  unfold decVaruint at h
  obtain ⟨⟨v, r⟩, h1, h2⟩ := bind_eq_ok.1 h
  simp only [Except.ok.injEq, Prod.mk.injEq] at h2
  obtain ⟨b, s, -, h3⟩ := pair_varuint (c01_varuint32_read _ _ _ h1).1
  exact ⟨b, s, h2.1 ▸ h3⟩

theorem pair_varint (v : BitVec 32) : ∃ b s, varint32ToBin v = .ok b ∧ Pair encVarint decVarint b (intToJson ⟨true, 32⟩ v.toInt) s := by
  have ht : IntTy.Std ⟨true, 32⟩ := by simp [IntTy.Std]
  have hin : IntTy.In ⟨true, 32⟩ v.toInt := by
    simp [IntTy.In, IntTy.min, IntTy.max]
    have h1 := BitVec.toInt_lt (x := v); have h2 := BitVec.le_toInt v
    simp at h1 h2
    omega
  have hb : varint32ToBin v = .ok (varuintLoop (zigzag v).toNat) := varuint32ToBin_eq (zigzag v).isLt
  refine ⟨_, intText ⟨true, 32⟩ v.toInt, hb, ?_, fun r => ?_, reads_intToJson ht hin, size_ne_nil ((size_iff (n := (zigzag v).toNat)).2 hb)⟩
  · unfold encVarint; rw [c16_int_roundtrip _ ht _ hin, bind_ok, BitVec.ofInt_toInt]; exact hb
  · obtain ⟨b, h1, h2⟩ := c02_varint32_roundtrip v r
    rw [hb] at h1
    simp only [Except.ok.injEq] at h1
    unfold decVarint; rw [h1, h2]; rfl

theorem encVarint_stable {s b : Bytes} (h : encVarint s = .ok b) : ∃ x s', Pair encVarint decVarint b x s' := by
  unfold encVarint at h
  obtain ⟨v, h1, h2⟩ := bind_eq_ok.1 h
  obtain ⟨b', s', h3, h4⟩ := pair_varint (BitVec.ofInt 32 v)
  rw [h3] at h2
  simp only [Except.ok.injEq] at h2
  exact ⟨_, _, h2 ▸ h4⟩

theorem decVarint_stable {bin x rest : Bytes} (h : decVarint bin = .ok (x, rest)) : ∃ b s', Pair encVarint decVarint b x s' := by
  unfold decVarint at h
  obtain ⟨⟨v, r⟩, h1, h2⟩ := bind_eq_ok.1 h
  simp only [Except.ok.injEq, Prod.mk.injEq] at h2
  obtain ⟨b, s, -, h3⟩ := pair_varint v
  exact ⟨b, s, h2.1 ▸ h3⟩

/-! ### hex -/

theorem hexEncode_chars (a : Bytes) : ∀ c ∈ hexEncode a, plainByte c = true ∧ c.toNat < 128 := by
  have key : ∀ n : Fin 16, plainByte (hexDigit n.val) = true ∧ (hexDigit n.val).toNat < 128 := by decide +kernel
  induction a with
  | nil => simp [hexEncode]
  | cons b a ih =>
    intro c hc
    obtain ⟨h1, h2, -⟩ := nibbles b
    rw [hexEncode] at hc
    rcases List.mem_cons.1 hc with rfl | hc
    · exact key ⟨_, h1⟩
    · rcases List.mem_cons.1 hc with rfl | hc
      · exact key ⟨_, h2⟩
      · exact ih c hc

theorem jsonString_plain {s : Bytes} (hc : ∀ c ∈ s, plainByte c = true ∧ c.toNat < 128) : jsonString s = 34 :: (s ++ [34]) := by
  unfold jsonString
  have : ∀ s : Bytes, (∀ c ∈ s, plainByte c = true ∧ c.toNat < 128) → jsonChars s = s := by
    intro s
    induction s with
    | nil => intro _; rw [jsonChars.eq_def]
    | cons c s ih =>
      intro h
      rw [jsonChars_plain (h c (by simp)).1 (utf8Seq_1 (h c (by simp)).2)]
      simp only [List.take_succ_cons, List.take_zero, Nat.sub_self, List.drop_zero, List.cons_append, List.nil_append]
      rw [ih (fun d hd => h d (by simp [hd]))]
  rw [this _ hc]

theorem reads_plain {s : Bytes} (hc : ∀ c ∈ s, plainByte c = true ∧ c.toNat < 128) : Reads (34 :: (s ++ [34])) (.str s) := by
  rw [← jsonString_plain hc]
  exact reads_jsonString_utf8 (utf8_ascii fun c h => (hc c h).2)

theorem pair_fixed {n : Nat} (hn : 0 < n) {a : Bytes} (ha : a.length = n) :
    Pair (encFixed n) (decFixed n) a (34 :: (hexEncode a ++ [34])) (hexEncode a) := by
  refine ⟨?_, fun r => ?_, reads_plain (hexEncode_chars a), fun h => by subst h; simp at ha; omega⟩
  · unfold encFixed
    rw [(c03_hex_roundtrip a).1, bind_ok, ha]
    simp
  · unfold decFixed
    rw [readBytes_append n a r ha]; rfl

theorem encFixed_stable {n : Nat} (hn : 0 < n) {s b : Bytes} (h : encFixed n s = .ok b) : ∃ x s', Pair (encFixed n) (decFixed n) b x s' := by
  unfold encFixed at h
  obtain ⟨v, -, h2⟩ := bind_eq_ok.1 h
  obtain ⟨_, h3, h4⟩ := bind_eq_ok.1 h2
  simp only [Except.ok.injEq] at h4
  subst h4
  exact ⟨_, _, pair_fixed hn (by simpa using check_eq_ok.1 h3)⟩

theorem decFixed_stable {n : Nat} (hn : 0 < n) {bin x rest : Bytes} (h : decFixed n bin = .ok (x, rest)) :
    ∃ b s', Pair (encFixed n) (decFixed n) b x s' := by
  unfold decFixed at h
  obtain ⟨⟨a, r⟩, h1, h2⟩ := bind_eq_ok.1 h
  simp only [Except.ok.injEq, Prod.mk.injEq] at h2
  exact ⟨_, _, h2.1 ▸ pair_fixed hn (readBytes_ok h1).2⟩

theorem pair_bytes {a : Bytes} (ha : a.length < 2 ^ 32) : ∃ h, varuint32ToBin a.length = .ok h ∧
    Pair encBytes decBytes (h ++ a) (34 :: (hexEncode a ++ [34])) (hexEncode a) := by
  have hb := varuint32ToBin_eq ha
  obtain ⟨-, e2, e3⟩ := c03_hex_roundtrip a
  refine ⟨_, hb, ?_, fun r => ?_, reads_plain (hexEncode_chars a), fun h => size_ne_nil (size_iff.2 hb) (List.append_eq_nil_iff.1 h).1⟩
  · unfold encBytes
    have h1 : (hexEncode a).length &&& 1 = 0 := by rw [e3, Nat.and_one_is_mod]; omega
    rw [h1, e3, show 2 * a.length / 2 = a.length by omega, hb, e2]
    rfl
  · unfold decBytes
    rw [List.append_assoc, size_read64 (size_iff.2 hb), bind_ok]
    simp only
    rw [readBytes_append _ a r rfl]; rfl

theorem encBytes_stable {s b : Bytes} (h : encBytes s = .ok b) : ∃ x s', Pair encBytes decBytes b x s' := by
  unfold encBytes at h
  obtain ⟨_, h1, h⟩ := bind_eq_ok.1 h
  obtain ⟨c, h2, h⟩ := bind_eq_ok.1 h
  split at h
  · rename_i v hv
    simp only [Except.ok.injEq] at h
    obtain ⟨-, -, -, h3⟩ := unhexLoop_some _ _ hv
    have hl : s.length / 2 = v.length := by omega
    rw [hl] at h2
    obtain ⟨c', h4, h5⟩ := pair_bytes (a := v) (size_iff.2 h2).1
    rw [h2] at h4
    simp only [Except.ok.injEq] at h4
    subst h4
    exact ⟨_, _, h ▸ h5⟩
  · simp at h

theorem decBytes_ok {bin x rest : Bytes} (h : decBytes bin = .ok (x, rest)) : ∃ a, x = 34 :: (hexEncode a ++ [34]) ∧
    (a.length < 2 ^ 32 → ∃ b s', Pair encBytes decBytes b x s') := by
  unfold decBytes at h
  obtain ⟨⟨n, r⟩, h1, h2⟩ := bind_eq_ok.1 h
  obtain ⟨⟨a, r'⟩, h3, h4⟩ := bind_eq_ok.1 h2
  simp only [Except.ok.injEq, Prod.mk.injEq] at h4
  refine ⟨a, h4.1.symm, fun hl => ?_⟩
  obtain ⟨c, -, h5⟩ := pair_bytes hl
  exact ⟨_, _, h4.1 ▸ h5⟩

/-! ### strings -/

theorem pair_string {s : Bytes} (hs : s.length < 2 ^ 32) : ∃ h, varuint32ToBin s.length = .ok h ∧ (Utf8 s →
    Pair encString decString (h ++ s) (jsonString s) s) := by
  have hb := varuint32ToBin_eq hs
  refine ⟨_, hb, fun hu => ⟨?_, fun r => ?_, reads_jsonString_utf8 hu, fun h => size_ne_nil (size_iff.2 hb) (List.append_eq_nil_iff.1 h).1⟩⟩
  · unfold encString; rw [hb]; rfl
  · unfold decString
    rw [List.append_assoc, size_read (size_iff.2 hb), bind_ok]
    simp only
    rw [readBytes_append _ s r rfl]; rfl

theorem encString_stable {s b : Bytes} (hu : Utf8 s) (h : encString s = .ok b) : ∃ x s', Pair encString decString b x s' := by
  unfold encString at h
  obtain ⟨c, h2, h⟩ := bind_eq_ok.1 h
  simp only [Except.ok.injEq] at h
  obtain ⟨c', h4, h5⟩ := pair_string (size_iff.2 h2).1
  rw [h2] at h4
  simp only [Except.ok.injEq] at h4
  subst h4
  exact ⟨_, _, h ▸ h5 hu⟩

theorem decString_stable {bin x rest : Bytes} (h : decString bin = .ok (x, rest)) : ∃ b s', Pair encString decString b x s' := by
  unfold decString at h
  obtain ⟨⟨n, r⟩, h1, h2⟩ := bind_eq_ok.1 h
  obtain ⟨⟨a, r'⟩, h3, h4⟩ := bind_eq_ok.1 h2
  simp only [Except.ok.injEq, Prod.mk.injEq] at h4
  have hn := (c01_varuint32_read _ _ _ h1).1
  have hl := (readBytes_ok h3).2
  obtain ⟨c, h5, h6⟩ := pair_string (s := patch a) (by rw [(c18_patch a).2.2.1]; omega)
  exact ⟨_, _, h4.1 ▸ jsonString_patch a ▸ h6 (patch_utf8 a)⟩

end Abieos
