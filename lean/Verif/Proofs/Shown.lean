import Verif.Spec.Shown
import Verif.Props.Varint
import Verif.Props.BuiltinFormat
import Verif.Props.KeyFormat
import Verif.Props.TimeExact
import Verif.Proofs.Utf8
/-
Lemmas for C61: the readers and printers of the builtin types against their specification.
-/
namespace Abieos
open Spec

/-! ### Variable length integers -/

theorem lebAny_ne {n : Nat} {b : Bytes} (h : LebAny n b) : b ≠ [] := by cases h <;> simp

theorem mod_step {c n k : Nat} (hc : c < 128) (hk : 7 ≤ k) : (c + 128 * n) % 2 ^ k = c + 128 * (n % 2 ^ (k - 7)) := by
  obtain ⟨m, rfl⟩ := Nat.exists_eq_add_of_le hk
  have e : 2 ^ (7 + m) = 128 * 2 ^ m := by rw [Nat.pow_add]
  rw [e, Nat.add_sub_cancel_left, Nat.add_mod, Nat.mul_mod_mul_left]
  have h1 : c < 128 * 2 ^ m := by have := Nat.two_pow_pos m; omega
  have h2 : n % 2 ^ m < 2 ^ m := Nat.mod_lt _ (Nat.two_pow_pos m)
  rw [Nat.mod_eq_of_lt h1, Nat.mod_eq_of_lt (by omega)]

theorem varLoop_iff {w lim : Nat} (hl : ∀ sh, sh % 7 = 0 → sh < lim → sh ≤ w ∧ (sh + 7 < lim → sh + 7 ≤ w)) (hm : lim % 7 = 0) (v : Nat) (r : Bytes) :
    ∀ (s : Bytes) (sh dest : Nat), sh % 7 = 0 → sh ≤ lim → dest < 2 ^ sh →
    (varuintFromBinLoop w lim sh dest s = .ok (v, r) ↔ ∃ n b, s = b ++ r ∧ LebAny n b ∧ sh + 7 * b.length ≤ lim ∧ v = dest + 2 ^ sh * (n % 2 ^ (w - sh))) := by
  intro s
  induction s with
  | nil =>
    intro sh dest _ _ _
    constructor
    · intro h
      rw [varuintFromBinLoop] at h
      split at h <;> cases h
    · rintro ⟨n, b, h, hb, -⟩
      have := List.append_eq_nil_iff.1 h.symm
      exact absurd this.1 (lebAny_ne hb)
  | cons c s ih =>
    intro sh dest h7 hle hd
    by_cases hlt : sh < lim
    · obtain ⟨hw, hw'⟩ := hl sh h7 hlt
      rw [fromLoop_cons hlt hw hd]
      split
      · rename_i hc
        have hcl := c.toNat_lt
        have ec : c.toNat % 128 = c.toNat - 128 := by omega
        have hd' := dest_lt (w := w) hd (Nat.mod_lt c.toNat (by decide : 0 < 128))
        rw [ih (sh + 7) _ (by omega) (by omega) hd']
        constructor
        · rintro ⟨n, b, rfl, hb, hlen, rfl⟩
          have hpos : 0 < b.length := List.length_pos_iff.2 (lebAny_ne hb)
          have hk : 7 ≤ w - sh := by have := hw' (by omega); omega
          refine ⟨_, c :: b, rfl, .more hc hb, by simp only [List.length_cons]; omega, ?_⟩
          rw [mod_step (by omega) hk, Nat.pow_add, ec, Nat.mod_eq_of_lt (b := 2 ^ (w - sh))]
          · rw [show w - (sh + 7) = w - sh - 7 by omega]; ring
          · calc c.toNat - 128 < 2 ^ 7 := by omega
              _ ≤ 2 ^ (w - sh) := Nat.pow_le_pow_right (by decide) hk
        · rintro ⟨n, b, h, hb, hlen, rfl⟩
          cases hb with
          | last h' => simp only [List.cons_append, List.nil_append, List.cons.injEq] at h; obtain ⟨rfl, -⟩ := h; omega
          | @more c' n b h' hb =>
            simp only [List.cons_append, List.cons.injEq] at h
            obtain ⟨rfl, rfl⟩ := h
            have hpos : 0 < b.length := List.length_pos_iff.2 (lebAny_ne hb)
            simp only [List.length_cons] at hlen
            have hk : 7 ≤ w - sh := by have := hw' (by omega); omega
            refine ⟨n, b, rfl, hb, by omega, ?_⟩
            rw [mod_step (by omega) hk, Nat.pow_add, ec, Nat.mod_eq_of_lt (b := 2 ^ (w - sh))]
            · rw [show w - (sh + 7) = w - sh - 7 by omega]; ring
            · calc c.toNat - 128 < 2 ^ 7 := by omega
                _ ≤ 2 ^ (w - sh) := Nat.pow_le_pow_right (by decide) hk
      · rename_i hc
        constructor
        · intro h
          cases h
          exact ⟨_, [c], rfl, .last (by omega), by simp only [List.length_cons, List.length_nil]; omega, rfl⟩
        · rintro ⟨n, b, h, hb, hlen, rfl⟩
          cases hb with
          | last h' => simp only [List.cons_append, List.nil_append, List.cons.injEq] at h; obtain ⟨rfl, rfl⟩ := h; rfl
          | more h' hb => simp only [List.cons_append, List.cons.injEq] at h; obtain ⟨rfl, -⟩ := h; omega
    · constructor
      · intro h
        rw [varuintFromBinLoop.eq_def] at h
        simp [hlt] at h
      · rintro ⟨n, b, h, hb, hlen, -⟩
        have hpos : 0 < b.length := List.length_pos_iff.2 (lebAny_ne hb)
        omega

theorem varuint32_iff {bin r : Bytes} {v : Nat} : varuint32FromBin bin = .ok (v, r) ↔ ∃ b, bin = b ++ r ∧ SizeRead v b := by
  unfold varuint32FromBin
  rw [varLoop_iff (by intro sh h1 h2; omega) (by decide) v r bin 0 0 (by decide) (by decide) (by decide)]
  constructor
  · rintro ⟨n, b, rfl, h1, h2, rfl⟩; exact ⟨b, rfl, n, h1, by omega, by simp⟩
  · rintro ⟨b, rfl, n, h1, h2, rfl⟩; exact ⟨n, b, rfl, h1, by omega, by simp⟩

theorem varuint64_iff {bin r : Bytes} {v : Nat} : varuint64FromBin bin = .ok (v, r) ↔ ∃ b, bin = b ++ r ∧ VarRead 64 10 v b := by
  unfold varuint64FromBin
  rw [varLoop_iff (by intro sh h1 h2; omega) (by decide) v r bin 0 0 (by decide) (by decide) (by decide)]
  constructor
  · rintro ⟨n, b, rfl, h1, h2, rfl⟩; exact ⟨b, rfl, n, h1, by omega, by simp⟩
  · rintro ⟨b, rfl, n, h1, h2, rfl⟩; exact ⟨n, b, rfl, h1, by omega, by simp⟩


/-! ### Strings -/

theorem upperHex_iff {s b : Bytes} : UpperHex s b ↔ s = hexEncode b := by
  unfold UpperHex
  rw [hexText_iff]
  constructor
  · rintro ⟨h1, h2⟩
    obtain ⟨-, -, h3, -⟩ := unhexLoop_some _ _ h1
    rw [h3]
    have : ∀ c : UInt8, c.toNat < 97 → Spec.upper c = c := by
      apply forall_uint8; decide +kernel
    have h4 : s.map Spec.upper = s.map id := List.map_congr_left fun c hc => this c (h2 c hc)
    rw [h4, List.map_id]
  · rintro rfl
    refine ⟨unhexLoop_hexEncode b, ?_⟩
    have hd : ∀ n : Nat, (hexDigit n).toNat < 97 ∨ 16 ≤ n := by
      intro n
      have : ∀ k : Fin 16, (hexDigit k.val).toNat < 97 := by decide +kernel
      by_cases h : n < 16
      · exact .inl (this ⟨n, h⟩)
      · exact .inr (by omega)
    induction b with
    | nil => simp [hexEncode]
    | cons x b ih =>
      intro c hc
      obtain ⟨h1, h2, -⟩ := nibbles x
      simp only [hexEncode, List.mem_cons] at hc
      rcases hc with rfl | rfl | hc
      · rcases hd (x.toNat >>> 4) with h | h; exacts [h, by omega]
      · rcases hd (x.toNat &&& 0xf) with h | h; exacts [h, by omega]
      · exact ih c hc

theorem isChar_ascii {c : UInt8} (h : c.toNat < 128) : IsChar [c] c.toNat := by
  refine ⟨.inl (by omega), ?_⟩
  unfold Reader.utf8Encode
  rw [if_pos h]
  simp

theorem not_plain_ascii : ∀ c : UInt8, plainByte c = false → c.toNat < 128 := by apply forall_uint8; decide +kernel

theorem not_plain_cases : ∀ c : UInt8, plainByte c = false → c = 34 ∨ c = 92 ∨ (c ≠ 34 ∧ c ≠ 92 ∧ (c.toNat < 32 ∨ c.toNat = 127)) := by
  apply forall_uint8; decide +kernel

theorem plain_iff : ∀ c : UInt8, plainByte c = true ↔ 32 ≤ c.toNat ∧ c.toNat ≠ 34 ∧ c.toNat ≠ 92 ∧ c.toNat ≠ 127 := by
  apply forall_uint8; decide +kernel

theorem plain_char {n : Nat} (hs : IsScalarValue n) (h1 : 32 ≤ n) (h2 : n ≠ 34) (h3 : n ≠ 92) (h4 : n ≠ 127) :
    ∃ c x, Reader.utf8Encode n = c :: x ∧ plainByte c = true := by
  unfold Reader.utf8Encode
  have hb : ∀ m : Nat, m < 256 → (UInt8.ofNat m).toNat = m := fun m hm => uint8_toNat_ofNat_lt hm
  unfold IsScalarValue at hs
  split
  · exact ⟨_, _, rfl, by rw [plain_iff, hb _ (by omega)]; omega⟩
  · split
    · exact ⟨_, _, rfl, by rw [plain_iff, hb _ (by omega)]; omega⟩
    · split
      · exact ⟨_, _, rfl, by rw [plain_iff, hb _ (by omega)]; omega⟩
      · exact ⟨_, _, rfl, by rw [plain_iff, hb _ (by omega)]; omega⟩

theorem escaped_eq {s t : Bytes} (h : Escaped s t) : t = jsonChars s := by
  induction h with
  | nil => rw [jsonChars]
  | @char x r t n hx h1 h2 h3 h4 _ ih =>
    obtain ⟨hs, rfl⟩ := hx
    have hu := utf8Seq_encode hs r
    obtain ⟨c, y, hc, hp⟩ := plain_char hs h1 h2 h3 h4
    rw [hc] at hu ⊢
    simp only [List.cons_append] at hu ⊢
    rw [jsonChars_plain hp hu, ih]
    simp
  | quote _ ih => rw [jsonChars_escape (by decide), ih]; rfl
  | backslash _ ih => rw [jsonChars_escape (by decide), ih]; rfl
  | @control c h r t hc hh _ ih =>
    have hp : plainByte c = false := by
      cases e : plainByte c with
      | false => rfl
      | true => have := (plain_iff c).1 e; omega
    have h34 : c ≠ 34 := by rintro rfl; revert hc; decide
    have h92 : c ≠ 92 := by rintro rfl; revert hc; decide
    rw [upperHex_iff.1 hh, jsonChars_escape hp, ih]
    simp [escapeByte, h34, h92, hexEncode]
  | @bad c r t hn _ ih =>
    have hu : utf8Seq (c :: r) = none := by
      cases e : utf8Seq (c :: r) with
      | none => rfl
      | some k =>
        obtain ⟨cp, h1, h2⟩ := encode_of_utf8Seq e
        exact absurd (List.take_append_drop k (c :: r)).symm (hn _ cp _ ⟨h1, h2⟩)
    have hp : plainByte c = true := by
      cases e : plainByte c with
      | true => rfl
      | false => exact absurd rfl (hn [c] _ r (isChar_ascii (not_plain_ascii c e)))
    rw [jsonChars_bad hp hu, ih]

theorem escaped_jsonChars (s : Bytes) : Escaped s (jsonChars s) := by
  induction hn : s.length using Nat.strong_induction_on generalizing s with
  | _ n ih =>
    cases s with
    | nil => rw [jsonChars]; exact .nil
    | cons c r =>
      simp only [List.length_cons] at hn
      cases hp : plainByte c with
      | false =>
        have hr := ih r.length (by omega) r rfl
        rw [jsonChars_escape hp]
        rcases not_plain_cases c hp with rfl | rfl | ⟨h34, h92, h⟩
        · exact .quote hr
        · exact .backslash hr
        · have := Escaped.control h (upperHex_iff.2 rfl) hr
          simpa [escapeByte, h34, h92, hexEncode] using this
      | true =>
        cases e : utf8Seq (c :: r) with
        | none =>
          rw [jsonChars_bad hp e]
          refine .bad ?_ (ih r.length (by omega) r rfl)
          rintro x m y ⟨h1, rfl⟩ h
          have := utf8Seq_encode h1 y
          rw [← h, e] at this
          cases this
        | some k =>
          rw [jsonChars_plain hp e]
          obtain ⟨cp, h1, h2⟩ := encode_of_utf8Seq e
          obtain ⟨h3, -, -, -⟩ := utf8Seq_spec e
          have hr := ih (r.drop (k - 1)).length (by simp only [List.length_drop]; omega) (r.drop (k - 1)) rfl
          have hc : 32 ≤ cp ∧ cp ≠ 34 ∧ cp ≠ 92 ∧ cp ≠ 127 := by
            by_cases h7 : cp < 128
            · have e2 : Reader.utf8Encode cp = [UInt8.ofNat cp] := by unfold Reader.utf8Encode; rw [if_pos h7]
              rw [e2] at h2
              obtain ⟨j, rfl⟩ : ∃ j, k = j + 1 := ⟨k - 1, by omega⟩
              simp only [List.take_succ_cons, List.cons.injEq] at h2
              have := (plain_iff c).1 hp
              rw [h2.1, uint8_toNat_ofNat_lt (by omega)] at this
              exact this
            · omega
          have := Escaped.char ⟨h1, h2⟩ hc.1 hc.2.1 hc.2.2.1 hc.2.2.2 hr
          have e3 : (c :: r).take k ++ r.drop (k - 1) = c :: r := by
            rw [← drop_cons_pred (c := c) h3, List.take_append_drop]
          rwa [e3] at this

theorem jsonStr_iff {s t : Bytes} : JsonStr s t ↔ t = jsonString s := by
  unfold JsonStr jsonString quoted
  constructor
  · rintro ⟨e, h, rfl⟩; rw [escaped_eq h]
  · rintro rfl; exact ⟨_, escaped_jsonChars s, rfl⟩

theorem asString_iff {R : Bytes → Prop} {x : Bytes} (h : ∀ s, R s ↔ s = x) {t : Bytes} : AsString R t ↔ t = jsonString x := by
  unfold AsString
  constructor
  · rintro ⟨s, h1, h2⟩; rw [(h s).1 h1] at h2; exact jsonStr_iff.1 h2
  · rintro rfl; exact ⟨x, (h x).2 rfl, jsonStr_iff.2 rfl⟩

/-! ### Numbers -/

theorem decVal_zero {s : Bytes} (h : ∀ c ∈ s, IsDigit c) (h0 : decVal s = 0) : s.head? = none ∨ s.head? = some 48 := by
  cases s with
  | nil => exact .inl rfl
  | cons c s =>
    right
    have hc := h c (by simp)
    rw [decVal, decFrom] at h0
    have := decFrom_ge (0 * 10 + digitVal c) s
    rw [digitVal_eq] at this h0
    have : c.toNat = 48 := by unfold IsDigit at hc; omega
    simp only [List.head?_cons, Option.some.injEq]
    exact uint8_ext this

theorem shortDecimal_eq : ∀ (k : Nat) {n : Nat} {s : Bytes}, s.length = k → ShortDecimal n s → s = (decRev n).reverse
  | 0, n, s, hk, h => absurd (List.length_eq_zero_iff.1 hk) h.1.1
  | k + 1, n, s, hk, h => by
    obtain ⟨⟨hne, hd, hv⟩, hz⟩ := h
    obtain ⟨i, c, rfl⟩ : ∃ i c, s = i ++ [c] := ⟨s.dropLast, s.getLast hne, (List.dropLast_append_getLast hne).symm⟩
    have hc := hd c (by simp)
    have hc' : 48 ≤ c.toNat ∧ c.toNat ≤ 57 := hc
    rw [decVal_snoc] at hv
    have e1 : n % 10 = c.toNat - 48 := by omega
    have e2 : n / 10 = decVal i := by omega
    have e3 : UInt8.ofNat (48 + n % 10) = c := by
      apply uint8_ext
      rw [digit_toNat (by omega)]
      omega
    rw [decRev, e3, e2]
    by_cases hi : i = []
    · subst hi; simp [decVal, decFrom]
    · have hh : i.head? ≠ some 48 := by
        intro h'
        have := hz (by simp [List.head?_append, h'])
        have := congrArg List.length this
        simp at this
        exact hi this
      have hn0 : decVal i ≠ 0 := by
        intro h0
        rcases decVal_zero (fun c hc => hd c (by simp [hc])) h0 with h' | h'
        · exact hi (by simpa using h')
        · exact hh h'
      have hik : i.length = k := by simpa using hk
      rw [if_neg hn0, List.reverse_cons, ← shortDecimal_eq k hik ⟨⟨hi, fun c hc => hd c (by simp [hc]), rfl⟩, fun h' => absurd h' hh⟩]

theorem shortDecimal_iff {n : Nat} {s : Bytes} : ShortDecimal n s ↔ s = (decRev n).reverse := by
  refine ⟨shortDecimal_eq _ rfl, ?_⟩
  rintro rfl
  refine ⟨natDec_isDecimal n, ?_⟩
  rw [List.head?_reverse]
  intro h
  by_cases hn : n = 0
  · subst hn; rw [decRev]; rfl
  · exact absurd h (decRev_getLast n hn)

theorem integerText_iff {t : IntTy} (ht : t.Std) {v : Int} (hv : t.In v) {s : Bytes} : IntegerText v s ↔ s = intText t v := by
  unfold IntegerText
  rw [intText_eq t ht v hv]
  constructor
  · rintro ⟨w, h, rfl⟩; rw [shortDecimal_iff.1 h]
  · rintro rfl; exact ⟨_, shortDecimal_iff.2 rfl, rfl⟩

theorem intShown_iff {t : IntTy} (ht : t.Std) {n : Nat} (hn : t.bits = 8 * n) {v : Int} (hv : t.In v) {s : Bytes} :
    IntShown n v s ↔ s = intToJson t v := by
  unfold IntShown intToJson
  constructor
  · rintro ⟨w, h, rfl⟩
    rw [integerText_iff ht hv] at h
    subst h
    split
    · rw [if_neg (by omega)]
    · rw [if_pos (by omega)]; rfl
  · rintro rfl
    refine ⟨_, (integerText_iff ht hv).2 rfl, ?_⟩
    split
    · rw [if_neg (by omega)]; rfl
    · rw [if_pos (by omega)]

theorem padded_unique : ∀ {k v : Nat} {s s' : Bytes}, Padded k v s → Padded k v s' → s = s' := by
  have key : ∀ (k : Nat) (s s' : Bytes), s.length = k → s'.length = k → (∀ c ∈ s, IsDigit c) → (∀ c ∈ s', IsDigit c) → decVal s = decVal s' → s = s' := by
    intro k
    induction k with
    | zero => intro s s' h1 h2 _ _ _; rw [List.length_eq_zero_iff.1 h1, List.length_eq_zero_iff.1 h2]
    | succ k ih =>
      intro s s' h1 h2 h3 h4 h5
      have n1 : s ≠ [] := by rintro rfl; simp at h1
      have n2 : s' ≠ [] := by rintro rfl; simp at h2
      obtain ⟨i, c, rfl⟩ : ∃ i c, s = i ++ [c] := ⟨s.dropLast, s.getLast n1, (List.dropLast_append_getLast n1).symm⟩
      obtain ⟨i', c', rfl⟩ : ∃ i c, s' = i ++ [c] := ⟨s'.dropLast, s'.getLast n2, (List.dropLast_append_getLast n2).symm⟩
      have a1 : 48 ≤ c.toNat ∧ c.toNat ≤ 57 := h3 c (by simp)
      have a2 : 48 ≤ c'.toNat ∧ c'.toNat ≤ 57 := h4 c' (by simp)
      rw [decVal_snoc, decVal_snoc] at h5
      have e : c = c' := uint8_ext (by omega)
      rw [e, ih i i' (by simpa using h1) (by simpa using h2) (fun c hc => h3 c (by simp [hc])) (fun c hc => h4 c (by simp [hc])) (by omega)]
  intro k v s s' h h'
  exact key k s s' h.1 h'.1 h.2.1 h'.2.1 (by rw [h.2.2, h'.2.2])

/-- A word of `n` bytes, read as an integer. -/
theorem wrap_iff {t : IntTy} (ht : t.Std) {n : Nat} (hn : t.bits = 8 * n) {b : Bytes} {v : Int} :
    (b.length = n ∧ v = t.wrap (leVal b)) ↔ t.In v ∧ TwosComplement n v b := by
  unfold TwosComplement
  have hl : b.length = n → (leVal b : Int) < 256 ^ n := by
    intro h
    have := leVal_lt b
    rw [h] at this
    exact_mod_cast this
  obtain ⟨s, w⟩ := t
  simp only at hn
  obtain rfl : n = w / 8 := by omega
  rcases ht with h | h | h | h | h <;> simp only at h <;> subst h <;>
    cases s <;> simp only [IntTy.wrap, IntTy.In, IntTy.min, IntTy.max] <;> constructor <;> rintro ⟨h1, h2⟩ <;> first | (have := hl h1) | (have := hl h2.1)
  all_goals
    norm_num at *
    first | refine ⟨?_, h1, ?_⟩ | refine ⟨h2.1, ?_⟩
    all_goals omega

theorem decInt_iff {t : IntTy} (ht : t.Std) {n : Nat} (hn : t.bits = 8 * n) {bin s r : Bytes} :
    decInt t bin = .ok (s, r) ↔ ∃ b, bin = b ++ r ∧ IntRead t.signed n b s := by
  have hr : ∀ v : Int, t.In v ↔ (if t.signed then -(2 ^ (8 * n - 1)) ≤ v ∧ v < 2 ^ (8 * n - 1) else 0 ≤ v ∧ v < 2 ^ (8 * n)) := by
    intro v
    unfold IntTy.In IntTy.min IntTy.max
    rw [hn]
    split <;> constructor <;> rintro ⟨h1, h2⟩ <;> exact ⟨h1, by omega⟩
  unfold decInt intFromBin IntRead
  constructor
  · intro h
    obtain ⟨⟨v, r'⟩, h1, h⟩ := bind_eq_ok.1 h
    obtain ⟨⟨a, r''⟩, h2, h1⟩ := bind_eq_ok.1 h1
    cases h1; cases h
    obtain ⟨h3, h4⟩ := readBytes_ok h2
    obtain ⟨h5, h6⟩ := (wrap_iff ht hn).1 ⟨show a.length = n by omega, rfl⟩
    exact ⟨a, h3, _, (hr _).1 h5, h6, (intShown_iff ht hn h5).2 rfl⟩
  · rintro ⟨b, rfl, v, h1, h2, h3⟩
    rw [← hr] at h1
    obtain ⟨h4, rfl⟩ := (wrap_iff ht hn).2 ⟨h1, h2⟩
    rw [show t.bits / 8 = b.length by omega, readBytes_append _ _ _ rfl]
    rw [bind_ok, bind_ok, (intShown_iff ht hn h1).1 h3]

theorem decWord_iff {n : Nat} {print : Nat → Bytes} {bin s r : Bytes} :
    decWord n print bin = .ok (s, r) ↔ ∃ b, bin = b ++ r ∧ b.length = n ∧ s = jsonString (print (leVal b)) := by
  unfold decWord
  constructor
  · intro h
    obtain ⟨⟨a, r'⟩, h2, h⟩ := bind_eq_ok.1 h
    cases h
    obtain ⟨h3, h4⟩ := readBytes_ok h2
    exact ⟨a, h3, h4, rfl⟩
  · rintro ⟨b, rfl, rfl, rfl⟩
    rw [readBytes_append _ _ _ rfl, bind_ok]

theorem decFixed_iff {n : Nat} {bin s r : Bytes} :
    decFixed n bin = .ok (s, r) ↔ ∃ b, bin = b ++ r ∧ ∃ x, UpperHex x b ∧ b.length = n ∧ s = quoted x := by
  unfold decFixed
  constructor
  · intro h
    obtain ⟨⟨a, r'⟩, h2, h⟩ := bind_eq_ok.1 h
    cases h
    obtain ⟨h3, h4⟩ := readBytes_ok h2
    exact ⟨a, h3, _, upperHex_iff.2 rfl, h4, rfl⟩
  · rintro ⟨b, rfl, x, h1, rfl, rfl⟩
    rw [readBytes_append _ _ _ rfl, bind_ok, upperHex_iff.1 h1]
    rfl

theorem decFloat_iff {n : Nat} {f : Nat → Nat} {bin s r : Bytes} :
    decFloat n f bin = .ok (s, r) ↔ ∃ b, bin = b ++ r ∧ b.length = n ∧ fpToJson (f (leVal b)) = .ok s := by
  unfold decFloat
  constructor
  · intro h
    obtain ⟨⟨a, r'⟩, h2, h⟩ := bind_eq_ok.1 h
    obtain ⟨t, h1, h⟩ := bind_eq_ok.1 h
    cases h
    obtain ⟨h3, h4⟩ := readBytes_ok h2
    exact ⟨a, h3, h4, h1⟩
  · rintro ⟨b, rfl, rfl, h⟩
    rw [readBytes_append _ _ _ rfl, bind_ok]
    simp only
    rw [h, bind_ok]

/-! ### Times, names, symbols, assets -/

theorem timeShown_iff {us : Int} {s : Bytes} : TimeShown us s ↔ s = microsecondsToStr us := by
  have hml : ∀ a b, monthLength a b ≤ 31 := by intro a b; unfold monthLength; split <;> split <;> omega
  have hp : ∀ {k v : Nat} {x : Bytes}, v < 10 ^ k → Padded k v x → x = appendUint v k := by
    intro k v x hv h
    have := appendUint_padded v k
    rw [Nat.mod_eq_of_lt hv] at this
    exact padded_unique h this
  have hq : ∀ {k v : Nat}, v < 10 ^ k → Padded k v (appendUint v k) := by
    intro k v hv
    have := appendUint_padded v k
    rwa [Nat.mod_eq_of_lt hv] at this
  obtain ⟨r, hr⟩ : ∃ r : Nat, (r : Int) = us - us / 86400000000 * 86400000000 := ⟨(us - us / 86400000000 * 86400000000).toNat, by omega⟩
  have hms : (us / 1000 - us / 86400000000 * 86400000).toNat = r / 1000 := by omega
  have hr' : r < 86400000000 := by omega
  have e1 : r / 1000 / 3600000 % 60 = r / 3600000000 := by omega
  have e2 : r / 1000 / 60000 % 60 = r / 60000000 % 60 := by omega
  have e3 : r / 1000 / 1000 % 60 = r / 1000000 % 60 := by omega
  have hv := fromDays_valid (us / 86400000000)
  have hd := hml (fromDays (us / 86400000000)).y (fromDays (us / 86400000000)).m
  have hm1 : (fromDays (us / 86400000000)).m < 10 ^ 2 := by have := hv.2.1; omega
  have hm2 : (fromDays (us / 86400000000)).d < 10 ^ 2 := by have := hv.2.2.2; omega
  unfold TimeShown microsecondsToStr
  simp only [hms, e1, e2, e3]
  constructor
  · rintro ⟨x, n, r0, w, f, hx, hus, hr0, ⟨sy, sm, sd, sh, smin, ss, p1, p2, p3, p4, p5, p6, rfl⟩, p7, rfl⟩
    obtain rfl : n = us / 86400000000 := by omega
    obtain rfl : r0 = r := by omega
    obtain ⟨hx1, hx2⟩ := dayNumber_iff.1 hx
    have hx3 := fromDays_toDays hx1
    rw [hx2] at hx3
    subst hx3
    have := appendUint_padded ((fromDays (us / 86400000000)).y % 2 ^ 32).toNat 4
    rw [padded_unique p1 this, hp hm1 p2, hp hm2 p3, hp (by omega) p4, hp (by omega) p5, hp (by omega) p6, hp (by omega) p7]
    simp
  · rintro rfl
    refine ⟨fromDays (us / 86400000000), us / 86400000000, r, _, _, dayNumber_iff.2 ⟨hv, toDays_fromDays _⟩, by omega, hr',
      ⟨_, _, _, _, _, _, appendUint_padded ((fromDays (us / 86400000000)).y % 2 ^ 32).toNat 4, hq hm1, hq hm2, hq (by omega), hq (by omega), hq (by omega), rfl⟩,
      hq (by omega), ?_⟩
    simp

theorem nameShown_iff {v : Nat} (hv : v < 2 ^ 64) {s : Bytes} : NameShown v s ↔ s = nameToString v := by
  have hb : ∀ {s : Bytes}, ValidNameText s → stringToNameStrict s = .ok (nameBits 0 s) := by
    intro s h
    obtain ⟨u, hu⟩ := (c05_strict_accepts_iff s).2 h
    have h2 := (strictLoop_ok s 0 0 u (by omega)).1 hu
    have := (validNameText_iff s).1 h
    rw [nameBits_eq s 0 (by omega) this.2, ← stringToName_eq, c05_lenient_agrees s u hu, hu]
  constructor
  · rintro ⟨h1, h2, h3⟩
    have h4 := hb h1
    rw [h2] at h4
    obtain ⟨-, ⟨n, hn⟩, h5⟩ := c04_text_roundtrip s v h4
    cases n with
    | zero => rw [hn]; simp
    | succ n =>
      rw [hn] at h3
      simp [List.getLast?_append, List.getLast?_replicate] at h3
      exact absurd rfl h3
  · rintro rfl
    obtain ⟨-, h1⟩ := c04_name_roundtrip v hv
    have h2 := (c05_strict_accepts_iff _).1 ⟨_, h1⟩
    refine ⟨h2, ?_, ?_⟩
    · have := hb h2; rw [h1] at this; exact (Except.ok.inj this).symm
    · exact (c04_text_roundtrip _ v h1).2.2

theorem codeShown_iff {v : Nat} {s : Bytes} : CodeShown v s ↔ s = symbolCodeToString v := by
  have hv : ∀ v, leVal (symbolCodeToString v) = v ∧ (symbolCodeToString v).getLast? ≠ some 0 := by
    intro v
    induction v using Nat.strong_induction_on with
    | _ v ih =>
      rw [symbolCodeToString]
      split
      · rename_i h
        rw [and_ff, shr8]
        obtain ⟨h1, h2⟩ := ih (v / 256) (by omega)
        have e : (UInt8.ofNat (v % 256)).toNat = v % 256 := uint8_toNat_ofNat_lt (by omega)
        refine ⟨by rw [leVal, h1, e]; omega, ?_⟩
        by_cases h0 : v / 256 = 0
        · rw [h0, symbolCodeToString, dif_neg (by omega)]
          simp only [List.getLast?_singleton, ne_eq, Option.some.injEq]
          intro h'
          have := congrArg UInt8.toNat h'
          rw [e] at this
          simp at this
          omega
        · have hne : symbolCodeToString (v / 256) ≠ [] := by
            rw [symbolCodeToString, dif_pos (by omega)]; simp
          rwa [List.getLast?_cons_of_ne_nil hne]
      · rename_i h
        obtain rfl : v = 0 := by omega
        simp [leVal]
  constructor
  · rintro ⟨h1, h2⟩
    obtain ⟨h3, h4⟩ := hv v
    have c1 : Canon s := h2
    have c2 : Canon (symbolCodeToString v) := h4
    exact canon_inj c1 c2 (by rw [h1, h3])
  · rintro rfl; exact hv v

theorem assetShown_iff {a : Int} (ha : a ≠ -2 ^ 63) {sym : Nat} {s : Bytes} :
    AssetShown a (sym % 256) (sym / 256) s ↔ assetToString a sym = .ok s := by
  obtain ⟨h1, h2, h3, h4⟩ := fractionDigits_eq a.natAbs (sym % 256)
  have hp : Padded (sym % 256) (a.natAbs % 10 ^ (sym % 256)) (fractionDigits a.natAbs (sym % 256)).1.reverse :=
    ⟨by simpa using h1, fun c hc => h2 c (by simpa using hc), h3⟩
  have e : assetToString a sym = .ok ((if a < 0 then [45] else []) ++ (decRev (a.natAbs / 10 ^ (sym % 256))).reverse ++
      (if sym % 256 = 0 then [] else 46 :: (fractionDigits a.natAbs (sym % 256)).1.reverse) ++ 32 :: symbolCodeToString (sym / 256)) := by
    unfold assetToString
    rw [if_neg ha, shr8]
    simp only [h4, Except.ok.injEq]
    split <;> split <;> simp_all
  rw [e]
  unfold AssetShown
  constructor
  · rintro ⟨w, f, l, p1, p2, p3, rfl⟩
    rw [shortDecimal_iff.1 p1, padded_unique p2 hp, codeShown_iff.1 p3]
  · intro h
    cases h
    exact ⟨_, _, _, shortDecimal_iff.2 rfl, hp, codeShown_iff.2 rfl, rfl⟩

/-! ### Keys and signatures -/

theorem readN_raw {n : Nat} : ∀ {s r : Bytes} {l : List BVal}, readN (fromBin (.raw 1)) n s = .ok (l, r) →
    ∃ b, s = b ++ r ∧ b.length = n ∧ l = b.map fun c => .raw [c] := by
  induction n with
  | zero => intro s r l h; rw [readN] at h; cases h; exact ⟨[], rfl, rfl, rfl⟩
  | succ n ih =>
    intro s r l h
    rw [readN] at h
    obtain ⟨⟨v, s1⟩, h1, h⟩ := bind_eq_ok.1 h
    obtain ⟨⟨l', s2⟩, h2, h⟩ := bind_eq_ok.1 h
    cases h
    rw [fromBin] at h1
    obtain ⟨⟨a, s3⟩, h3, h1⟩ := bind_eq_ok.1 h1
    cases h1
    obtain ⟨rfl, h4⟩ := readBytes_ok h3
    obtain ⟨c, rfl⟩ := List.length_eq_one_iff.1 h4
    obtain ⟨b, rfl, rfl, rfl⟩ := ih h2
    exact ⟨c :: b, rfl, by simp, rfl⟩

theorem charArray_read_iff {n : Nat} {s r : Bytes} {v : BVal} : fromBin (charArray n) s = .ok (v, r) ↔
    ∃ b, s = b ++ r ∧ b.length = n ∧ v = .list (b.map fun c => .raw [c]) := by
  constructor
  · intro h
    unfold charArray at h
    rw [fromBin] at h
    obtain ⟨⟨l, s1⟩, h1, h⟩ := bind_eq_ok.1 h
    cases h
    obtain ⟨b, h2, h3, rfl⟩ := readN_raw h1
    exact ⟨b, h2, h3, rfl⟩
  · rintro ⟨b, rfl, h, rfl⟩
    exact layout_read _ _ _ (by simp [charArray, WfType]) (layout_charArray.2 ⟨h, rfl⟩) r

theorem str_read_iff {s r : Bytes} {v : BVal} : fromBin .str s = .ok (v, r) ↔ ∃ h b, s = h ++ (b ++ r) ∧ SizeRead b.length h ∧ v = .raw b := by
  rw [fromBin]
  constructor
  · intro h
    obtain ⟨⟨n, s1⟩, h1, h⟩ := bind_eq_ok.1 h
    obtain ⟨⟨b, s2⟩, h2, h⟩ := bind_eq_ok.1 h
    cases h
    obtain ⟨rfl, h3⟩ := readBytes_ok h2
    obtain ⟨hd, rfl, h4⟩ := varuint32_iff.1 h1
    subst h3
    exact ⟨hd, b, rfl, h4, rfl⟩
  · rintro ⟨h, b, rfl, h1, rfl⟩
    have := (varuint32_iff (r := b ++ r)).2 ⟨h, rfl, h1⟩
    beta_reduce
    rw [this, bind_ok]
    simp only
    rw [readBytes_append _ _ _ rfl, bind_ok]

theorem rawVec_read_iff {s r : Bytes} {v : BVal} : fromBin (.rawVec 1) s = .ok (v, r) ↔
    ∃ h b, s = h ++ (b ++ r) ∧ VarRead 64 10 b.length h ∧ b.length < 2 ^ 63 ∧ v = .raw b := by
  have hlt : ∀ {n h}, VarRead 64 10 n h → n % 2 ^ 64 = n := by rintro n h ⟨m, -, -, rfl⟩; simp
  rw [fromBin]
  constructor
  · intro h
    obtain ⟨⟨n, s1⟩, h1, h⟩ := bind_eq_ok.1 h
    obtain ⟨u, h2, h⟩ := bind_eq_ok.1 h
    obtain ⟨u', h3, h⟩ := bind_eq_ok.1 h
    obtain ⟨⟨b, s2⟩, h4, h⟩ := bind_eq_ok.1 h
    cases h
    obtain ⟨rfl, h5⟩ := readBytes_ok h4
    obtain ⟨hd, rfl, h6⟩ := varuint64_iff.1 h1
    simp only [Nat.mul_one] at h5
    rw [hlt h6] at h5
    subst h5
    have h7 := check_eq_ok.1 h3
    simp only [decide_eq_true_eq, vectorMax, Nat.div_one] at h7
    exact ⟨hd, b, rfl, h6, by omega, rfl⟩
  · rintro ⟨h, b, rfl, h1, h2, rfl⟩
    have := (varuint64_iff (r := b ++ r)).2 ⟨h, rfl, h1⟩
    beta_reduce
    rw [this, bind_ok]
    simp only [Nat.mul_one]
    rw [hlt h1, (check_eq_ok (u := ())).2 (by simp), bind_ok, (check_eq_ok (u := ())).2 (by simp only [decide_eq_true_eq, vectorMax, Nat.div_one]; omega), bind_ok,
      readBytes_append _ _ _ rfl, bind_ok]

theorem variant_read_iff {ts : List BTy} {s r : Bytes} {v : BVal} : fromBin (.variant ts) s = .ok (v, r) ↔
    ∃ tag s1 u x, s = tag ++ s1 ∧ SizeRead u tag ∧ variantFromBin ts u s1 = .ok (x, r) ∧ v = .alt u x := by
  rw [fromBin]
  constructor
  · intro h
    obtain ⟨⟨n, s1⟩, h1, h⟩ := bind_eq_ok.1 h
    obtain ⟨⟨x, s2⟩, h2, h⟩ := bind_eq_ok.1 h
    cases h
    obtain ⟨tag, rfl, h3⟩ := varuint32_iff.1 h1
    exact ⟨tag, s1, n, x, rfl, h3, h2, rfl⟩
  · rintro ⟨tag, s1, u, x, rfl, h1, h2, rfl⟩
    have := (varuint32_iff (r := s1)).2 ⟨tag, rfl, h1⟩
    beta_reduce
    rw [this, bind_ok]
    simp only
    rw [h2, bind_ok]

theorem fields_read_iff {t : BTy} {ts : List BTy} {s r : Bytes} {l : List BVal} : fromBinFields (t :: ts) s = .ok (l, r) ↔
    ∃ v l' s1, fromBin t s = .ok (v, s1) ∧ fromBinFields ts s1 = .ok (l', r) ∧ l = v :: l' := by
  rw [fromBinFields]
  constructor
  · intro h
    obtain ⟨⟨v, s1⟩, h1, h⟩ := bind_eq_ok.1 h
    obtain ⟨⟨l', s2⟩, h2, h⟩ := bind_eq_ok.1 h
    cases h
    exact ⟨v, l', s1, h1, h2, rfl⟩
  · rintro ⟨v, l', s1, h1, h2, rfl⟩
    beta_reduce
    rw [h1, bind_ok]
    simp only
    rw [h2, bind_ok]

theorem struct_read_iff {ts : List BTy} {s r : Bytes} {v : BVal} : fromBin (.struct ts) s = .ok (v, r) ↔ ∃ l, fromBinFields ts s = .ok (l, r) ∧ v = .list l := by
  rw [fromBin]
  constructor
  · intro h
    obtain ⟨⟨l, s1⟩, h1, h⟩ := bind_eq_ok.1 h
    cases h
    exact ⟨l, h1, rfl⟩
  · rintro ⟨l, h1, rfl⟩
    beta_reduce
    rw [h1, bind_ok]

theorem raw1_read_iff {s r : Bytes} {v : BVal} : fromBin (.raw 1) s = .ok (v, r) ↔ ∃ c, s = c :: r ∧ v = .raw [c] := by
  rw [fromBin]
  constructor
  · intro h
    obtain ⟨⟨b, s1⟩, h1, h⟩ := bind_eq_ok.1 h
    cases h
    obtain ⟨rfl, h2⟩ := readBytes_ok h1
    obtain ⟨c, rfl⟩ := List.length_eq_one_iff.1 h2
    exact ⟨c, rfl, rfl⟩
  · rintro ⟨c, rfl, rfl⟩
    beta_reduce
    rw [show c :: r = [c] ++ r from rfl, readBytes_append 1 _ _ rfl, bind_ok]

theorem decKey_iff {t : BTy} {f : BVal → Res Bytes} {bin s r : Bytes} :
    decKey t f bin = .ok (s, r) ↔ ∃ v x, fromBin t bin = .ok (v, r) ∧ f v = .ok x ∧ s = jsonString x := by
  unfold decKey
  constructor
  · intro h
    obtain ⟨⟨v, s1⟩, h1, h⟩ := bind_eq_ok.1 h
    obtain ⟨x, h2, h⟩ := bind_eq_ok.1 h
    cases h
    exact ⟨v, x, h1, h2, rfl⟩
  · rintro ⟨v, x, h1, h2, rfl⟩
    rw [h1, bind_ok]
    simp only
    rw [h2, bind_ok]

/-- The value of a simple key. -/
def keyVal (i : Nat) (key : Bytes) : BVal := .alt i (.list (key.map fun c => .raw [c]))

theorem publicKey_read {bin r : Bytes} {v : BVal} : fromBin publicKeyTy bin = .ok (v, r) ↔
    (∃ tag key, bin = tag ++ key ++ r ∧ SizeRead 0 tag ∧ key.length = 33 ∧ v = keyVal 0 key) ∨
    (∃ tag key, bin = tag ++ key ++ r ∧ SizeRead 1 tag ∧ key.length = 33 ∧ v = keyVal 1 key) ∨
    (∃ tag key c size rpid, bin = tag ++ (key ++ c :: (size ++ rpid)) ++ r ∧ SizeRead 2 tag ∧ key.length = 33 ∧ SizeRead rpid.length size ∧
      v = .alt 2 (.list [.list (key.map fun c => .raw [c]), .raw [c], .raw rpid])) := by
  unfold publicKeyTy
  rw [variant_read_iff]
  constructor
  · rintro ⟨tag, s1, u, x, rfl, h1, h2, rfl⟩
    match u with
    | 0 =>
      rw [variantFromBin] at h2
      obtain ⟨key, rfl, h3, rfl⟩ := charArray_read_iff.1 h2
      exact .inl ⟨tag, key, by simp, h1, h3, rfl⟩
    | 1 =>
      rw [variantFromBin, variantFromBin] at h2
      obtain ⟨key, rfl, h3, rfl⟩ := charArray_read_iff.1 h2
      exact .inr (.inl ⟨tag, key, by simp, h1, h3, rfl⟩)
    | 2 =>
      rw [variantFromBin, variantFromBin, variantFromBin, struct_read_iff] at h2
      obtain ⟨l, h2, rfl⟩ := h2
      obtain ⟨v1, l1, s2, h3, h4, rfl⟩ := fields_read_iff.1 h2
      obtain ⟨v2, l2, s3, h5, h6, rfl⟩ := fields_read_iff.1 h4
      obtain ⟨v3, l3, s4, h7, h8, rfl⟩ := fields_read_iff.1 h6
      rw [fromBinFields] at h8
      cases h8
      obtain ⟨key, rfl, h9, rfl⟩ := charArray_read_iff.1 h3
      obtain ⟨c, rfl, rfl⟩ := raw1_read_iff.1 h5
      obtain ⟨size, rpid, rfl, h10, rfl⟩ := str_read_iff.1 h7
      exact .inr (.inr ⟨tag, key, c, size, rpid, by simp, h1, h9, h10, rfl⟩)
    | u + 3 =>
      rw [variantFromBin, variantFromBin, variantFromBin, variantFromBin] at h2
      cases h2
  · rintro (⟨tag, key, rfl, h1, h2, rfl⟩ | ⟨tag, key, rfl, h1, h2, rfl⟩ | ⟨tag, key, c, size, rpid, rfl, h1, h2, h3, rfl⟩)
    · exact ⟨tag, key ++ r, 0, _, by simp, h1, by rw [variantFromBin]; exact charArray_read_iff.2 ⟨key, rfl, h2, rfl⟩, rfl⟩
    · exact ⟨tag, key ++ r, 1, _, by simp, h1, by rw [variantFromBin, variantFromBin]; exact charArray_read_iff.2 ⟨key, rfl, h2, rfl⟩, rfl⟩
    · refine ⟨tag, key ++ c :: (size ++ (rpid ++ r)), 2, _, by simp, h1, ?_, rfl⟩
      rw [variantFromBin, variantFromBin, variantFromBin, struct_read_iff]
      refine ⟨_, fields_read_iff.2 ⟨_, _, _, charArray_read_iff.2 ⟨key, rfl, h2, rfl⟩, fields_read_iff.2 ⟨_, _, _, raw1_read_iff.2 ⟨c, rfl, rfl⟩,
        fields_read_iff.2 ⟨_, _, _, str_read_iff.2 ⟨size, rpid, rfl, h3, rfl⟩, by rw [fromBinFields], rfl⟩, rfl⟩, rfl⟩, rfl⟩

theorem privateKey_read {bin r : Bytes} {v : BVal} : fromBin privateKeyTy bin = .ok (v, r) ↔
    (∃ tag key, bin = tag ++ key ++ r ∧ SizeRead 0 tag ∧ key.length = 32 ∧ v = keyVal 0 key) ∨
    (∃ tag key, bin = tag ++ key ++ r ∧ SizeRead 1 tag ∧ key.length = 32 ∧ v = keyVal 1 key) := by
  unfold privateKeyTy
  rw [variant_read_iff]
  constructor
  · rintro ⟨tag, s1, u, x, rfl, h1, h2, rfl⟩
    match u with
    | 0 =>
      rw [variantFromBin] at h2
      obtain ⟨key, rfl, h3, rfl⟩ := charArray_read_iff.1 h2
      exact .inl ⟨tag, key, by simp, h1, h3, rfl⟩
    | 1 =>
      rw [variantFromBin, variantFromBin] at h2
      obtain ⟨key, rfl, h3, rfl⟩ := charArray_read_iff.1 h2
      exact .inr ⟨tag, key, by simp, h1, h3, rfl⟩
    | u + 2 =>
      rw [variantFromBin, variantFromBin, variantFromBin] at h2
      cases h2
  · rintro (⟨tag, key, rfl, h1, h2, rfl⟩ | ⟨tag, key, rfl, h1, h2, rfl⟩)
    · exact ⟨tag, key ++ r, 0, _, by simp, h1, by rw [variantFromBin]; exact charArray_read_iff.2 ⟨key, rfl, h2, rfl⟩, rfl⟩
    · exact ⟨tag, key ++ r, 1, _, by simp, h1, by rw [variantFromBin, variantFromBin]; exact charArray_read_iff.2 ⟨key, rfl, h2, rfl⟩, rfl⟩

theorem signature_read {bin r : Bytes} {v : BVal} : fromBin signatureTy bin = .ok (v, r) ↔
    (∃ tag key, bin = tag ++ key ++ r ∧ SizeRead 0 tag ∧ key.length = 65 ∧ v = keyVal 0 key) ∨
    (∃ tag key, bin = tag ++ key ++ r ∧ SizeRead 1 tag ∧ key.length = 65 ∧ v = keyVal 1 key) ∨
    (∃ tag key n data m json, bin = tag ++ (key ++ (n ++ data ++ (m ++ json))) ++ r ∧ SizeRead 2 tag ∧ key.length = 65 ∧ VarRead 64 10 data.length n ∧
      data.length < 2 ^ 63 ∧ SizeRead json.length m ∧ v = .alt 2 (.list [.list (key.map fun c => .raw [c]), .raw data, .raw json])) := by
  unfold signatureTy
  rw [variant_read_iff]
  constructor
  · rintro ⟨tag, s1, u, x, rfl, h1, h2, rfl⟩
    match u with
    | 0 =>
      rw [variantFromBin] at h2
      obtain ⟨key, rfl, h3, rfl⟩ := charArray_read_iff.1 h2
      exact .inl ⟨tag, key, by simp, h1, h3, rfl⟩
    | 1 =>
      rw [variantFromBin, variantFromBin] at h2
      obtain ⟨key, rfl, h3, rfl⟩ := charArray_read_iff.1 h2
      exact .inr (.inl ⟨tag, key, by simp, h1, h3, rfl⟩)
    | 2 =>
      rw [variantFromBin, variantFromBin, variantFromBin, struct_read_iff] at h2
      obtain ⟨l, h2, rfl⟩ := h2
      obtain ⟨v1, l1, s2, h3, h4, rfl⟩ := fields_read_iff.1 h2
      obtain ⟨v2, l2, s3, h5, h6, rfl⟩ := fields_read_iff.1 h4
      obtain ⟨v3, l3, s4, h7, h8, rfl⟩ := fields_read_iff.1 h6
      rw [fromBinFields] at h8
      cases h8
      obtain ⟨key, rfl, h9, rfl⟩ := charArray_read_iff.1 h3
      obtain ⟨n, data, rfl, h11, h12, rfl⟩ := rawVec_read_iff.1 h5
      obtain ⟨m, json, rfl, h10, rfl⟩ := str_read_iff.1 h7
      exact .inr (.inr ⟨tag, key, n, data, m, json, by simp, h1, h9, h11, h12, h10, rfl⟩)
    | u + 3 =>
      rw [variantFromBin, variantFromBin, variantFromBin, variantFromBin] at h2
      cases h2
  · rintro (⟨tag, key, rfl, h1, h2, rfl⟩ | ⟨tag, key, rfl, h1, h2, rfl⟩ | ⟨tag, key, n, data, m, json, rfl, h1, h2, h3, h4, h5, rfl⟩)
    · exact ⟨tag, key ++ r, 0, _, by simp, h1, by rw [variantFromBin]; exact charArray_read_iff.2 ⟨key, rfl, h2, rfl⟩, rfl⟩
    · exact ⟨tag, key ++ r, 1, _, by simp, h1, by rw [variantFromBin, variantFromBin]; exact charArray_read_iff.2 ⟨key, rfl, h2, rfl⟩, rfl⟩
    · refine ⟨tag, key ++ (n ++ (data ++ (m ++ (json ++ r)))), 2, _, by simp, h1, ?_, rfl⟩
      rw [variantFromBin, variantFromBin, variantFromBin, struct_read_iff]
      refine ⟨_, fields_read_iff.2 ⟨_, _, _, charArray_read_iff.2 ⟨key, rfl, h2, rfl⟩, fields_read_iff.2 ⟨_, _, _, rawVec_read_iff.2 ⟨n, data, rfl, h3, h4, rfl⟩,
        fields_read_iff.2 ⟨_, _, _, str_read_iff.2 ⟨m, json, rfl, h5, rfl⟩, by rw [fromBinFields], rfl⟩, rfl⟩, rfl⟩, rfl⟩

end Abieos
