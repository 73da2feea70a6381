import Verif.Proofs.Shown
/-
Lemmas for C61: the texts of keys and signatures, and the readers of all builtin types.
-/
namespace Abieos
open Spec

theorem varRead_lt {w m v : Nat} {b : Bytes} (h : VarRead w m v b) : v < 2 ^ w := by
  obtain ⟨n, -, -, rfl⟩ := h
  exact Nat.mod_lt _ (Nat.two_pow_pos w)

theorem size_unique {n : Nat} {b b' : Bytes} (h : Size n b) (h' : Size n b') : b = b' := by
  rw [size_iff] at h h'
  rw [h] at h'
  exact Except.ok.inj h'

theorem layout_simple {ts : List BTy} {i n : Nat} {key : Bytes} (hi : i < 2) (h0 : ts[0]? = some (charArray n)) (h1 : ts[1]? = some (charArray n))
    (hk : key.length = n) : Layout (.variant ts) (keyVal i key) (UInt8.ofNat i :: key) := by
  obtain ⟨t0, ts, rfl⟩ : ∃ t l, ts = t :: l := by cases ts; cases h0; exact ⟨_, _, rfl⟩
  obtain ⟨t1, ts, rfl⟩ : ∃ t l, ts = t :: l := by cases ts; cases h1; exact ⟨_, _, rfl⟩
  simp only [List.getElem?_cons_zero, Option.some.injEq, List.getElem?_cons_succ] at h0 h1
  subst h0 h1
  match i, hi with
  | 0, _ => exact ⟨0, _, [0], _, rfl, (size_tag (by decide)).2 rfl, .inl ⟨rfl, layout_charArray.2 ⟨hk, rfl⟩⟩, rfl⟩
  | 1, _ => exact ⟨1, _, [1], _, rfl, (size_tag (by decide)).2 rfl, .inr ⟨0, rfl, .inl ⟨rfl, layout_charArray.2 ⟨hk, rfl⟩⟩⟩, rfl⟩

theorem layout_wa_public {key size rpid : Bytes} {c : UInt8} (hk : key.length = 33) (hs : Size rpid.length size) :
    Layout publicKeyTy (.alt 2 (.list [.list (key.map fun c => .raw [c]), .raw [c], .raw rpid])) (2 :: (key ++ c :: (size ++ rpid))) := by
  refine ⟨2, _, [2], _, rfl, (size_tag (by decide)).2 rfl, .inr ⟨1, rfl, .inr ⟨0, rfl, .inl ⟨rfl, _, rfl, _, _, _, _, rfl, layout_charArray.2 ⟨hk, rfl⟩,
    ⟨_, _, [c], _, rfl, ⟨rfl, rfl⟩, ⟨_, _, _, _, rfl, ⟨_, _, rfl, hs, rfl⟩, ⟨rfl, rfl⟩, rfl⟩, rfl⟩, rfl⟩⟩⟩, ?_⟩
  simp

theorem layout_wa_signature {key n data m json : Bytes} (hk : key.length = 65) (hn : Size data.length n) (hm : Size json.length m) :
    Layout signatureTy (.alt 2 (.list [.list (key.map fun c => .raw [c]), .raw data, .raw json])) (2 :: (key ++ (n ++ data ++ (m ++ json)))) := by
  refine ⟨2, _, [2], _, rfl, (size_tag (by decide)).2 rfl, .inr ⟨1, rfl, .inr ⟨0, rfl, .inl ⟨rfl, _, rfl, _, _, _, _, rfl, layout_charArray.2 ⟨hk, rfl⟩,
    ⟨_, _, _, _, rfl, ⟨_, _, _, rfl, hn, (Nat.mul_one _).symm, size_lt63 hn, rfl⟩, ⟨_, _, _, _, rfl, ⟨_, _, rfl, hm, rfl⟩, ⟨rfl, rfl⟩, rfl⟩, rfl⟩, rfl⟩⟩⟩, ?_⟩
  simp

theorem publicKey_shown {bin s r : Bytes} : decKey publicKeyTy (publicKeyToString keyDigest) bin = .ok (s, r) ↔
    ∃ b, bin = b ++ r ∧ AsString (PublicKeyShown b) s := by
  rw [decKey_iff]
  constructor
  · rintro ⟨v, x, h, hx, rfl⟩
    rcases publicKey_read.1 h with ⟨tag, key, rfl, h1, h2, rfl⟩ | ⟨tag, key, rfl, h1, h2, rfl⟩ | ⟨tag, key, c, size, rpid, rfl, h1, h2, h3, rfl⟩
    · rw [(c14_text keyDigest (key := key)).1 (layout_simple (by decide) rfl rfl h2)] at hx
      cases hx
      exact ⟨_, rfl, _, .k1 h1 h2, jsonStr_iff.2 rfl⟩
    · rw [(c14_text keyDigest (key := key)).2.1 (layout_simple (by decide) rfl rfl h2)] at hx
      cases hx
      exact ⟨_, rfl, _, .r1 h1 h2, jsonStr_iff.2 rfl⟩
    · obtain ⟨size', hs⟩ := size_exists (varRead_lt h3)
      rw [(c14_text keyDigest (key := key ++ c :: (size' ++ rpid))).2.2.1 (layout_wa_public h2 hs)] at hx
      cases hx
      exact ⟨_, rfl, _, .wa h1 h2 h3 hs, jsonStr_iff.2 rfl⟩
  · rintro ⟨b, rfl, x, h, hx⟩
    rw [jsonStr_iff] at hx
    subst hx
    cases h with
    | k1 h1 h2 => exact ⟨_, _, publicKey_read.2 (.inl ⟨_, _, rfl, h1, h2, rfl⟩), (c14_text keyDigest).1 (layout_simple (by decide) rfl rfl h2), rfl⟩
    | r1 h1 h2 => exact ⟨_, _, publicKey_read.2 (.inr (.inl ⟨_, _, rfl, h1, h2, rfl⟩)), (c14_text keyDigest).2.1 (layout_simple (by decide) rfl rfl h2), rfl⟩
    | wa h1 h2 h3 h4 => exact ⟨_, _, publicKey_read.2 (.inr (.inr ⟨_, _, _, _, _, rfl, h1, h2, h3, rfl⟩)), (c14_text keyDigest).2.2.1 (layout_wa_public h2 h4), rfl⟩

theorem privateKey_shown {bin s r : Bytes} : decKey privateKeyTy (privateKeyToString keyDigest) bin = .ok (s, r) ↔
    ∃ b, bin = b ++ r ∧ AsString (PrivateKeyShown b) s := by
  rw [decKey_iff]
  constructor
  · rintro ⟨v, x, h, hx, rfl⟩
    rcases privateKey_read.1 h with ⟨tag, key, rfl, h1, h2, rfl⟩ | ⟨tag, key, rfl, h1, h2, rfl⟩
    · rw [(c14_text keyDigest (key := key)).2.2.2.1 (layout_simple (by decide) rfl rfl h2)] at hx
      cases hx
      exact ⟨_, rfl, _, .k1 h1 h2, jsonStr_iff.2 rfl⟩
    · rw [(c14_text keyDigest (key := key)).2.2.2.2.1 (layout_simple (by decide) rfl rfl h2)] at hx
      cases hx
      exact ⟨_, rfl, _, .r1 h1 h2, jsonStr_iff.2 rfl⟩
  · rintro ⟨b, rfl, x, h, hx⟩
    rw [jsonStr_iff] at hx
    subst hx
    cases h with
    | k1 h1 h2 => exact ⟨_, _, privateKey_read.2 (.inl ⟨_, _, rfl, h1, h2, rfl⟩), (c14_text keyDigest).2.2.2.1 (layout_simple (by decide) rfl rfl h2), rfl⟩
    | r1 h1 h2 => exact ⟨_, _, privateKey_read.2 (.inr ⟨_, _, rfl, h1, h2, rfl⟩), (c14_text keyDigest).2.2.2.2.1 (layout_simple (by decide) rfl rfl h2), rfl⟩

/-- Longer data cannot be written again. -/
theorem signature_data_small {key data json x : Bytes}
    (h : signatureToString keyDigest (.alt 2 (.list [.list (key.map fun c => .raw [c]), .raw data, .raw json])) = .ok x) : ∃ n, Size data.length n := by
  unfold signatureToString at h
  simp only [variantIndex, Option.some.injEq, OfNat.ofNat_ne_zero, if_false, OfNat.ofNat_ne_one, if_true] at h
  unfold keyToString at h
  obtain ⟨w, h1, -⟩ := bind_eq_ok.1 h
  rw [convertToBin_eq] at h1
  unfold signatureTy at h1
  rw [toBinG] at h1
  obtain ⟨u, -, h1⟩ := bind_eq_ok.1 h1
  rw [toBinAlt, toBinAlt, toBinAlt, toBinG, toBinFields] at h1
  obtain ⟨u', -, h1⟩ := bind_eq_ok.1 h1
  rw [toBinFields] at h1
  obtain ⟨u', h2, h1⟩ := bind_eq_ok.1 h1
  rw [toBinG] at h2
  obtain ⟨u'', h3, h2⟩ := bind_eq_ok.1 h2
  unfold varuint32Write at h3
  obtain ⟨b, h4, -⟩ := bind_eq_ok.1 h3
  rw [Nat.div_one] at h4
  exact ⟨b, size_iff.2 h4⟩

theorem signature_shown {bin s r : Bytes} : decKey signatureTy (signatureToString keyDigest) bin = .ok (s, r) ↔
    ∃ b, bin = b ++ r ∧ AsString (SignatureShown b) s := by
  rw [decKey_iff]
  constructor
  · rintro ⟨v, x, h, hx, rfl⟩
    rcases signature_read.1 h with ⟨tag, key, rfl, h1, h2, rfl⟩ | ⟨tag, key, rfl, h1, h2, rfl⟩ | ⟨tag, key, n, data, m, json, rfl, h1, h2, h3, h4, h5, rfl⟩
    · rw [(c14_text keyDigest (key := key)).2.2.2.2.2.1 (layout_simple (by decide) rfl rfl h2)] at hx
      cases hx
      exact ⟨_, rfl, _, .k1 h1 h2, jsonStr_iff.2 rfl⟩
    · rw [(c14_text keyDigest (key := key)).2.2.2.2.2.2.1 (layout_simple (by decide) rfl rfl h2)] at hx
      cases hx
      exact ⟨_, rfl, _, .r1 h1 h2, jsonStr_iff.2 rfl⟩
    · obtain ⟨n', hn⟩ := signature_data_small hx
      obtain ⟨m', hm⟩ := size_exists (varRead_lt h5)
      rw [(c14_text keyDigest (key := key ++ (n' ++ data ++ (m' ++ json)))).2.2.2.2.2.2.2 (layout_wa_signature h2 hn hm)] at hx
      cases hx
      exact ⟨_, rfl, _, .wa h1 h2 h3 hn h5 hm, jsonStr_iff.2 rfl⟩
  · rintro ⟨b, rfl, x, h, hx⟩
    rw [jsonStr_iff] at hx
    subst hx
    cases h with
    | k1 h1 h2 => exact ⟨_, _, signature_read.2 (.inl ⟨_, _, rfl, h1, h2, rfl⟩), (c14_text keyDigest).2.2.2.2.2.1 (layout_simple (by decide) rfl rfl h2), rfl⟩
    | r1 h1 h2 => exact ⟨_, _, signature_read.2 (.inr (.inl ⟨_, _, rfl, h1, h2, rfl⟩)), (c14_text keyDigest).2.2.2.2.2.2.1 (layout_simple (by decide) rfl rfl h2), rfl⟩
    | wa h1 h2 h3 h4 h5 h6 =>
      have := size_lt63 h4
      exact ⟨_, _, signature_read.2 (.inr (.inr ⟨_, _, _, _, _, _, rfl, h1, h2, h3, by omega, h5, rfl⟩)),
        (c14_text keyDigest).2.2.2.2.2.2.2 (layout_wa_signature h2 h4 h6), rfl⟩

/-! ### The other readers -/

theorem unzigzag_nat (v : Int) (h1 : -(2 ^ 31) ≤ v) (h2 : v < 2 ^ 31) (n : Nat) (hn : n < 2 ^ 32) :
    (unzigzag (BitVec.ofNat 32 n)).toInt = v ↔ n = (if 0 ≤ v then 2 * v else -2 * v - 1).toNat := by
  rw [unzigzag_toInt]
  have e : (BitVec.ofNat 32 n).toNat = n := by simp; omega
  rw [e]
  split <;> split <;> omega

theorem decVaruint_iff {bin s r : Bytes} : decVaruint bin = .ok (s, r) ↔ ∃ b, bin = b ++ r ∧ ∃ v, SizeRead v b ∧ IntShown 4 v s := by
  have ht : IntTy.Std ⟨false, 32⟩ := by unfold IntTy.Std; simp
  have hin : ∀ {v b}, SizeRead v b → IntTy.In ⟨false, 32⟩ (v : Int) := by
    intro v b h
    have := varRead_lt h
    simp only [IntTy.In, IntTy.min, IntTy.max]
    norm_num
    omega
  unfold decVaruint
  constructor
  · intro h
    obtain ⟨⟨v, r'⟩, h1, h⟩ := bind_eq_ok.1 h
    cases h
    obtain ⟨b, rfl, h2⟩ := varuint32_iff.1 h1
    exact ⟨b, rfl, v, h2, (intShown_iff ht (n := 4) rfl (hin h2)).2 rfl⟩
  · rintro ⟨b, rfl, v, h2, h3⟩
    rw [(varuint32_iff (r := r)).2 ⟨b, rfl, h2⟩, bind_ok, (intShown_iff ht (n := 4) rfl (hin h2)).1 h3]

theorem decVarint_iff {bin s r : Bytes} : decVarint bin = .ok (s, r) ↔ ∃ b, bin = b ++ r ∧
    ∃ v : Int, -(2 ^ 31) ≤ v ∧ v < 2 ^ 31 ∧ SizeRead (if 0 ≤ v then 2 * v else -2 * v - 1).toNat b ∧ IntShown 4 v s := by
  have ht : IntTy.Std ⟨true, 32⟩ := by unfold IntTy.Std; simp
  have hin : ∀ {v : Int}, -(2 ^ 31) ≤ v → v < 2 ^ 31 → IntTy.In ⟨true, 32⟩ v := by
    intro v h1 h2
    simp only [IntTy.In, IntTy.min, IntTy.max]
    norm_num at h1 h2 ⊢
    omega
  unfold decVarint varint32FromBin
  constructor
  · intro h
    obtain ⟨⟨v, r'⟩, h1, h⟩ := bind_eq_ok.1 h
    obtain ⟨⟨n, r''⟩, h0, h1⟩ := bind_eq_ok.1 h1
    cases h
    cases h1
    obtain ⟨b, rfl, h2⟩ := varuint32_iff.1 h0
    have b1 : -(2 ^ 31) ≤ (unzigzag (BitVec.ofNat 32 n)).toInt := by have := (unzigzag (BitVec.ofNat 32 n)).le_toInt; simpa using this
    have b2 : (unzigzag (BitVec.ofNat 32 n)).toInt < 2 ^ 31 := by have := (unzigzag (BitVec.ofNat 32 n)).toInt_lt; simpa using this
    refine ⟨b, rfl, _, b1, b2, ?_, (intShown_iff ht (n := 4) rfl (hin b1 b2)).2 rfl⟩
    rwa [← (unzigzag_nat _ b1 b2 n (varRead_lt h2)).1 rfl]
  · rintro ⟨b, rfl, v, b1, b2, h2, h3⟩
    rw [(varuint32_iff (r := r)).2 ⟨b, rfl, h2⟩]
    have := (unzigzag_nat v b1 b2 _ (varRead_lt h2)).2 rfl
    simp only [bind_ok, pure, Except.pure, this]
    rw [(intShown_iff ht (n := 4) rfl (hin b1 b2)).1 h3]

theorem decBytes_iff {bin s r : Bytes} : decBytes bin = .ok (s, r) ↔ ∃ b, bin = b ++ r ∧
    ∃ h a x, VarRead 64 10 a.length h ∧ b = h ++ a ∧ UpperHex x a ∧ s = quoted x := by
  unfold decBytes
  constructor
  · intro h
    obtain ⟨⟨n, r'⟩, h1, h⟩ := bind_eq_ok.1 h
    obtain ⟨⟨a, r''⟩, h2, h⟩ := bind_eq_ok.1 h
    cases h
    obtain ⟨rfl, rfl⟩ := readBytes_ok h2
    obtain ⟨b, rfl, h3⟩ := varuint64_iff.1 h1
    exact ⟨b ++ a, by simp, b, a, _, h3, rfl, upperHex_iff.2 rfl, rfl⟩
  · rintro ⟨b, rfl, h, a, x, h1, rfl, h2, rfl⟩
    rw [List.append_assoc, (varuint64_iff (r := a ++ r)).2 ⟨h, rfl, h1⟩, bind_ok]
    simp only
    rw [readBytes_append _ _ _ rfl, bind_ok, upperHex_iff.1 h2]
    rfl

theorem decString_iff {bin s r : Bytes} : decString bin = .ok (s, r) ↔ ∃ b, bin = b ++ r ∧
    ∃ h a, SizeRead a.length h ∧ b = h ++ a ∧ JsonStr a s := by
  unfold decString
  constructor
  · intro h
    obtain ⟨⟨n, r'⟩, h1, h⟩ := bind_eq_ok.1 h
    obtain ⟨⟨a, r''⟩, h2, h⟩ := bind_eq_ok.1 h
    cases h
    obtain ⟨rfl, rfl⟩ := readBytes_ok h2
    obtain ⟨b, rfl, h3⟩ := varuint32_iff.1 h1
    exact ⟨b ++ a, by simp, b, a, h3, rfl, jsonStr_iff.2 rfl⟩
  · rintro ⟨b, rfl, h, a, h1, rfl, h2⟩
    rw [List.append_assoc, (varuint32_iff (r := a ++ r)).2 ⟨h, rfl, h1⟩, bind_ok]
    simp only
    rw [readBytes_append _ _ _ rfl, bind_ok, jsonStr_iff.1 h2]

theorem decAsset_iff {bin s r : Bytes} : decAsset bin = .ok (s, r) ↔ ∃ b, bin = b ++ r ∧
    ∃ (v : Int) (x y : Bytes), -(2 ^ 63) < v ∧ v < 2 ^ 63 ∧ TwosComplement 8 v x ∧ y.length = 8 ∧ b = x ++ y ∧
      AsString (AssetShown v (leVal y % 256) (leVal y / 256)) s := by
  have ht : IntTy.Std ⟨true, 64⟩ := by unfold IntTy.Std; simp
  unfold decAsset intFromBin
  constructor
  · intro h
    obtain ⟨⟨v, r1⟩, h1, h⟩ := bind_eq_ok.1 h
    obtain ⟨⟨x, r2⟩, h2, h1⟩ := bind_eq_ok.1 h1
    obtain ⟨⟨y, r3⟩, h3, h⟩ := bind_eq_ok.1 h
    obtain ⟨t, h4, h⟩ := bind_eq_ok.1 h
    cases h
    cases h1
    obtain ⟨rfl, h5⟩ := readBytes_ok h2
    obtain ⟨rfl, h6⟩ := readBytes_ok h3
    simp only at h5 h6 h4
    obtain ⟨h7, h8⟩ := (wrap_iff ht (n := 8) rfl).1 ⟨h5, rfl⟩
    have hne : IntTy.wrap ⟨true, 64⟩ (leVal x) ≠ -2 ^ 63 := by
      intro e
      unfold assetToString at h4
      rw [if_pos e] at h4
      cases h4
    simp only [IntTy.In, IntTy.min, IntTy.max] at h7
    refine ⟨x ++ y, by simp, _, x, y, ?_, ?_, h8, h6, rfl, t, (assetShown_iff hne).2 h4, jsonStr_iff.2 rfl⟩
    · norm_num at h7 hne ⊢; omega
    · norm_num at h7 hne ⊢; omega
  · rintro ⟨b, rfl, v, x, y, h1, h2, h3, h4, rfl, t, h5, h6⟩
    have hin : IntTy.In ⟨true, 64⟩ v := by
      simp only [IntTy.In, IntTy.min, IntTy.max]
      norm_num at h1 h2 ⊢
      omega
    obtain ⟨h7, rfl⟩ := (wrap_iff ht (n := 8) rfl).2 ⟨hin, h3⟩
    simp only [List.append_assoc]
    rw [readBytes_append _ _ _ h7, bind_ok, bind_ok]
    simp only
    rw [readBytes_append _ _ _ h4, bind_ok]
    simp only
    rw [(assetShown_iff (by omega)).1 h5, bind_ok, jsonStr_iff.1 h6]

theorem toI64_wrap {b : Bytes} (h : b.length = 8) : toI64 (leVal b) = IntTy.wrap ⟨true, 64⟩ (leVal b) := by
  have := leVal_lt b
  rw [h] at this
  unfold toI64 IntTy.wrap
  norm_num at this ⊢
  split <;> split <;> omega

theorem timePoint_shown {bin t rest : Bytes} : decWord 8 (fun v => microsecondsToStr (toI64 v)) bin = .ok (t, rest) ↔
    ∃ b, bin = b ++ rest ∧ ∃ v : Int, -(2 ^ 63) ≤ v ∧ v < 2 ^ 63 ∧ TwosComplement 8 v b ∧ AsString (TimeShown v) t := by
  have ht : IntTy.Std ⟨true, 64⟩ := by unfold IntTy.Std; simp
  rw [decWord_iff]
  constructor
  · rintro ⟨b, h1, h2, h5⟩
    rw [toI64_wrap h2] at h5
    obtain ⟨h3, h4⟩ := (wrap_iff ht (n := 8) rfl).1 ⟨h2, rfl⟩
    simp only [IntTy.In, IntTy.min, IntTy.max] at h3
    refine ⟨b, h1, _, ?_, ?_, h4, (asString_iff fun s => timeShown_iff).2 h5⟩ <;> norm_num at h3 ⊢ <;> omega
  · rintro ⟨b, h1, v, h2, h3, h4, h5⟩
    have hin : IntTy.In ⟨true, 64⟩ v := by
      simp only [IntTy.In, IntTy.min, IntTy.max]
      norm_num at h2 h3 ⊢
      omega
    obtain ⟨h6, h7⟩ := (wrap_iff ht (n := 8) rfl).2 ⟨hin, h4⟩
    refine ⟨b, h1, h6, ?_⟩
    rw [toI64_wrap h6, ← h7]
    exact (asString_iff fun s => timeShown_iff).1 h5

/-- What is read and shown of each builtin type. -/
theorem scalar_shown {k : Builtin} {bin t rest : Bytes} : builtinFromBin k bin = .ok (t, rest) ↔
    ∃ b, bin = b ++ rest ∧ ShownScalar (fun bits s => fpToJson bits = .ok s) k b t := by
  have ht : ∀ s w, (w = 8 ∨ w = 16 ∨ w = 32 ∨ w = 64 ∨ w = 128) → IntTy.Std ⟨s, w⟩ := fun _ _ h => h
  have hw : ∀ {n : Nat} {print : Nat → Bytes} {R : Bytes → Bytes → Prop}, (∀ b s, b.length = n → (R b s ↔ s = print (leVal b))) →
      (decWord n print bin = .ok (t, rest) ↔ ∃ b, bin = b ++ rest ∧ b.length = n ∧ AsString (R b) t) := by
    intro n print R h
    rw [decWord_iff]
    constructor
    · rintro ⟨b, h1, h2, rfl⟩; exact ⟨b, h1, h2, (asString_iff fun s => h b s h2).2 rfl⟩
    · rintro ⟨b, h1, h2, h3⟩; exact ⟨b, h1, h2, (asString_iff fun s => h b s h2).1 h3⟩
  have hlt : ∀ {b : Bytes}, b.length = 8 → leVal b < 2 ^ 64 := by
    intro b h
    have := leVal_lt b
    rw [h] at this
    exact this
  cases k <;> simp only [builtinFromBin, ShownScalar]
  case bool =>
    constructor
    · intro h
      obtain ⟨⟨c, r⟩, h1, h⟩ := bind_eq_ok.1 h
      cases h
      have := readU8_ok h1
      exact ⟨[c], by simpa using this, c, rfl, by by_cases hc : c = 0 <;> simp [hc]⟩
    · rintro ⟨b, rfl, c, rfl, rfl⟩
      rw [show [c] ++ rest = c :: rest from rfl, readU8, bind_ok]
      by_cases hc : c = 0 <;> simp [hc]
  case int8 => exact decInt_iff (ht _ _ (by simp)) (n := 1) rfl
  case uint8 => exact decInt_iff (ht _ _ (by simp)) (n := 1) rfl
  case int16 => exact decInt_iff (ht _ _ (by simp)) (n := 2) rfl
  case uint16 => exact decInt_iff (ht _ _ (by simp)) (n := 2) rfl
  case int32 => exact decInt_iff (ht _ _ (by simp)) (n := 4) rfl
  case uint32 => exact decInt_iff (ht _ _ (by simp)) (n := 4) rfl
  case int64 => exact decInt_iff (ht _ _ (by simp)) (n := 8) rfl
  case uint64 => exact decInt_iff (ht _ _ (by simp)) (n := 8) rfl
  case int128 => exact decInt_iff (ht _ _ (by simp)) (n := 16) rfl
  case uint128 => exact decInt_iff (ht _ _ (by simp)) (n := 16) rfl
  case varuint32 => exact decVaruint_iff
  case varint32 => exact decVarint_iff
  case float32 => exact decFloat_iff
  case float64 => exact decFloat_iff
  case float128 => exact decFixed_iff
  case checksum160 => exact decFixed_iff
  case checksum256 => exact decFixed_iff
  case checksum512 => exact decFixed_iff
  case time_point => exact timePoint_shown
  case time_point_sec => exact hw (R := fun b => TimeShown (leVal b * 1000000)) fun b s h => timeShown_iff
  case block_timestamp =>
    refine hw (R := fun b => TimeShown (946684800000000 + leVal b * 500000)) fun b s h => ?_
    rw [timeShown_iff]
    unfold slotToText slotToTime
    rw [show (946684800000000 + (leVal b : Int) * 500000) = ((leVal b : Int) * 500 + 946684800000) * 1000 by omega]
  case name => exact hw (R := fun b => NameShown (leVal b)) fun b s h => nameShown_iff (hlt h)
  case bytes => exact decBytes_iff
  case string => exact decString_iff
  case public_key => exact publicKey_shown
  case private_key => exact privateKey_shown
  case signature => exact signature_shown
  case symbol =>
    refine hw (R := fun b s => ∃ w l, ShortDecimal (leVal b % 256) w ∧ CodeShown (leVal b / 256) l ∧ s = w ++ 44 :: l) fun b s h => ?_
    unfold symbolToString
    rw [and_ff, shr8]
    constructor
    · rintro ⟨w, l, h1, h2, rfl⟩
      rw [shortDecimal_iff.1 h1, codeShown_iff.1 h2]
    · rintro rfl
      exact ⟨_, _, shortDecimal_iff.2 rfl, codeShown_iff.2 rfl, rfl⟩
  case symbol_code => exact hw (R := fun b => CodeShown (leVal b)) fun b s h => codeShown_iff
  case asset => exact decAsset_iff

end Abieos
