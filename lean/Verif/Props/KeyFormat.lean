import Verif.Props.Keys
import Verif.Spec.KeyFormat
/-
C14, C15: the formats of keys, and the legacy private key text.
-/
namespace Abieos
open Spec

theorem elems_raw {b : Bytes} : ∀ {l : List BVal}, Elems (Layout (.raw 1)) l b ↔ l = b.map fun c => .raw [c] := by
  intro l
  induction l generalizing b with
  | nil => simp only [Elems]; constructor <;> intro h <;> simp_all
  | cons v l ih =>
    simp only [Elems, Layout]
    constructor
    · rintro ⟨x, y, ⟨rfl, hx⟩, h, rfl⟩
      obtain ⟨c, rfl⟩ := List.length_eq_one_iff.1 hx
      rw [ih.1 h]
      rfl
    · intro h
      cases b with
      | nil => cases h
      | cons c b =>
        simp only [List.map_cons, List.cons.injEq] at h
        obtain ⟨rfl, h⟩ := h
        exact ⟨[c], b, ⟨rfl, rfl⟩, ih.2 h, rfl⟩

theorem layout_charArray {n : Nat} {v : BVal} {b : Bytes} : Layout (charArray n) v b ↔ b.length = n ∧ v = .list (b.map fun c => .raw [c]) := by
  constructor
  · rintro ⟨l, rfl, h, h'⟩
    rw [elems_raw.1 h'] at h ⊢
    simpa using h
  · rintro ⟨h, rfl⟩; exact ⟨_, rfl, by simpa using h, elems_raw.2 rfl⟩

theorem size_tag {i : Nat} {h : Bytes} (hi : i < 128) : Size i h ↔ h = [UInt8.ofNat i] :=
  ⟨size_small hi, fun e => e ▸ ⟨by omega, .last hi⟩⟩

/-- **C14.** The bytes of public keys. -/
theorem c14_public_key_format (b : Bytes) : (∃ v, Layout publicKeyTy v b) ↔ PublicKeyBytes b := by
  unfold publicKeyTy
  constructor
  · rintro ⟨v, i, x, h, e, rfl, hs, hl, rfl⟩
    rcases hl with ⟨rfl, hl⟩ | ⟨j, rfl, hl⟩
    · rw [(size_tag (by decide)).1 hs]; exact .k1 (layout_charArray.1 hl).1
    · rcases hl with ⟨rfl, hl⟩ | ⟨j, rfl, hl⟩
      · rw [(size_tag (by decide)).1 hs]; exact .r1 (layout_charArray.1 hl).1
      · rcases hl with ⟨rfl, l, rfl, v1, l1, x1, y1, rfl, h1, ⟨v2, l2, x2, y2, rfl, ⟨rfl, h2⟩, ⟨v3, l3, x3, y3, rfl, ⟨hd, s, rfl, h3, rfl⟩, ⟨rfl, rfl⟩, rfl⟩, rfl⟩, rfl⟩ | ⟨j, rfl, hl⟩
        · obtain ⟨c, rfl⟩ := List.length_eq_one_iff.1 h2
          rw [(size_tag (by decide)).1 hs]
          have := PublicKeyBytes.wa (presence := c) (layout_charArray.1 h1).1 h3
          simpa using this
        · exact hl.elim
  · rintro (h | h | @⟨_, _, _, c, h, h'⟩)
    · exact ⟨_, 0, _, [0], _, rfl, (size_tag (by decide)).2 rfl, .inl ⟨rfl, layout_charArray.2 ⟨h, rfl⟩⟩, rfl⟩
    · exact ⟨_, 1, _, [1], _, rfl, (size_tag (by decide)).2 rfl, .inr ⟨0, rfl, .inl ⟨rfl, layout_charArray.2 ⟨h, rfl⟩⟩⟩, rfl⟩
    · refine ⟨_, 2, _, [2], _, rfl, (size_tag (by decide)).2 rfl, .inr ⟨1, rfl, .inr ⟨0, rfl, .inl ⟨rfl, _, rfl, _, _, _, _, rfl, layout_charArray.2 ⟨h, rfl⟩,
        ⟨_, _, [c], _, rfl, ⟨rfl, rfl⟩, ⟨_, _, _, _, rfl, ⟨_, _, rfl, h', rfl⟩, ⟨rfl, rfl⟩, rfl⟩, rfl⟩, rfl⟩⟩⟩, ?_⟩
      simp

/-- **C14.** The bytes of private keys. -/
theorem c14_private_key_format (b : Bytes) : (∃ v, Layout privateKeyTy v b) ↔ PrivateKeyBytes b := by
  unfold privateKeyTy
  constructor
  · rintro ⟨v, i, x, h, e, rfl, hs, hl, rfl⟩
    rcases hl with ⟨rfl, hl⟩ | ⟨j, rfl, hl⟩
    · rw [(size_tag (by decide)).1 hs]; exact .k1 (layout_charArray.1 hl).1
    · rcases hl with ⟨rfl, hl⟩ | ⟨j, rfl, hl⟩
      · rw [(size_tag (by decide)).1 hs]; exact .r1 (layout_charArray.1 hl).1
      · exact hl.elim
  · rintro (h | h)
    · exact ⟨_, 0, _, [0], _, rfl, (size_tag (by decide)).2 rfl, .inl ⟨rfl, layout_charArray.2 ⟨h, rfl⟩⟩, rfl⟩
    · exact ⟨_, 1, _, [1], _, rfl, (size_tag (by decide)).2 rfl, .inr ⟨0, rfl, .inl ⟨rfl, layout_charArray.2 ⟨h, rfl⟩⟩⟩, rfl⟩

theorem size_lt63 {n : Nat} {h : Bytes} (hs : Size n h) : n * 1 < 2 ^ 63 := by have := hs.1; omega

/-- **C14.** The bytes of signatures. -/
theorem c14_signature_format (b : Bytes) : (∃ v, Layout signatureTy v b) ↔ SignatureBytes b := by
  unfold signatureTy
  constructor
  · rintro ⟨v, i, x, h, e, rfl, hs, hl, rfl⟩
    rcases hl with ⟨rfl, hl⟩ | ⟨j, rfl, hl⟩
    · rw [(size_tag (by decide)).1 hs]; exact .k1 (layout_charArray.1 hl).1
    · rcases hl with ⟨rfl, hl⟩ | ⟨j, rfl, hl⟩
      · rw [(size_tag (by decide)).1 hs]; exact .r1 (layout_charArray.1 hl).1
      · rcases hl with ⟨rfl, l, rfl, v1, l1, x1, y1, rfl, h1, ⟨v2, l2, x2, y2, rfl, ⟨hd2, s2, k, rfl, h2, hk, -, rfl⟩, ⟨v3, l3, x3, y3, rfl, ⟨hd, s, rfl, h3, rfl⟩, ⟨rfl, rfl⟩, rfl⟩, rfl⟩, rfl⟩ | ⟨j, rfl, hl⟩
        · obtain rfl : k = s2.length := by omega
          rw [(size_tag (by decide)).1 hs]
          have := SignatureBytes.wa (layout_charArray.1 h1).1 h2 h3
          simpa using this
        · exact hl.elim
  · rintro (h | h | ⟨h, h', h''⟩)
    · exact ⟨_, 0, _, [0], _, rfl, (size_tag (by decide)).2 rfl, .inl ⟨rfl, layout_charArray.2 ⟨h, rfl⟩⟩, rfl⟩
    · exact ⟨_, 1, _, [1], _, rfl, (size_tag (by decide)).2 rfl, .inr ⟨0, rfl, .inl ⟨rfl, layout_charArray.2 ⟨h, rfl⟩⟩⟩, rfl⟩
    · refine ⟨_, 2, _, [2], _, rfl, (size_tag (by decide)).2 rfl, .inr ⟨1, rfl, .inr ⟨0, rfl, .inl ⟨rfl, _, rfl, _, _, _, _, rfl, layout_charArray.2 ⟨h, rfl⟩,
        ⟨_, _, _, _, rfl, ⟨_, _, _, rfl, h', (Nat.mul_one _).symm, size_lt63 h', rfl⟩, ⟨_, _, _, _, rfl, ⟨_, _, rfl, h'', rfl⟩, ⟨rfl, rfl⟩, rfl⟩, rfl⟩, rfl⟩⟩⟩, ?_⟩
      simp

/-- **C14.** The texts of keys: a prefix that tells the kind, then in base 58 the bytes of the key without the tag, and a check sum over
these bytes and the name of the kind. -/
theorem c14_text (H : Bytes → Bytes) {v : BVal} {key : Bytes} :
    (Layout publicKeyTy v (0 :: key) → publicKeyToString H v = .ok (str "PUB_K1_" ++ toBase58 (key ++ (H (key ++ str "K1")).take 4))) ∧
    (Layout publicKeyTy v (1 :: key) → publicKeyToString H v = .ok (str "PUB_R1_" ++ toBase58 (key ++ (H (key ++ str "R1")).take 4))) ∧
    (Layout publicKeyTy v (2 :: key) → publicKeyToString H v = .ok (str "PUB_WA_" ++ toBase58 (key ++ (H (key ++ str "WA")).take 4))) ∧
    (Layout privateKeyTy v (0 :: key) → privateKeyToString H v = .ok (str "PVT_K1_" ++ toBase58 (key ++ (H (key ++ str "K1")).take 4))) ∧
    (Layout privateKeyTy v (1 :: key) → privateKeyToString H v = .ok (str "PVT_R1_" ++ toBase58 (key ++ (H (key ++ str "R1")).take 4))) ∧
    (Layout signatureTy v (0 :: key) → signatureToString H v = .ok (str "SIG_K1_" ++ toBase58 (key ++ (H (key ++ str "K1")).take 4))) ∧
    (Layout signatureTy v (1 :: key) → signatureToString H v = .ok (str "SIG_R1_" ++ toBase58 (key ++ (H (key ++ str "R1")).take 4))) ∧
    (Layout signatureTy v (2 :: key) → signatureToString H v = .ok (str "SIG_WA_" ++ toBase58 (key ++ (H (key ++ str "WA")).take 4))) := by
  have hk : ∀ {ts : List BTy} {c : UInt8} (suffix pre : Bytes), WfType (.variant ts) → Layout (.variant ts) v (c :: key) →
      keyToString H (.variant ts) v suffix pre = .ok (pre ++ toBase58 (key ++ (H (key ++ suffix)).take 4)) := by
    intro ts c suffix pre hw h
    unfold keyToString
    rw [(c21_roundtrip hw h).1 [], bind_ok]
    rfl
  have hv : ∀ {ts : List BTy} {i : Nat}, ts.length ≤ 3 → i < 3 → Layout (.variant ts) v (UInt8.ofNat i :: key) → variantIndex v = some i := by
    intro ts i hts hi h
    obtain ⟨j, x, hd, e, rfl, hs, hl, he⟩ := h
    have hj : j < ts.length := by
      clear hs he hts hk
      induction ts generalizing j with
      | nil => exact hl.elim
      | cons t ts ih =>
        rcases hl with ⟨rfl, -⟩ | ⟨k, rfl, hl⟩
        · simp
        · have := ih k hl; simp only [List.length_cons]; omega
    rw [(size_tag (by omega)).1 hs] at he
    simp only [List.cons_append, List.nil_append, List.cons.injEq] at he
    have : i = j := by
      have := congrArg UInt8.toNat he.1
      simp only [UInt8.toNat_ofNat'] at this
      omega
    subst this
    rfl
  refine ⟨fun h => ?_, fun h => ?_, fun h => ?_, fun h => ?_, fun h => ?_, fun h => ?_, fun h => ?_, fun h => ?_⟩
  · have := hv (i := 0) (by decide) (by decide) h
    simp only [publicKeyToString, this, if_pos]
    exact hk _ _ wf_publicKey h
  · have := hv (i := 1) (by decide) (by decide) h
    simp only [publicKeyToString, this]
    exact hk _ _ wf_publicKey h
  · have := hv (i := 2) (by decide) (by decide) h
    simp only [publicKeyToString, this]
    exact hk _ _ wf_publicKey h
  · have := hv (i := 0) (by decide) (by decide) h
    simp only [privateKeyToString, this]
    exact hk _ _ wf_privateKey h
  · have := hv (i := 1) (by decide) (by decide) h
    simp only [privateKeyToString, this]
    exact hk _ _ wf_privateKey h
  · have := hv (i := 0) (by decide) (by decide) h
    simp only [signatureToString, this]
    exact hk _ _ wf_signature h
  · have := hv (i := 1) (by decide) (by decide) h
    simp only [signatureToString, this]
    exact hk _ _ wf_signature h
  · have := hv (i := 2) (by decide) (by decide) h
    simp only [signatureToString, this]
    exact hk _ _ wf_signature h

theorem readN_raw_length : ∀ {n : Nat} {s r : Bytes} {l : List BVal}, readN (fromBin (.raw 1)) n s = .ok (l, r) → n ≤ s.length
  | 0, s, r, l, _ => by omega
  | n + 1, s, r, l, h => by
    rw [readN] at h
    obtain ⟨⟨v, s1⟩, h1, h⟩ := bind_eq_ok.1 h
    obtain ⟨⟨l', s2⟩, h2, h⟩ := bind_eq_ok.1 h
    rw [fromBin] at h1
    obtain ⟨⟨b, s3⟩, h3, h1⟩ := bind_eq_ok.1 h1
    cases h1
    obtain ⟨h4, h5⟩ := readBytes_ok h3
    have := readN_raw_length h2
    subst h4
    simp only [List.length_append]
    omega

theorem read_k1 {s r : Bytes} {v : BVal} (h : fromBin privateKeyTy (0 :: s) = .ok (v, r)) : 32 ≤ s.length := by
  unfold privateKeyTy at h
  rw [fromBin] at h
  obtain ⟨⟨i, s1⟩, h1, h⟩ := bind_eq_ok.1 h
  have e : varuint32FromBin (0 :: s) = .ok (0, s) := by
    have := size_read (show Size 0 [0] from (size_tag (by decide)).2 rfl) s
    exact this
  rw [e] at h1
  cases h1
  obtain ⟨⟨v', s2⟩, h2, h⟩ := bind_eq_ok.1 h
  rw [variantFromBin] at h2
  unfold charArray at h2
  rw [fromBin] at h2
  obtain ⟨⟨l, s3⟩, h3, -⟩ := bind_eq_ok.1 h2
  exact readN_raw_length h3

/-- **C15.** The legacy private key text: any text that does not start with `PVT_` is accepted iff it decodes to at least 37 bytes; the key
is the 32 bytes after the first. -/
theorem c15_wif (H : Bytes → Bytes) {s : Bytes} (hs : ¬ ∃ r, s = str "PVT_" ++ r) (v : BVal) :
    privateKeyFromString H s = .ok v ↔ ∃ a key extra, fromBase58 s = .ok (a :: (key ++ extra)) ∧ key.length = 32 ∧ 4 ≤ extra.length ∧ Layout privateKeyTy v (0 :: key) := by
  have hn : privateKeyFromString H s = wifFromString s := by
    unfold privateKeyFromString
    rw [if_neg, if_neg, if_neg]
    all_goals
      rw [take_prefix (by rfl)]
      rintro ⟨r, rfl⟩
      exact hs ⟨_, rfl⟩
  rw [hn]
  unfold wifFromString convertFromBin
  constructor
  · intro h
    obtain ⟨b, hb, h⟩ := bind_eq_ok.1 h
    obtain ⟨_, h5, h⟩ := bind_eq_ok.1 h
    have h5 := of_decide_eq_true (check_eq_ok.1 h5)
    obtain ⟨⟨v', r⟩, h, h'⟩ := bind_eq_ok.1 h
    cases h'
    cases b with
    | nil => simp at h5
    | cons a b =>
      simp only [List.length_cons] at h5
      simp only [List.set_cons_zero, List.length_cons] at h
      rw [show b.length + 1 - 4 = (b.length - 4) + 1 by omega, List.take_succ_cons] at h
      generalize hc : b.take (b.length - 4) = c at h
      have hcl : c.length = b.length - 4 := by rw [← hc]; simp
      have h32 := read_k1 h
      refine ⟨a, b.take 32, b.drop 32, by rw [List.take_append_drop]; exact hb, by simp; omega, by simp; omega, ?_⟩
      obtain ⟨w, hw⟩ := (c14_private_key_format (0 :: b.take 32)).2 (.k1 (by simp; omega))
      have := layout_read _ _ _ wf_privateKey hw (c.drop 32)
      have e : (0 : UInt8) :: b.take 32 ++ c.drop 32 = 0 :: c := by
        have : b.take 32 = c.take 32 := by rw [← hc, List.take_take, Nat.min_eq_left (by omega)]
        rw [this, List.cons_append, List.take_append_drop]
      rw [e, h] at this
      cases this
      exact hw
  · rintro ⟨a, key, extra, hb, h32, h4, hl⟩
    have e1 : (key ++ extra).length + 1 - 4 = (key.length + extra.length - 4) + 1 := by simp; omega
    have e2 : List.take (key.length + extra.length - 4) (key ++ extra) = key ++ extra.take (extra.length - 4) := by
      rw [List.take_append, List.take_of_length_le (by omega)]
      congr 2
      omega
    rw [hb, bind_ok, decide_eq_true (by simp; omega), check_true, bind_ok]
    simp only [List.set_cons_zero, List.length_cons, e1, List.take_succ_cons, e2]
    have := layout_read _ _ _ wf_privateKey hl (extra.take (extra.length - 4))
    rw [List.cons_append] at this
    rw [this]
    rfl

/-- **C15.** Shorter ones are refused as no private keys. -/
theorem c15_wif_short (H : Bytes → Bytes) {s b : Bytes} (hs : ¬ ∃ r, s = str "PVT_" ++ r) (hb : fromBase58 s = .ok b) (h5 : b.length < 5) :
    privateKeyFromString H s = .error .expected_private_key := by
  unfold privateKeyFromString
  rw [if_neg, if_neg, if_neg]
  · unfold wifFromString
    rw [hb, bind_ok, decide_eq_false (by omega)]
    rfl
  all_goals
    rw [take_prefix (by rfl)]
    rintro ⟨r, rfl⟩
    exact hs ⟨_, rfl⟩

/-- A key of each kind. -/
example : PublicKeyBytes (2 :: (List.replicate 33 7 ++ 1 :: ([3] ++ str "abc"))) :=
  .wa (by simp) ((size_tag (by decide)).2 rfl)
example : SignatureBytes (1 :: List.replicate 65 9) := .r1 (by simp)

end Abieos
