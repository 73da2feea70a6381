import Verif.Model.Keys
import Verif.Props.Base58
import Verif.Props.StaticBin
/-! # C14, C15: textual keys and signatures -/
namespace Abieos
open Spec

/-! ## Specification -/

/-- The forms of the text of a public key: its prefix, the alternative of the variant, and the text that is digested after the payload. -/
def Spec.publicForms : List (Bytes × Nat × Bytes) :=
  [(str "EOS", 0, []), (str "PUB_K1_", 0, str "K1"), (str "PUB_R1_", 1, str "R1"), (str "PUB_WA_", 2, str "WA")]

/-- The forms of the text of a private key that have a checksum. -/
def Spec.privateForms : List (Bytes × Nat × Bytes) := [(str "PVT_K1_", 0, str "K1"), (str "PVT_R1_", 1, str "R1")]

/-- The forms of the text of a signature. -/
def Spec.signatureForms : List (Bytes × Nat × Bytes) :=
  [(str "SIG_K1_", 0, str "K1"), (str "SIG_R1_", 1, str "R1"), (str "SIG_WA_", 2, str "WA")]

/-- `s` is the text, in one of the forms, of a payload followed by the first four bytes of the digest of the payload and the suffix; `v` is the
value of type `t` at the start of the payload. -/
def Spec.KeyText (H : Bytes → Bytes) (t : BTy) (forms : List (Bytes × Nat × Bytes)) (s : Bytes) (v : BVal) : Prop :=
  ∃ pre i suffix b58 payload, (pre, i, suffix) ∈ forms ∧ s = pre ++ b58 ∧ payload ≠ [] ∧
    fromBase58 b58 = .ok (payload ++ (H (payload ++ suffix)).take 4) ∧ ∃ rest, fromBin t (UInt8.ofNat i :: payload) = .ok (v, rest)

/-! ## Lemmas -/

theorem stringToKey_ok {H : Bytes → Bytes} (hH : ∀ m, (H m).length = 20) {t : BTy} {s : Bytes} {ty : UInt8} {suffix : Bytes} {v : BVal} :
    stringToKey H t s ty suffix = .ok v ↔ ∃ payload, payload ≠ [] ∧ fromBase58 s = .ok (payload ++ (H (payload ++ suffix)).take 4) ∧
      ∃ rest, fromBin t (ty :: payload) = .ok (v, rest) := by
  unfold stringToKey
  constructor
  · intro h
    obtain ⟨dec, h1, h⟩ := bind_eq_ok.1 h
    obtain ⟨_, h2, h⟩ := bind_eq_ok.1 h
    obtain ⟨_, h3, h⟩ := bind_eq_ok.1 h
    have h2 : dec.length + 1 > 5 := by simpa using of_decide_eq_true (check_eq_ok.1 h2)
    have h3 := of_decide_eq_true (check_eq_ok.1 h3)
    have e1 : dec.length + 1 - 5 = dec.length - 4 := by omega
    have e2 : dec.length + 1 - 4 = dec.length - 4 + 1 := by omega
    simp only [List.length_cons, List.drop_succ_cons, List.drop_zero, e1, e2, List.take_succ_cons] at h3 h
    refine ⟨dec.take (dec.length - 4), ?_, ?_, ?_⟩
    · intro h0
      have := congrArg List.length h0
      simp at this; omega
    · rw [h3, List.take_append_drop]; exact h1
    · unfold convertFromBin at h
      obtain ⟨⟨v', r⟩, h4, h5⟩ := bind_eq_ok.1 h
      simp only [Except.ok.injEq] at h5
      subst h5
      exact ⟨r, h4⟩
  · rintro ⟨payload, hne, h1, rest, h2⟩
    have hl : ((H (payload ++ suffix)).take 4).length = 4 := by simp [hH]
    generalize hd : (H (payload ++ suffix)).take 4 = d at *
    have hpos : 0 < payload.length := List.length_pos_iff.2 hne
    rw [h1, bind_ok]
    have e1 : payload.length + 4 + 1 - 5 = payload.length := by omega
    have e2 : payload.length + 4 + 1 - 4 = payload.length + 1 := by omega
    simp only [List.length_cons, List.length_append, hl, List.drop_succ_cons, List.drop_zero, e1, e2, List.take_succ_cons,
      List.take_left', List.drop_left', hd, decide_true, check_true, bind_ok]
    rw [decide_eq_true (by omega), check_true, bind_ok]
    unfold convertFromBin
    rw [h2]; rfl

theorem take_prefix {n : Nat} {p s : Bytes} (hp : p.length = n) : s.take n = p ↔ ∃ r, s = p ++ r := by
  constructor
  · intro h
    exact ⟨s.drop n, by rw [← h, List.take_append_drop]⟩
  · rintro ⟨r, rfl⟩
    rw [← hp, List.take_left']
    rfl

theorem drop_prefix {n : Nat} {p r : Bytes} (hp : p.length = n) : (p ++ r).drop n = r := by
  rw [← hp, List.drop_left']; rfl

/-- two prefixes neither of which is a prefix of the other do not both fit -/
theorem prefix_clash {p q r r' : Bytes} (h : p.take q.length ≠ q.take p.length) : p ++ r ≠ q ++ r' := by
  intro e
  apply h
  have h1 := congrArg (List.take (min p.length q.length)) e
  rw [List.take_append_of_le_length (by omega), List.take_append_of_le_length (by omega)] at h1
  by_cases hl : p.length ≤ q.length
  · rw [Nat.min_eq_left hl, List.take_length] at h1
    rw [← h1, List.take_of_length_le hl]
  · rw [Nat.min_eq_right (by omega), List.take_length] at h1
    rw [List.take_of_length_le (show q.length ≤ p.length by omega), h1]

/-! ## C15 -/

/-- **C15.** The texts of public keys that are accepted, and the keys they give: the checksum is always verified. -/
theorem c15_public_key {H : Bytes → Bytes} (hH : ∀ m, (H m).length = 20) (s : Bytes) (v : BVal) :
    publicKeyFromString H s = .ok v ↔ KeyText H publicKeyTy publicForms s v := by
  unfold publicKeyFromString KeyText publicForms
  constructor
  · intro h
    split at h
    · rename_i hp
      obtain ⟨r, rfl⟩ := (take_prefix (by rfl)).1 hp
      rw [drop_prefix (by rfl)] at h
      obtain ⟨payload, h1, h2, h3⟩ := (stringToKey_ok hH).1 h
      exact ⟨_, _, _, r, payload, by simp, rfl, h1, h2, h3⟩
    · split at h
      · rename_i hp
        obtain ⟨r, rfl⟩ := (take_prefix (by rfl)).1 hp
        rw [drop_prefix (by rfl)] at h
        obtain ⟨payload, h1, h2, h3⟩ := (stringToKey_ok hH).1 h
        exact ⟨_, _, _, r, payload, .tail _ (.head _), rfl, h1, h2, h3⟩
      · split at h
        · rename_i hp
          obtain ⟨r, rfl⟩ := (take_prefix (by rfl)).1 hp
          rw [drop_prefix (by rfl)] at h
          obtain ⟨payload, h1, h2, h3⟩ := (stringToKey_ok hH).1 h
          exact ⟨_, _, _, r, payload, .tail _ (.tail _ (.head _)), rfl, h1, h2, h3⟩
        · split at h
          · rename_i hp
            obtain ⟨r, rfl⟩ := (take_prefix (by rfl)).1 hp
            rw [drop_prefix (by rfl)] at h
            obtain ⟨payload, h1, h2, h3⟩ := (stringToKey_ok hH).1 h
            exact ⟨_, _, _, r, payload, .tail _ (.tail _ (.tail _ (.head _))), rfl, h1, h2, h3⟩
          · simp at h
  · rintro ⟨pre, i, suffix, r, payload, hmem, rfl, h1, h2, h3⟩
    simp only [List.mem_cons, Prod.mk.injEq, List.not_mem_nil, or_false] at hmem
    rcases hmem with ⟨rfl, rfl, rfl⟩ | ⟨rfl, rfl, rfl⟩ | ⟨rfl, rfl, rfl⟩ | ⟨rfl, rfl, rfl⟩
    · rw [if_pos ((take_prefix (by rfl)).2 ⟨r, rfl⟩), drop_prefix (by rfl)]
      exact (stringToKey_ok hH).2 ⟨payload, h1, h2, h3⟩
    · rw [if_neg (by rw [take_prefix (by rfl)]; rintro ⟨r', e⟩; exact prefix_clash (by decide) e),
        if_pos ((take_prefix (by rfl)).2 ⟨r, rfl⟩), drop_prefix (by rfl)]
      exact (stringToKey_ok hH).2 ⟨payload, h1, h2, h3⟩
    · rw [if_neg (by rw [take_prefix (by rfl)]; rintro ⟨r', e⟩; exact prefix_clash (by decide) e),
        if_neg (by rw [take_prefix (by rfl)]; rintro ⟨r', e⟩; exact prefix_clash (by decide) e),
        if_pos ((take_prefix (by rfl)).2 ⟨r, rfl⟩), drop_prefix (by rfl)]
      exact (stringToKey_ok hH).2 ⟨payload, h1, h2, h3⟩
    · rw [if_neg (by rw [take_prefix (by rfl)]; rintro ⟨r', e⟩; exact prefix_clash (by decide) e),
        if_neg (by rw [take_prefix (by rfl)]; rintro ⟨r', e⟩; exact prefix_clash (by decide) e),
        if_neg (by rw [take_prefix (by rfl)]; rintro ⟨r', e⟩; exact prefix_clash (by decide) e),
        if_pos ((take_prefix (by rfl)).2 ⟨r, rfl⟩), drop_prefix (by rfl)]
      exact (stringToKey_ok hH).2 ⟨payload, h1, h2, h3⟩

/-- **C15.** The texts of signatures that are accepted. -/
theorem c15_signature {H : Bytes → Bytes} (hH : ∀ m, (H m).length = 20) (s : Bytes) (v : BVal) :
    signatureFromString H s = .ok v ↔ KeyText H signatureTy signatureForms s v := by
  unfold signatureFromString KeyText signatureForms
  constructor
  · intro h
    split at h
    · rename_i hp
      obtain ⟨r, rfl⟩ := (take_prefix (by rfl)).1 hp
      rw [drop_prefix (by rfl)] at h
      obtain ⟨payload, h1, h2, h3⟩ := (stringToKey_ok hH).1 h
      exact ⟨_, _, _, r, payload, .head _, rfl, h1, h2, h3⟩
    · split at h
      · rename_i hp
        obtain ⟨r, rfl⟩ := (take_prefix (by rfl)).1 hp
        rw [drop_prefix (by rfl)] at h
        obtain ⟨payload, h1, h2, h3⟩ := (stringToKey_ok hH).1 h
        exact ⟨_, _, _, r, payload, .tail _ (.head _), rfl, h1, h2, h3⟩
      · split at h
        · rename_i hp
          obtain ⟨r, rfl⟩ := (take_prefix (by rfl)).1 hp
          rw [drop_prefix (by rfl)] at h
          obtain ⟨payload, h1, h2, h3⟩ := (stringToKey_ok hH).1 h
          exact ⟨_, _, _, r, payload, .tail _ (.tail _ (.head _)), rfl, h1, h2, h3⟩
        · simp at h
  · rintro ⟨pre, i, suffix, r, payload, hmem, rfl, h1, h2, h3⟩
    simp only [List.mem_cons, Prod.mk.injEq, List.not_mem_nil, or_false] at hmem
    rcases hmem with ⟨rfl, rfl, rfl⟩ | ⟨rfl, rfl, rfl⟩ | ⟨rfl, rfl, rfl⟩
    · rw [if_pos ((take_prefix (by rfl)).2 ⟨r, rfl⟩), drop_prefix (by rfl)]
      exact (stringToKey_ok hH).2 ⟨payload, h1, h2, h3⟩
    · rw [if_neg (by rw [take_prefix (by rfl)]; rintro ⟨r', e⟩; exact prefix_clash (by decide) e),
        if_pos ((take_prefix (by rfl)).2 ⟨r, rfl⟩), drop_prefix (by rfl)]
      exact (stringToKey_ok hH).2 ⟨payload, h1, h2, h3⟩
    · rw [if_neg (by rw [take_prefix (by rfl)]; rintro ⟨r', e⟩; exact prefix_clash (by decide) e),
        if_neg (by rw [take_prefix (by rfl)]; rintro ⟨r', e⟩; exact prefix_clash (by decide) e),
        if_pos ((take_prefix (by rfl)).2 ⟨r, rfl⟩), drop_prefix (by rfl)]
      exact (stringToKey_ok hH).2 ⟨payload, h1, h2, h3⟩

/-- **C15.** The texts of private keys that start with `PVT_` and are accepted. -/
theorem c15_private_key {H : Bytes → Bytes} (hH : ∀ m, (H m).length = 20) (s : Bytes) (v : BVal) (hs : ∃ r, s = str "PVT_" ++ r) :
    privateKeyFromString H s = .ok v ↔ KeyText H privateKeyTy privateForms s v := by
  unfold privateKeyFromString KeyText privateForms
  constructor
  · intro h
    split at h
    · rename_i hp
      obtain ⟨r, rfl⟩ := (take_prefix (by rfl)).1 hp
      rw [drop_prefix (by rfl)] at h
      obtain ⟨payload, h1, h2, h3⟩ := (stringToKey_ok hH).1 h
      exact ⟨_, _, _, r, payload, .head _, rfl, h1, h2, h3⟩
    · split at h
      · rename_i hp
        obtain ⟨r, rfl⟩ := (take_prefix (by rfl)).1 hp
        rw [drop_prefix (by rfl)] at h
        obtain ⟨payload, h1, h2, h3⟩ := (stringToKey_ok hH).1 h
        exact ⟨_, _, _, r, payload, .tail _ (.head _), rfl, h1, h2, h3⟩
      · rw [if_pos ((take_prefix (by rfl)).2 hs)] at h
        simp at h
  · rintro ⟨pre, i, suffix, r, payload, hmem, rfl, h1, h2, h3⟩
    simp only [List.mem_cons, Prod.mk.injEq, List.not_mem_nil, or_false] at hmem
    rcases hmem with ⟨rfl, rfl, rfl⟩ | ⟨rfl, rfl, rfl⟩
    · rw [if_pos ((take_prefix (by rfl)).2 ⟨r, rfl⟩), drop_prefix (by rfl)]
      exact (stringToKey_ok hH).2 ⟨payload, h1, h2, h3⟩
    · rw [if_neg (by rw [take_prefix (by rfl)]; rintro ⟨r', e⟩; exact prefix_clash (by decide) e),
        if_pos ((take_prefix (by rfl)).2 ⟨r, rfl⟩), drop_prefix (by rfl)]
      exact (stringToKey_ok hH).2 ⟨payload, h1, h2, h3⟩

/-- **C15.** A decoded text whose last four bytes are not those of the digest is refused, whatever its payload. -/
theorem c15_mismatch {H : Bytes → Bytes} {t : BTy} {b58 payload sum suffix : Bytes} {ty : UInt8} (h : fromBase58 b58 = .ok (payload ++ sum))
    (hl : sum.length = 4) (hne : sum ≠ (H (payload ++ suffix)).take 4) : stringToKey H t b58 ty suffix = .error .expected_key := by
  unfold stringToKey
  rw [h, bind_ok]
  by_cases h5 : payload.length = 0
  · simp [h5, hl]
  · have e1 : payload.length + 4 + 1 - 5 = payload.length := by omega
    have e2 : payload.length + 4 + 1 - 4 = payload.length + 1 := by omega
    simp only [List.length_cons, List.length_append, hl, List.drop_succ_cons, List.drop_zero, e1, e2, List.take_succ_cons,
      List.take_left', List.drop_left']
    rw [decide_eq_true (by omega), check_true, bind_ok, decide_eq_false (fun e => hne e.symm), check_false, bind_error]

/-- **C15.** The legacy private key form, which is any text that does not start with `PVT_`, has no checksum verification: two texts whose decoded
bytes differ only in the first and the last four are accepted or refused alike and give the same key. -/
theorem c15_wif_unchecked {H : Bytes → Bytes} {s s' mid sum sum' : Bytes} {a a' : UInt8}
    (hs : ¬ ∃ r, s = str "PVT_" ++ r) (hs' : ¬ ∃ r, s' = str "PVT_" ++ r)
    (h : fromBase58 s = .ok (a :: (mid ++ sum))) (h' : fromBase58 s' = .ok (a' :: (mid ++ sum'))) (hl : sum.length = 4) (hl' : sum'.length = 4) :
    privateKeyFromString H s = privateKeyFromString H s' := by
  have key : ∀ s a sum, (¬ ∃ r, s = str "PVT_" ++ r) → fromBase58 s = .ok (a :: (mid ++ sum)) → sum.length = 4 →
      privateKeyFromString H s = convertFromBin privateKeyTy (0 :: mid) := by
    intro s a sum hs h hl
    unfold privateKeyFromString
    rw [if_neg, if_neg, if_neg]
    · unfold wifFromString
      rw [h, bind_ok]
      have e2 : mid.length + 4 + 1 - 4 = mid.length + 1 := by omega
      simp only [List.set_cons_zero, List.length_cons, List.length_append, hl, e2, List.take_succ_cons, List.take_left']
      rw [decide_eq_true (by omega), check_true, bind_ok]
    · rw [take_prefix (by rfl)]; exact hs
    · rw [take_prefix (by rfl)]
      rintro ⟨r, rfl⟩
      exact hs ⟨str "R1_" ++ r, rfl⟩
    · rw [take_prefix (by rfl)]
      rintro ⟨r, rfl⟩
      exact hs ⟨str "K1_" ++ r, rfl⟩
  rw [key s a sum hs h hl, key s' a' sum' hs' h' hl']

/-! ## C14 -/

theorem wf_publicKey : WfType publicKeyTy := by simp [publicKeyTy, charArray, WfType, WfTypes]
theorem wf_privateKey : WfType privateKeyTy := by simp [privateKeyTy, charArray, WfType, WfTypes]
theorem wf_signature : WfType signatureTy := by simp [signatureTy, charArray, WfType, WfTypes]

theorem size_small {i : Nat} {b : Bytes} (hi : i < 128) (h : Size i b) : b = [UInt8.ofNat i] := by
  have := leb_iff.1 h.2
  rw [this, varuintLoop_eq, if_pos hi]

theorem key_roundtrip {H : Bytes → Bytes} (hH : ∀ m, (H m).length = 20) {ts : List BTy} (hw : WfType (.variant ts)) {i : Nat} {x : BVal} {b : Bytes}
    (hi : i < 128) (h : Layout (.variant ts) (.alt i x) b) (hne : ∀ e, LayoutAlt ts i x e → e ≠ []) (suffix pre : Bytes) :
    ∃ r, keyToString H (.variant ts) (.alt i x) suffix pre = .ok (pre ++ r) ∧ stringToKey H (.variant ts) r (UInt8.ofNat i) suffix = .ok (.alt i x) := by
  obtain ⟨h1, h2⟩ := c21_roundtrip hw h
  obtain ⟨i', x', hd, e, heq, hs, hl, rfl⟩ := h
  injection heq with e1 e2
  subst e1 e2
  have hd' := size_small hi hs
  subst hd'
  refine ⟨toBase58 (e ++ (H (e ++ suffix)).take 4), ?_, ?_⟩
  · unfold keyToString
    rw [h1 [], bind_ok]
    rfl
  · refine (stringToKey_ok hH).2 ⟨e, hne e hl, c13_roundtrip _, [], ?_⟩
    have := h2 []
    simpa using this

theorem charArray_ne {n : Nat} (hn : 0 < n) {x : BVal} {e : Bytes} (h : Layout (charArray n) x e) : e ≠ [] :=
  layout_ne_nil _ _ _ (show NonEmpty (charArray n) from ⟨hn, show 0 < 1 by decide⟩) h

/-- **C14.** Every public key is printed, and parsing the text gives the key back, whatever the digest function. -/
theorem c14_public_key {H : Bytes → Bytes} (hH : ∀ m, (H m).length = 20) {v : BVal} {b : Bytes} (h : Layout publicKeyTy v b) :
    ∃ s, publicKeyToString H v = .ok s ∧ publicKeyFromString H s = .ok v := by
  have h' := h
  obtain ⟨i, x, hd, e, rfl, hs, hl, rfl⟩ := h
  rcases hl with ⟨rfl, hl⟩ | ⟨j, rfl, hl⟩
  · obtain ⟨r, h1, h2⟩ := key_roundtrip hH wf_publicKey (by decide) h' (by
      rintro e (⟨-, h⟩ | ⟨j, hj, -⟩); exacts [charArray_ne (by decide) h, by omega]) (str "K1") (str "PUB_K1_")
    refine ⟨str "PUB_K1_" ++ r, by rw [publicKeyToString, if_pos (by rfl)]; exact h1, ?_⟩
    unfold publicKeyFromString
    rw [if_neg (by rw [take_prefix (by rfl)]; rintro ⟨r', e⟩; exact prefix_clash (by decide) e), if_pos ((take_prefix (by rfl)).2 ⟨r, rfl⟩), drop_prefix (by rfl)]
    exact h2
  · rcases hl with ⟨rfl, hl⟩ | ⟨j, rfl, hl⟩
    · obtain ⟨r, h1, h2⟩ := key_roundtrip hH wf_publicKey (by decide) h' (by
        rintro e (⟨h, -⟩ | ⟨j, hj, (⟨rfl, h⟩ | ⟨k, hk, -⟩)⟩); exacts [by omega, charArray_ne (by decide) h, by omega]) (str "R1") (str "PUB_R1_")
      refine ⟨str "PUB_R1_" ++ r, by rw [publicKeyToString, if_neg (by simp [variantIndex]), if_pos (by rfl)]; exact h1, ?_⟩
      unfold publicKeyFromString
      rw [if_neg (by rw [take_prefix (by rfl)]; rintro ⟨r', e⟩; exact prefix_clash (by decide) e),
        if_neg (by rw [take_prefix (by rfl)]; rintro ⟨r', e⟩; exact prefix_clash (by decide) e), if_pos ((take_prefix (by rfl)).2 ⟨r, rfl⟩), drop_prefix (by rfl)]
      exact h2
    · rcases hl with ⟨rfl, hl⟩ | ⟨j, rfl, hl⟩
      · obtain ⟨r, h1, h2⟩ := key_roundtrip hH wf_publicKey (by decide) h' (by
          rintro e (⟨h, -⟩ | ⟨j, hj, (⟨hj', h⟩ | ⟨k, hk, (⟨rfl, l, -, v, l', x, y, -, h, -, rfl⟩ | ⟨m, hm, -⟩)⟩)⟩)
          · omega
          · omega
          · have := charArray_ne (by decide) h; simp [this]
          · omega) (str "WA") (str "PUB_WA_")
        refine ⟨str "PUB_WA_" ++ r, by rw [publicKeyToString, if_neg (by simp [variantIndex]), if_neg (by simp [variantIndex]), if_pos (by rfl)]; exact h1, ?_⟩
        unfold publicKeyFromString
        rw [if_neg (by rw [take_prefix (by rfl)]; rintro ⟨r', e⟩; exact prefix_clash (by decide) e),
          if_neg (by rw [take_prefix (by rfl)]; rintro ⟨r', e⟩; exact prefix_clash (by decide) e),
          if_neg (by rw [take_prefix (by rfl)]; rintro ⟨r', e⟩; exact prefix_clash (by decide) e), if_pos ((take_prefix (by rfl)).2 ⟨r, rfl⟩), drop_prefix (by rfl)]
        exact h2
      · exact hl.elim

/-- **C14.** Private keys. -/
theorem c14_private_key {H : Bytes → Bytes} (hH : ∀ m, (H m).length = 20) {v : BVal} {b : Bytes} (h : Layout privateKeyTy v b) :
    ∃ s, privateKeyToString H v = .ok s ∧ privateKeyFromString H s = .ok v := by
  have h' := h
  obtain ⟨i, x, hd, e, rfl, hs, hl, rfl⟩ := h
  rcases hl with ⟨rfl, hl⟩ | ⟨j, rfl, hl⟩
  · obtain ⟨r, h1, h2⟩ := key_roundtrip hH wf_privateKey (by decide) h' (by
      rintro e (⟨-, h⟩ | ⟨j, hj, -⟩); exacts [charArray_ne (by decide) h, by omega]) (str "K1") (str "PVT_K1_")
    refine ⟨str "PVT_K1_" ++ r, by rw [privateKeyToString, if_pos (by rfl)]; exact h1, ?_⟩
    unfold privateKeyFromString
    rw [if_pos ((take_prefix (by rfl)).2 ⟨r, rfl⟩), drop_prefix (by rfl)]
    exact h2
  · rcases hl with ⟨rfl, hl⟩ | ⟨j, rfl, hl⟩
    · obtain ⟨r, h1, h2⟩ := key_roundtrip hH wf_privateKey (by decide) h' (by
        rintro e (⟨h, -⟩ | ⟨j, hj, (⟨rfl, h⟩ | ⟨k, hk, -⟩)⟩); exacts [by omega, charArray_ne (by decide) h, by omega]) (str "R1") (str "PVT_R1_")
      refine ⟨str "PVT_R1_" ++ r, by rw [privateKeyToString, if_neg (by simp [variantIndex]), if_pos (by rfl)]; exact h1, ?_⟩
      unfold privateKeyFromString
      rw [if_neg (by rw [take_prefix (by rfl)]; rintro ⟨r', e⟩; exact prefix_clash (by decide) e), if_pos ((take_prefix (by rfl)).2 ⟨r, rfl⟩), drop_prefix (by rfl)]
      exact h2
    · exact hl.elim

/-- **C14.** Signatures. -/
theorem c14_signature {H : Bytes → Bytes} (hH : ∀ m, (H m).length = 20) {v : BVal} {b : Bytes} (h : Layout signatureTy v b) :
    ∃ s, signatureToString H v = .ok s ∧ signatureFromString H s = .ok v := by
  have h' := h
  obtain ⟨i, x, hd, e, rfl, hs, hl, rfl⟩ := h
  rcases hl with ⟨rfl, hl⟩ | ⟨j, rfl, hl⟩
  · obtain ⟨r, h1, h2⟩ := key_roundtrip hH wf_signature (by decide) h' (by
      rintro e (⟨-, h⟩ | ⟨j, hj, -⟩); exacts [charArray_ne (by decide) h, by omega]) (str "K1") (str "SIG_K1_")
    refine ⟨str "SIG_K1_" ++ r, by rw [signatureToString, if_pos (by rfl)]; exact h1, ?_⟩
    unfold signatureFromString
    rw [if_pos ((take_prefix (by rfl)).2 ⟨r, rfl⟩), drop_prefix (by rfl)]
    exact h2
  · rcases hl with ⟨rfl, hl⟩ | ⟨j, rfl, hl⟩
    · obtain ⟨r, h1, h2⟩ := key_roundtrip hH wf_signature (by decide) h' (by
        rintro e (⟨h, -⟩ | ⟨j, hj, (⟨rfl, h⟩ | ⟨k, hk, -⟩)⟩); exacts [by omega, charArray_ne (by decide) h, by omega]) (str "R1") (str "SIG_R1_")
      refine ⟨str "SIG_R1_" ++ r, by rw [signatureToString, if_neg (by simp [variantIndex]), if_pos (by rfl)]; exact h1, ?_⟩
      unfold signatureFromString
      rw [if_neg (by rw [take_prefix (by rfl)]; rintro ⟨r', e⟩; exact prefix_clash (by decide) e), if_pos ((take_prefix (by rfl)).2 ⟨r, rfl⟩), drop_prefix (by rfl)]
      exact h2
    · rcases hl with ⟨rfl, hl⟩ | ⟨j, rfl, hl⟩
      · obtain ⟨r, h1, h2⟩ := key_roundtrip hH wf_signature (by decide) h' (by
          rintro e (⟨h, -⟩ | ⟨j, hj, (⟨hj', h⟩ | ⟨k, hk, (⟨rfl, l, -, v, l', x, y, -, h, -, rfl⟩ | ⟨m, hm, -⟩)⟩)⟩)
          · omega
          · omega
          · have := charArray_ne (by decide) h; simp [this]
          · omega) (str "WA") (str "SIG_WA_")
        refine ⟨str "SIG_WA_" ++ r, by rw [signatureToString, if_neg (by simp [variantIndex]), if_neg (by simp [variantIndex]), if_pos (by rfl)]; exact h1, ?_⟩
        unfold signatureFromString
        rw [if_neg (by rw [take_prefix (by rfl)]; rintro ⟨r', e⟩; exact prefix_clash (by decide) e),
          if_neg (by rw [take_prefix (by rfl)]; rintro ⟨r', e⟩; exact prefix_clash (by decide) e), if_pos ((take_prefix (by rfl)).2 ⟨r, rfl⟩), drop_prefix (by rfl)]
        exact h2
      · exact hl.elim

/-! ## Examples: keys of every alternative exist -/

theorem charArray_layout {b : Bytes} {n : Nat} (h : b.length = n) : Layout (charArray n) (.list (b.map fun c => .raw [c])) b := by
  refine ⟨_, rfl, by simpa using h, ?_⟩
  clear h
  induction b with
  | nil => rfl
  | cons c b ih => exact ⟨[c], b, ⟨rfl, rfl⟩, ih, rfl⟩

/-- every 33 bytes make a K1 public key -/
example (b : Bytes) (h : b.length = 33) : Layout publicKeyTy (.alt 0 (.list (b.map fun c => .raw [c]))) (0 :: b) :=
  ⟨0, _, [0], b, rfl, ⟨by decide, .last (by decide)⟩, .inl ⟨rfl, charArray_layout h⟩, rfl⟩

/-- a WebAuthn public key with the relying party id "a" -/
example (b : Bytes) (h : b.length = 33) :
    Layout publicKeyTy (.alt 2 (.list [.list (b.map fun c => .raw [c]), .raw [1], .raw [97]])) (2 :: (b ++ [1, 1, 97])) :=
  ⟨2, _, [2], b ++ [1, 1, 97], rfl, ⟨by decide, .last (by decide)⟩,
    .inr ⟨1, rfl, .inr ⟨0, rfl, .inl ⟨rfl, _, rfl, _, _, b, [1, 1, 97], rfl, charArray_layout h,
      ⟨_, _, [1], [1, 97], rfl, ⟨rfl, rfl⟩, ⟨_, _, [1, 97], [], rfl, ⟨[1], [97], rfl, ⟨by decide, .last (by decide)⟩, rfl⟩, ⟨rfl, rfl⟩, rfl⟩, rfl⟩, rfl⟩⟩⟩, rfl⟩

end Abieos
