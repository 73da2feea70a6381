import Verif.Proofs.ScalarFaults
/-
What is wrong with the text of a key or signature.
-/
namespace Abieos
open Spec

/-! ## Parts -/

theorem fails_error {α : Type} {e : Err} {m : String} : Fails (.error e : Res α) m ↔ e ≠ .ub ∧ e.what = m := by
  constructor
  · rintro ⟨e', h1, h2, h3⟩; injection h3 with h3; subst h3; exact ⟨h1, h2⟩
  · rintro ⟨h1, h2⟩; exact ⟨e, h1, h2, rfl⟩

theorem fails_ok {α : Type} {a : α} {m : String} : ¬ Fails (.ok a : Res α) m := by rintro ⟨e, -, -, h⟩; cases h

theorem fails_bind {α β : Type} {r : Res α} {f : α → Res β} {m : String} : Fails (r >>= f) m ↔ Fails r m ∨ ∃ a, r = .ok a ∧ Fails (f a) m := by
  cases r with
  | error e => rw [bind_error, fails_error, fails_error]; simp
  | ok a => rw [bind_ok]; simp [fails_ok]

theorem topBit (c : UInt8) : c.toNat &&& 0x80 ≠ 0 ↔ 128 ≤ c.toNat := by
  revert c; apply forall_uint8; decide +kernel

theorem varLoop_fails {w lim : Nat} (hm : lim % 7 = 0) : ∀ (s : Bytes) (sh dest : Nat), sh % 7 = 0 → sh ≤ lim → ∀ m,
    (Fails (varuintFromBinLoop w lim sh dest s) m ↔
      ((∀ c ∈ s, 128 ≤ c.toNat) ∧ sh + 7 * s.length < lim ∧ m = "Stream overrun") ∨
      ∃ a r : Bytes, s = a ++ r ∧ (∀ c ∈ a, 128 ≤ c.toNat) ∧ sh + 7 * a.length = lim ∧ m = "Invalid varuint encoding") := by
  intro s
  induction s with
  | nil =>
    intro sh dest h7 hle m
    rw [varuintFromBinLoop]
    by_cases hlt : sh < lim
    · rw [dif_pos hlt]
      rw [fails_error]
      constructor
      · rintro ⟨-, rfl⟩; exact .inl ⟨by simp, by simpa using hlt, rfl⟩
      · rintro (⟨-, -, rfl⟩ | ⟨a, r, h1, -, h2, -⟩)
        · exact ⟨by simp, rfl⟩
        · have h3 := List.append_eq_nil_iff.1 h1.symm
          rw [h3.1] at h2
          simp at h2; omega
    · rw [dif_neg hlt, fails_error]
      constructor
      · rintro ⟨-, rfl⟩; exact .inr ⟨[], [], rfl, by simp, by simp; omega, rfl⟩
      · rintro (⟨-, h, -⟩ | ⟨a, r, -, -, -, rfl⟩)
        · omega
        · exact ⟨by simp, rfl⟩
  | cons c s ih =>
    intro sh dest h7 hle m
    rw [varuintFromBinLoop]
    by_cases hlt : sh < lim
    · rw [dif_pos hlt]
      dsimp only
      by_cases hc : 128 ≤ c.toNat
      · rw [if_pos ((topBit c).2 hc), ih (sh + 7) _ (by omega) (by omega)]
        constructor
        · rintro (⟨h1, h2, rfl⟩ | ⟨a, r, rfl, h1, h2, rfl⟩)
          · exact .inl ⟨by simpa [hc] using h1, by simp; omega, rfl⟩
          · exact .inr ⟨c :: a, r, rfl, by simpa [hc] using h1, by simp; omega, rfl⟩
        · rintro (⟨h1, h2, rfl⟩ | ⟨a, r, h0, h1, h2, rfl⟩)
          · exact .inl ⟨fun x hx => h1 x (by simp [hx]), by simp at h2; omega, rfl⟩
          · cases a with
            | nil => simp at h2; omega
            | cons c' a =>
              injection h0 with h3 h4
              exact .inr ⟨a, r, h4, fun x hx => h1 x (by simp [hx]), by simp at h2; omega, rfl⟩
      · rw [if_neg (fun h => hc ((topBit c).1 h))]
        constructor
        · intro h; exact absurd h fails_ok
        · rintro (⟨h1, -, -⟩ | ⟨a, r, h0, h1, h2, -⟩)
          · exact absurd (h1 c (by simp)) hc
          · cases a with
            | nil => simp at h2; omega
            | cons c' a =>
              injection h0 with h3 h4
              exact absurd (h1 c (by simp [h3])) hc
    · rw [dif_neg hlt, fails_error]
      constructor
      · rintro ⟨-, rfl⟩; exact .inr ⟨[], _, rfl, by simp, by simp; omega, rfl⟩
      · rintro (⟨-, h, -⟩ | ⟨a, r, -, -, -, rfl⟩)
        · omega
        · exact ⟨by simp, rfl⟩

/-- No size can be read. -/
def NoSize (most : Nat) (b : Bytes) (m : String) : Prop :=
  ((∀ c ∈ b, 128 ≤ c.toNat) ∧ b.length < most ∧ m = "Stream overrun") ∨
  ∃ a r : Bytes, b = a ++ r ∧ (∀ c ∈ a, 128 ≤ c.toNat) ∧ a.length = most ∧ m = "Invalid varuint encoding"

theorem noSize32 (b : Bytes) (m : String) : Fails (varuint32FromBin b) m ↔ NoSize 5 b m := by
  unfold varuint32FromBin NoSize
  rw [varLoop_fails (by decide) b 0 0 (by decide) (by decide)]
  refine or_congr ?_ ?_
  · refine and_congr_right fun _ => and_congr_left fun _ => by omega
  · refine exists_congr fun a => exists_congr fun r => and_congr_right fun _ => and_congr_right fun _ => and_congr_left fun _ => by omega

theorem noSize64 (b : Bytes) (m : String) : Fails (varuint64FromBin b) m ↔ NoSize 10 b m := by
  unfold varuint64FromBin NoSize
  rw [varLoop_fails (by decide) b 0 0 (by decide) (by decide)]
  refine or_congr ?_ ?_
  · refine and_congr_right fun _ => and_congr_left fun _ => by omega
  · refine exists_congr fun a => exists_congr fun r => and_congr_right fun _ => and_congr_right fun _ => and_congr_left fun _ => by omega

/-- A part fits the bytes. -/
def Fit : KeyPart → Bytes → Prop
  | .fixed n, a => a.length = n
  | .sized bits most, a => ∃ h x, a = h ++ x ∧ VarRead bits most x.length h

/-- The bytes end within the part. -/
def PartBad : KeyPart → Bytes → String → Prop
  | .fixed n, b, m => b.length < n ∧ m = "Stream overrun"
  | .sized bits most, b, m => NoSize most b m ∨ ∃ h c n, b = h ++ c ∧ VarRead bits most n h ∧ c.length < n ∧ m = "Stream overrun"

theorem partsFault_cons {p : KeyPart} {ps : List KeyPart} {b : Bytes} {m : String} :
    PartsFault (p :: ps) b m ↔ PartBad p b m ∨ ∃ a c, b = a ++ c ∧ Fit p a ∧ PartsFault ps c m := by
  constructor
  · intro h
    cases h with
    | short h => exact .inl ⟨h, rfl⟩
    | fixed h1 h2 => exact .inr ⟨_, _, rfl, h1, h2⟩
    | noSize h1 h2 => exact .inl (.inl (.inl ⟨h1, h2, rfl⟩))
    | longSize h1 h2 => exact .inl (.inl (.inr ⟨_, _, rfl, h1, h2, rfl⟩))
    | shortSized h1 h2 => exact .inl (.inr ⟨_, _, _, rfl, h1, h2, rfl⟩)
    | sized h1 h2 => exact .inr ⟨_, _, (List.append_assoc _ _ _).symm, ⟨_, _, rfl, h1⟩, h2⟩
  · rintro (h | ⟨a, c, rfl, h1, h2⟩)
    · cases p with
      | fixed n => obtain ⟨h, rfl⟩ := h; exact .short h
      | sized bits most =>
        rcases h with (⟨h1, h2, rfl⟩ | ⟨a, r, rfl, h1, h2, rfl⟩) | ⟨h, c, n, rfl, h1, h2, rfl⟩
        · exact .noSize h1 h2
        · exact .longSize h1 h2
        · exact .shortSized h1 h2
    · cases p with
      | fixed n => exact .fixed h1 h2
      | sized bits most =>
        obtain ⟨h, x, rfl, h1⟩ := h1
        rw [List.append_assoc]
        exact .sized h1 h2

/-- The reader reads the part. -/
def Follows (rd : Reader BVal) (p : KeyPart) : Prop :=
  (∀ b v c, rd b = .ok (v, c) → ∃ a, b = a ++ c ∧ Fit p a) ∧
  (∀ a c, a.length < 2 ^ 32 → Fit p a → ∃ v, rd (a ++ c) = .ok (v, c)) ∧
  ∀ b m, b.length < 2 ^ 32 → (Fails (rd b) m ↔ PartBad p b m)

theorem readBytes_fails {n : Nat} {b : Bytes} {m : String} : Fails (readBytes n b) m ↔ b.length < n ∧ m = "Stream overrun" := by
  unfold readBytes
  by_cases h : n ≤ b.length
  · rw [if_pos h]
    constructor
    · intro g; exact absurd g fails_ok
    · intro g; omega
  · rw [if_neg h, fails_error]
    constructor
    · rintro ⟨-, rfl⟩; exact ⟨by omega, rfl⟩
    · rintro ⟨-, rfl⟩; exact ⟨by simp, rfl⟩

theorem follows_raw (n : Nat) : Follows (fromBin (.raw n)) (.fixed n) := by
  refine ⟨?_, ?_, ?_⟩
  · intro b v c h
    rw [fromBin] at h
    obtain ⟨⟨a, s⟩, h1, h2⟩ := bind_eq_ok.1 h
    injection h2 with h2
    injection h2 with h2 h3
    subst h3
    obtain ⟨h4, h5⟩ := readBytes_ok h1
    exact ⟨a, h4, h5⟩
  · intro a c _ h
    rw [fromBin]
    beta_reduce
    rw [readBytes_append n a c h]
    exact ⟨_, rfl⟩
  · intro b m _
    rw [fromBin]
    beta_reduce
    rw [fails_map (fun a e _ h => by cases h), readBytes_fails]
    rfl

theorem kf_readN_bytes : ∀ (n : Nat) (s : Bytes), readN (fromBin (.raw 1)) n s =
    if n ≤ s.length then .ok ((s.take n).map fun c => .raw [c], s.drop n) else .error .overrun
  | 0, s => by simp [readN]
  | n + 1, s => by
    rw [readN]
    cases s with
    | nil => rfl
    | cons c s =>
      have e : fromBin (.raw 1) (c :: s) = .ok (.raw [c], s) := by
        rw [fromBin]; rfl
      rw [e, bind_ok]
      dsimp only
      rw [kf_readN_bytes n s]
      by_cases h : n ≤ s.length
      · rw [if_pos h, if_pos (by simp; omega)]; rfl
      · rw [if_neg h, if_neg (by simp; omega)]; rfl

theorem follows_char (n : Nat) : Follows (fromBin (charArray n)) (.fixed n) := by
  have e : ∀ b, fromBin (charArray n) b = if n ≤ b.length then .ok (.list ((b.take n).map fun c => .raw [c]), b.drop n) else .error .overrun := by
    intro b
    rw [charArray, fromBin]
    beta_reduce
    rw [kf_readN_bytes]
    by_cases h : n ≤ b.length
    · rw [if_pos h, if_pos h]; rfl
    · rw [if_neg h, if_neg h]; rfl
  refine ⟨?_, ?_, ?_⟩
  · intro b v c h
    rw [e] at h
    split at h
    · rename_i hn
      injection h with h
      injection h with _ h
      subst h
      exact ⟨b.take n, (List.take_append_drop n b).symm, by simpa [Fit] using hn⟩
    · cases h
  · intro a c _ h
    have h : a.length = n := h
    rw [e, if_pos (by simp; omega), List.drop_append_of_le_length (by omega), List.drop_of_length_le (by omega)]
    exact ⟨_, rfl⟩
  · intro b m _
    rw [e]
    show _ ↔ b.length < n ∧ m = "Stream overrun"
    by_cases h : n ≤ b.length
    · rw [if_pos h]
      constructor
      · intro g; exact absurd g fails_ok
      · intro g; omega
    · rw [if_neg h, fails_error]
      constructor
      · rintro ⟨-, rfl⟩; exact ⟨by omega, rfl⟩
      · rintro ⟨-, rfl⟩; exact ⟨by simp, rfl⟩

theorem follows_str : Follows (fromBin .str) (.sized 32 5) := by
  refine ⟨?_, ?_, ?_⟩
  · intro b v c h
    rw [fromBin] at h
    obtain ⟨⟨n, s⟩, h1, h⟩ := bind_eq_ok.1 h
    obtain ⟨⟨a, s'⟩, h2, h3⟩ := bind_eq_ok.1 h
    injection h3 with h3
    injection h3 with _ h3
    subst h3
    obtain ⟨hd, rfl, h4⟩ := varuint32_iff.1 h1
    obtain ⟨h5, h6⟩ := readBytes_ok h2
    exact ⟨hd ++ a, by rw [h5, List.append_assoc], hd, a, rfl, by rw [h6]; exact h4⟩
  · rintro a c - ⟨h, x, rfl, h1⟩
    rw [fromBin]
    beta_reduce
    rw [List.append_assoc, varuint32_iff.2 ⟨h, rfl, h1⟩, bind_ok]
    dsimp only
    rw [readBytes_append _ x c rfl]
    exact ⟨_, rfl⟩
  · intro b m _
    rw [fromBin]
    beta_reduce
    rw [fails_bind, noSize32]
    show _ ↔ NoSize 5 b m ∨ _
    refine or_congr Iff.rfl ?_
    constructor
    · rintro ⟨⟨n, s⟩, h1, h2⟩
      rw [fails_map (fun a e _ h => by cases h), readBytes_fails] at h2
      obtain ⟨hd, h3, h4⟩ := varuint32_iff.1 h1
      exact ⟨hd, s, n, h3, h4, h2⟩
    · rintro ⟨hd, c, n, h1, h2, h3, h4⟩
      refine ⟨(n, c), varuint32_iff.2 ⟨hd, h1, h2⟩, ?_⟩
      rw [fails_map (fun a e _ h => by cases h), readBytes_fails]
      exact ⟨h3, h4⟩

theorem follows_rawVec : Follows (fromBin (.rawVec 1)) (.sized 64 10) := by
  have hk : ∀ {k : Nat} {s : Bytes} {r : Bytes}, varuint64FromBin s = .ok (k, r) → k * 1 % 2 ^ 64 = k := by
    intro k s r h
    obtain ⟨-, -, n, -, -, rfl⟩ := varuint64_iff.1 h
    omega
  refine ⟨?_, ?_, ?_⟩
  · intro b v c h
    rw [fromBin] at h
    obtain ⟨⟨n, s⟩, h1, h⟩ := bind_eq_ok.1 h
    obtain ⟨-, -, h⟩ := bind_eq_ok.1 h
    obtain ⟨-, -, h⟩ := bind_eq_ok.1 h
    obtain ⟨⟨a, s'⟩, h2, h3⟩ := bind_eq_ok.1 h
    injection h3 with h3
    injection h3 with _ h3
    subst h3
    rw [hk h1] at h2
    obtain ⟨hd, rfl, h4⟩ := varuint64_iff.1 h1
    obtain ⟨h5, h6⟩ := readBytes_ok h2
    exact ⟨hd ++ a, by rw [h5, List.append_assoc], hd, a, rfl, by rw [h6]; exact h4⟩
  · rintro a c hl ⟨h, x, rfl, h1⟩
    rw [fromBin]
    beta_reduce
    have hv : varuint64FromBin (h ++ (x ++ c)) = .ok (x.length, x ++ c) := varuint64_iff.2 ⟨h, rfl, h1⟩
    rw [List.append_assoc, hv, bind_ok]
    dsimp only
    rw [hk hv]
    rw [show decide (x.length ≤ (x ++ c).length) = true by simp, check_true, bind_ok]
    have : x.length ≤ vectorMax 1 := by simp only [List.length_append] at hl; unfold vectorMax; omega
    rw [show decide (x.length ≤ vectorMax 1) = true by simpa using this, check_true, bind_ok, readBytes_append _ x c rfl]
    exact ⟨_, rfl⟩
  · intro b m hb
    rw [fromBin]
    beta_reduce
    rw [fails_bind, noSize64]
    show _ ↔ NoSize 10 b m ∨ _
    refine or_congr Iff.rfl ?_
    have step : ∀ n s, varuint64FromBin b = .ok (n, s) →
        (Fails (check (decide (n * 1 % 2 ^ 64 ≤ s.length)) Err.overrun >>= fun _ => check (decide (n ≤ vectorMax 1)) Err.alloc >>= fun _ =>
          readBytes (n * 1 % 2 ^ 64) s >>= fun p => Except.ok (ε := Err) (BVal.raw p.1, (p.2 : Bytes))) m ↔ s.length < n ∧ m = "Stream overrun") := by
      intro n s h1
      rw [hk h1]
      obtain ⟨hd, h3, -⟩ := varuint64_iff.1 h1
      by_cases hn : n ≤ s.length
      · rw [show decide (n ≤ s.length) = true by simpa using hn, check_true, bind_ok]
        have : n ≤ vectorMax 1 := by rw [h3, List.length_append] at hb; unfold vectorMax; omega
        rw [show decide (n ≤ vectorMax 1) = true by simpa using this, check_true, bind_ok]
        rw [fails_map (fun a e _ h => by cases h), readBytes_fails]
      · rw [show decide (n ≤ s.length) = false by simpa using hn, check_false, bind_error, fails_error]
        constructor
        · rintro ⟨-, rfl⟩; exact ⟨by omega, rfl⟩
        · rintro ⟨-, rfl⟩; exact ⟨by simp, rfl⟩
    constructor
    · rintro ⟨⟨n, s⟩, h1, h2⟩
      obtain ⟨hd, h3, h4⟩ := varuint64_iff.1 h1
      exact ⟨hd, s, n, h3, h4, (step n s h1).1 h2⟩
    · rintro ⟨hd, c, n, h1, h2, h3, h4⟩
      have hv := varuint64_iff.2 ⟨hd, h1, h2⟩
      exact ⟨(n, c), hv, (step n c hv).2 ⟨h3, h4⟩⟩

theorem fields_fails {ts : List BTy} {ps : List KeyPart} (h : List.Forall₂ (fun t p => Follows (fromBin t) p) ts ps) :
    ∀ (b : Bytes) (m : String), b.length < 2 ^ 32 → (Fails (fromBinFields ts b) m ↔ PartsFault ps b m) := by
  induction h with
  | nil =>
    intro b m _
    rw [fromBinFields]
    constructor
    · intro g; exact absurd g fails_ok
    · intro g; cases g
  | cons h1 _ ih =>
    intro b m hb
    obtain ⟨f1, f2, f3⟩ := h1
    rw [fromBinFields, partsFault_cons]
    beta_reduce
    rw [fails_bind, f3 b m hb]
    refine or_congr Iff.rfl ?_
    constructor
    · rintro ⟨⟨v, s⟩, g1, g2⟩
      obtain ⟨a, rfl, g3⟩ := f1 _ _ _ g1
      rw [fails_map (fun a e _ h => by cases h), ih s m (by simp only [List.length_append] at hb; omega)] at g2
      exact ⟨a, s, rfl, g3, g2⟩
    · rintro ⟨a, c, rfl, g1, g2⟩
      simp only [List.length_append] at hb
      obtain ⟨v, g3⟩ := f2 a c (by omega) g1
      refine ⟨(v, c), g3, ?_⟩
      rw [fails_map (fun a e _ h => by cases h), ih c m (by omega)]
      exact g2

theorem partsFault_one {p : KeyPart} {b : Bytes} {m : String} : PartsFault [p] b m ↔ PartBad p b m := by
  rw [partsFault_cons]
  constructor
  · rintro (h | ⟨_, _, -, -, h⟩)
    · exact h
    · cases h
  · exact .inl

/-! ## Texts with a check sum -/

theorem mul58Add_length : ∀ (c : Nat) (s : Bytes), (mul58Add c s).1.length = s.length
  | _, [] => rfl
  | c, b :: s => by simp [mul58Add, mul58Add_length]

theorem base58Loop_length : ∀ (s acc b : Bytes), base58Loop acc s = .ok b → b.length ≤ acc.length + s.length
  | [], acc, b, h => by rw [base58Loop] at h; injection h with h; subst h; simp
  | c :: s, acc, b, h => by
    rw [base58Loop] at h
    split at h
    · cases h
    · rename_i d hd
      dsimp only at h
      have := base58Loop_length s _ b h
      split at this <;> simp [mul58Add_length] at this ⊢ <;> omega

theorem leadingOnes_length : ∀ s : Bytes, (leadingOnes s).length ≤ s.length
  | [] => by simp [leadingOnes]
  | c :: s => by
    rw [leadingOnes]
    have := leadingOnes_length s
    split
    · simp; omega
    · simp

theorem fromBase58_length {s b : Bytes} (h : fromBase58 s = .ok b) : b.length ≤ 2 * s.length := by
  obtain ⟨acc, h1, h2⟩ := bind_eq_ok.1 h
  injection h2 with h2
  subst h2
  have := base58Loop_length _ _ _ h1
  have := leadingOnes_length s
  simp at *; omega

theorem base58Loop_error : ∀ (s acc : Bytes) (e : Err), base58Loop acc s = .error e → e = .expected_key
  | [], acc, e, h => by rw [base58Loop] at h; cases h
  | c :: s, acc, e, h => by
    rw [base58Loop] at h
    split at h
    · injection h with h; exact h.symm
    · exact base58Loop_error s _ e h

theorem fromBase58_error {s : Bytes} {e : Err} (h : fromBase58 s = .error e) : e = .expected_key := by
  rcases bind_eq_error.1 h with g | ⟨a, h1, g⟩
  · exact base58Loop_error _ _ _ g
  · cases g

theorem convertFromBin_fails {t : BTy} {b : Bytes} {m : String} : Fails (convertFromBin t b) m ↔ Fails (fromBin t b) m := by
  unfold convertFromBin
  exact fails_map (fun a e _ h => by cases h) m

theorem stringToKey_fails {H : Bytes → Bytes} (hH : ∀ m, (H m).length = 20) {t : BTy} {s : Bytes} {ty : UInt8} {suffix : Bytes} {m : String} :
    Fails (stringToKey H t s ty suffix) m ↔
      ((∀ payload, payload ≠ [] → fromBase58 s ≠ .ok (payload ++ (H (payload ++ suffix)).take 4)) ∧ m = "Expected key") ∨
      ∃ payload, payload ≠ [] ∧ fromBase58 s = .ok (payload ++ (H (payload ++ suffix)).take 4) ∧ Fails (fromBin t (ty :: payload)) m := by
  by_cases hex : ∃ payload, payload ≠ [] ∧ fromBase58 s = .ok (payload ++ (H (payload ++ suffix)).take 4)
  · obtain ⟨payload, hne, h1⟩ := hex
    have huniq : ∀ p', fromBase58 s = .ok (p' ++ (H (p' ++ suffix)).take 4) → p' = payload := by
      intro p' g
      rw [h1] at g
      injection g with g
      exact (List.append_inj_left' g (by simp [hH])).symm
    have e : stringToKey H t s ty suffix = convertFromBin t (ty :: payload) := by
      have hl : ((H (payload ++ suffix)).take 4).length = 4 := by simp [hH]
      unfold stringToKey
      generalize hd : (H (payload ++ suffix)).take 4 = d at *
      have hpos : 0 < payload.length := List.length_pos_iff.2 hne
      rw [h1, bind_ok]
      have e1 : payload.length + 4 + 1 - 5 = payload.length := by omega
      have e2 : payload.length + 4 + 1 - 4 = payload.length + 1 := by omega
      simp only [List.length_cons, List.length_append, hl, List.drop_succ_cons, List.drop_zero, e1, e2, List.take_succ_cons,
        List.take_left', List.drop_left', hd, decide_true, check_true, bind_ok]
      rw [decide_eq_true (by omega), check_true, bind_ok]
    rw [e, convertFromBin_fails]
    constructor
    · intro h; exact .inr ⟨payload, hne, h1, h⟩
    · rintro (⟨h, -⟩ | ⟨p', -, g1, g2⟩)
      · exact absurd h1 (h payload hne)
      · rw [huniq p' g1] at g2; exact g2
  · have e : stringToKey H t s ty suffix = .error .expected_key := by
      unfold stringToKey
      cases hq : fromBase58 s with
      | error e => rw [fromBase58_error hq]; rfl
      | ok dec =>
        rw [bind_ok]
        by_cases h5 : dec.length > 4
        · have e1 : dec.length + 1 - 5 = dec.length - 4 := by omega
          have e2 : dec.length + 1 - 4 = dec.length - 4 + 1 := by omega
          simp only [List.length_cons, List.drop_succ_cons, List.drop_zero, e1, e2, List.take_succ_cons]
          rw [decide_eq_true (by omega), check_true, bind_ok]
          by_cases h6 : (H (dec.take (dec.length - 4) ++ suffix)).take 4 = dec.drop (dec.length - 4)
          · refine absurd ⟨dec.take (dec.length - 4), ?_, ?_⟩ hex
            · intro h0
              have := congrArg List.length h0
              simp at this; omega
            · rw [hq, h6, List.take_append_drop]
          · rw [decide_eq_false h6, check_false]; rfl
        · dsimp only
          rw [decide_eq_false (by simp; omega), check_false]; rfl
    rw [e, fails_error]
    constructor
    · rintro ⟨-, rfl⟩; exact .inl ⟨fun p h1 h2 => hex ⟨p, h1, h2⟩, rfl⟩
    · rintro (⟨-, rfl⟩ | ⟨p, h1, h2, -⟩)
      · exact ⟨by simp, rfl⟩
      · exact absurd ⟨p, h1, h2⟩ hex

theorem varuint32_small {i : Nat} (hi : i < 128) (r : Bytes) : varuint32FromBin (UInt8.ofNat i :: r) = .ok (i, r) := by
  refine varuint32_iff.2 ⟨[UInt8.ofNat i], rfl, i, ?_, by simp, by omega⟩
  have e : (UInt8.ofNat i).toNat = i := by simp; omega
  have := LebAny.last (c := UInt8.ofNat i) (by rw [e]; exact hi)
  rwa [e] at this

theorem variant_fails {ts : List BTy} {i : Nat} (hi : i < 128) {payload : Bytes} {m : String} :
    Fails (fromBin (.variant ts) (UInt8.ofNat i :: payload)) m ↔ Fails (variantFromBin ts i payload) m := by
  rw [fromBin]
  beta_reduce
  rw [varuint32_small hi, bind_ok]
  dsimp only
  exact fails_map (fun a e _ h => by cases h) m

theorem struct_fails {ts : List BTy} {b : Bytes} {m : String} : Fails (fromBin (.struct ts) b) m ↔ Fails (fromBinFields ts b) m := by
  rw [fromBin]
  beta_reduce
  exact fails_map (fun a e _ h => by cases h) m

theorem checked_fails {ts : List BTy} {i : Nat} {parts : List KeyPart} (hi : i < 128)
    (ht : ∀ payload m, payload.length < 2 ^ 32 → (Fails (variantFromBin ts i payload) m ↔ PartsFault parts payload m)) {b58 suffix : Bytes}
    (hs : b58.length < 2147483648) {m : String} :
    Fails (stringToKey keyDigest (.variant ts) b58 (UInt8.ofNat i) suffix) m ↔ CheckedFault parts suffix b58 m := by
  rw [stringToKey_fails digest_len]
  unfold CheckedFault
  refine or_congr Iff.rfl (exists_congr fun payload => and_congr_right fun _ => and_congr_right fun h => ?_)
  have := fromBase58_length h
  rw [variant_fails hi, ht payload m (by simp only [List.length_append] at this; omega)]

/-! ## The forms -/

/-- The tests for the prefixes. -/
def chain : List (Bytes × (Bytes → Res BVal)) → Res BVal → Bytes → Res BVal
  | [], d, _ => d
  | f :: fs, d, s => if s.take f.1.length = f.1 then f.2 (s.drop f.1.length) else chain fs d s

theorem chain_fails : ∀ (fs : List (Bytes × (Bytes → Res BVal))) (d : Res BVal) (s : Bytes) (m : String),
    fs.Pairwise (fun f g => f.1.take g.1.length ≠ g.1.take f.1.length) →
    (Fails (chain fs d s) m ↔ ((∀ f ∈ fs, ∀ r, s ≠ f.1 ++ r) ∧ Fails d m) ∨ ∃ f ∈ fs, ∃ r, s = f.1 ++ r ∧ Fails (f.2 r) m)
  | [], d, s, m, _ => by simp [chain]
  | f :: fs, d, s, m, hp => by
    rw [List.pairwise_cons] at hp
    obtain ⟨hp1, hp2⟩ := hp
    rw [chain]
    by_cases h : s.take f.1.length = f.1
    · rw [if_pos h]
      obtain ⟨r, rfl⟩ := (take_prefix rfl).1 h
      rw [drop_prefix rfl]
      constructor
      · intro g; exact .inr ⟨f, by simp, r, rfl, g⟩
      · rintro (⟨g, -⟩ | ⟨f', hf, r', g1, g2⟩)
        · exact absurd rfl (g f (by simp) r)
        · rcases List.mem_cons.1 hf with rfl | hf
          · rw [List.append_cancel_left g1]; exact g2
          · exact absurd g1 (prefix_clash (hp1 f' hf))
    · rw [if_neg h, chain_fails fs d s m hp2]
      have hn : ∀ r, s ≠ f.1 ++ r := fun r g => h ((take_prefix rfl).2 ⟨r, g⟩)
      constructor
      · rintro (⟨g1, g2⟩ | ⟨f', hf, g⟩)
        · refine .inl ⟨fun f' hf => ?_, g2⟩
          rcases List.mem_cons.1 hf with rfl | hf
          · exact hn
          · exact g1 f' hf
        · exact .inr ⟨f', by simp [hf], g⟩
      · rintro (⟨g1, g2⟩ | ⟨f', hf, r, g1, g2⟩)
        · exact .inl ⟨fun f' hf => g1 f' (by simp [hf]), g2⟩
        · rcases List.mem_cons.1 hf with rfl | hf
          · exact absurd g1 (hn r)
          · exact .inr ⟨f', hf, r, g1, g2⟩

theorem char_fails {n : Nat} (payload : Bytes) (m : String) (h : payload.length < 2 ^ 32) : Fails (fromBin (charArray n) payload) m ↔ PartsFault [.fixed n] payload m := by
  rw [partsFault_one, (follows_char n).2.2 payload m h]

theorem publicKey_fails {s : Bytes} (hs : s.length < 2147483648) {m : String} :
    Fails (publicKeyFromString keyDigest s) m ↔ KeyFault publicParts "Expected public key" s m := by
  have e : publicKeyFromString keyDigest s = chain [(str "EOS", fun r => stringToKey keyDigest publicKeyTy r (UInt8.ofNat 0) []),
      (str "PUB_K1_", fun r => stringToKey keyDigest publicKeyTy r (UInt8.ofNat 0) (str "K1")),
      (str "PUB_R1_", fun r => stringToKey keyDigest publicKeyTy r (UInt8.ofNat 1) (str "R1")),
      (str "PUB_WA_", fun r => stringToKey keyDigest publicKeyTy r (UInt8.ofNat 2) (str "WA"))] (.error .expected_public_key) s := rfl
  rw [e, chain_fails _ _ _ _ (by simp only [List.pairwise_cons, List.forall_mem_cons]; decide +kernel)]
  unfold KeyFault publicParts
  have hr : ∀ (p r : Bytes), s = p ++ r → r.length < 2147483648 := by intro p r g; rw [g, List.length_append] at hs; omega
  have hd : Fails (Except.error Err.expected_public_key : Res BVal) m ↔ m = "Expected public key" := by
    rw [fails_error]
    exact ⟨fun h => h.2.symm, fun h => ⟨by simp, h.symm⟩⟩
  simp only [List.mem_cons, exists_eq_or_imp, exists_eq_left, forall_eq_or_imp, forall_eq, List.not_mem_nil, or_false, hd]
  refine or_congr Iff.rfl (or_congr ?_ (or_congr ?_ (or_congr ?_ ?_))) <;>
    refine exists_congr fun r => and_congr_right fun g => ?_
  · refine checked_fails (i := 0) (by decide) (fun p m h => ?_) (hr _ _ g)
    exact char_fails p m h
  · refine checked_fails (i := 0) (by decide) (fun p m h => ?_) (hr _ _ g)
    exact char_fails p m h
  · refine checked_fails (i := 1) (by decide) (fun p m h => ?_) (hr _ _ g)
    exact char_fails p m h
  · refine checked_fails (by decide) (fun p m h => ?_) (hr _ _ g)
    show Fails (fromBin (.struct [charArray 33, .raw 1, .str]) p) m ↔ _
    rw [struct_fails]
    exact fields_fails (.cons (follows_char 33) (.cons (follows_raw 1) (.cons follows_str .nil))) p m h

theorem signature_fails {s : Bytes} (hs : s.length < 2147483648) {m : String} :
    Fails (signatureFromString keyDigest s) m ↔ KeyFault signatureParts "Expected signature" s m := by
  have e : signatureFromString keyDigest s = chain [(str "SIG_K1_", fun r => stringToKey keyDigest signatureTy r (UInt8.ofNat 0) (str "K1")),
      (str "SIG_R1_", fun r => stringToKey keyDigest signatureTy r (UInt8.ofNat 1) (str "R1")),
      (str "SIG_WA_", fun r => stringToKey keyDigest signatureTy r (UInt8.ofNat 2) (str "WA"))] (.error .expected_signature) s := rfl
  rw [e, chain_fails _ _ _ _ (by simp only [List.pairwise_cons, List.forall_mem_cons]; decide +kernel)]
  unfold KeyFault signatureParts
  have hr : ∀ (p r : Bytes), s = p ++ r → r.length < 2147483648 := by intro p r g; rw [g, List.length_append] at hs; omega
  have hd : Fails (Except.error Err.expected_signature : Res BVal) m ↔ m = "Expected signature" := by
    rw [fails_error]
    exact ⟨fun h => h.2.symm, fun h => ⟨by simp, h.symm⟩⟩
  simp only [List.mem_cons, exists_eq_or_imp, exists_eq_left, forall_eq_or_imp, forall_eq, List.not_mem_nil, or_false, hd]
  refine or_congr Iff.rfl (or_congr ?_ (or_congr ?_ ?_)) <;>
    refine exists_congr fun r => and_congr_right fun g => ?_
  · refine checked_fails (i := 0) (by decide) (fun p m h => ?_) (hr _ _ g)
    exact char_fails p m h
  · refine checked_fails (i := 1) (by decide) (fun p m h => ?_) (hr _ _ g)
    exact char_fails p m h
  · refine checked_fails (by decide) (fun p m h => ?_) (hr _ _ g)
    show Fails (fromBin (.struct [charArray 65, .rawVec 1, .str]) p) m ↔ _
    rw [struct_fails]
    exact fields_fails (.cons (follows_char 65) (.cons follows_rawVec (.cons follows_str .nil))) p m h

theorem privateKey_fails {s : Bytes} (hs : s.length < 2147483648) (hp : ∃ r, s = str "PVT_" ++ r) {m : String} :
    Fails (privateKeyFromString keyDigest s) m ↔ KeyFault privateParts "Expected private key" s m := by
  have e : privateKeyFromString keyDigest s = chain [(str "PVT_K1_", fun r => stringToKey keyDigest privateKeyTy r (UInt8.ofNat 0) (str "K1")),
      (str "PVT_R1_", fun r => stringToKey keyDigest privateKeyTy r (UInt8.ofNat 1) (str "R1"))] (.error .expected_private_key) s := by
    have h4 : s.take 4 = str "PVT_" := (take_prefix rfl).2 hp
    unfold privateKeyFromString
    rw [if_pos h4]
    rfl
  rw [e, chain_fails _ _ _ _ (by simp only [List.pairwise_cons, List.forall_mem_cons]; decide +kernel)]
  unfold KeyFault privateParts
  have hr : ∀ (p r : Bytes), s = p ++ r → r.length < 2147483648 := by intro p r g; rw [g, List.length_append] at hs; omega
  have hd : Fails (Except.error Err.expected_private_key : Res BVal) m ↔ m = "Expected private key" := by
    rw [fails_error]
    exact ⟨fun h => h.2.symm, fun h => ⟨by simp, h.symm⟩⟩
  simp only [List.mem_cons, exists_eq_or_imp, exists_eq_left, forall_eq_or_imp, forall_eq, List.not_mem_nil, or_false, hd]
  refine or_congr Iff.rfl (or_congr ?_ ?_) <;>
    refine exists_congr fun r => and_congr_right fun g => ?_
  · refine checked_fails (i := 0) (by decide) (fun p m h => ?_) (hr _ _ g)
    exact char_fails p m h
  · refine checked_fails (i := 1) (by decide) (fun p m h => ?_) (hr _ _ g)
    exact char_fails p m h

theorem wif_fails {s : Bytes} (hs : s.length < 2147483648) {m : String} : Fails (wifFromString s) m ↔ OldKeyFault s m := by
  unfold wifFromString OldKeyFault
  cases hq : fromBase58 s with
  | error e =>
    rw [fromBase58_error hq, bind_error, fails_error]
    constructor
    · rintro ⟨-, rfl⟩; exact .inl ⟨fun b h => (by cases h), rfl⟩
    · rintro (⟨-, rfl⟩ | ⟨b, h, -⟩ | ⟨b, h, -⟩)
      · exact ⟨by simp, rfl⟩
      · cases h
      · cases h
  | ok w =>
    rw [bind_ok]
    have hlen := fromBase58_length hq
    by_cases h5 : w.length ≥ 5
    · rw [decide_eq_true h5, check_true, bind_ok]
      dsimp only
      cases w with
      | nil => simp at h5
      | cons a w =>
        have e : ((a :: w).set 0 0).take (((a :: w).set 0 0).length - 4) = UInt8.ofNat 0 :: w.take (w.length - 4) := by
          simp only [List.set_cons_zero, List.length_cons] at h5 ⊢
          rw [show w.length + 1 - 4 = w.length - 4 + 1 by omega]
          rfl
        rw [e, convertFromBin_fails, privateKeyTy, variant_fails (by decide)]
        show Fails (fromBin (charArray 32) _) m ↔ _
        have hlt : (w.take (w.length - 4)).length = w.length - 4 := by simp
        simp only [List.length_cons] at hlen h5
        rw [(follows_char 32).2.2 _ m (by rw [hlt]; omega)]
        show (w.take (w.length - 4)).length < 32 ∧ m = "Stream overrun" ↔ _
        rw [hlt]
        constructor
        · rintro ⟨h1, rfl⟩; exact .inr (.inr ⟨_, rfl, by simpa using h5, by simp; omega, rfl⟩)
        · rintro (⟨h, -⟩ | ⟨b, h1, h2, -⟩ | ⟨b, h1, h2, h3, rfl⟩)
          · exact absurd rfl (h _)
          · injection h1 with h1; subst h1; simp at h2; omega
          · injection h1 with h1; subst h1; simp at h3; exact ⟨by omega, rfl⟩
    · rw [decide_eq_false h5, check_false, bind_error, fails_error]
      constructor
      · rintro ⟨-, rfl⟩; exact .inr (.inl ⟨_, rfl, by omega, rfl⟩)
      · rintro (⟨h, -⟩ | ⟨b, h1, h2, rfl⟩ | ⟨b, h1, h2, h3, rfl⟩)
        · exact absurd rfl (h _)
        · exact ⟨by simp, rfl⟩
        · injection h1 with h1; subst h1; exact absurd h2 h5

theorem encKey_fails {ts : List BTy} {fromStr : Bytes → Res BVal} {s : Bytes} (hw : WfType (.variant ts))
    (hp : ∀ v, fromStr s = .ok v → ∃ bin r, bin.length < 2 ^ 32 ∧ fromBin (.variant ts) bin = .ok (v, r)) {m : String} :
    Fails (encKey (.variant ts) fromStr s) m ↔ Fails (fromStr s) m := by
  unfold encKey
  refine fails_map (fun v e h g => ?_) m
  obtain ⟨bin, r, h1, h2⟩ := hp v h
  obtain ⟨b, hb⟩ := (fromBin_took _ _ _ _ hw h2).2 h1
  rw [layout_write _ _ _ hw hb] at g
  cases g

theorem keyText_short {t : BTy} {forms : List (Bytes × Nat × Bytes)} {s : Bytes} {v : BVal} (hs : s.length < 2147483648) (h : KeyText keyDigest t forms s v) :
    ∃ bin r, bin.length < 2 ^ 32 ∧ fromBin t bin = .ok (v, r) := by
  obtain ⟨pre, i, suffix, b58, payload, -, rfl, -, h1, rest, h2⟩ := h
  have := fromBase58_length h1
  simp only [List.length_append] at hs this
  exact ⟨_, _, by simp only [List.length_cons]; omega, h2⟩

theorem wif_short {s : Bytes} {v : BVal} (hs : s.length < 2147483648) (h : wifFromString s = .ok v) :
    ∃ bin r, bin.length < 2 ^ 32 ∧ fromBin privateKeyTy bin = .ok (v, r) := by
  unfold wifFromString at h
  obtain ⟨w, h1, h⟩ := bind_eq_ok.1 h
  obtain ⟨-, -, h⟩ := bind_eq_ok.1 h
  obtain ⟨⟨v', r⟩, h2, h3⟩ := bind_eq_ok.1 h
  injection h3 with h3
  subst h3
  have := fromBase58_length h1
  exact ⟨_, r, by simp; omega, h2⟩

/-! ## All types -/

theorem text_fails {F : Floats} {k : Builtin} {s : Bytes} (hs : s.length < 2147483648) {m : String} :
    Fails (strToBin F k s) m ↔ TextFault F k s m := by
  have i : ∀ (sg : Bool) (n : Nat), (n = 1 ∨ n = 2 ∨ n = 4 ∨ n = 8 ∨ n = 16) → (Fails (encInt ⟨sg, 8 * n⟩ s) m ↔ IntFault sg n s m) := by
    intro sg n hn
    exact fails_int (t := ⟨sg, 8 * n⟩) (std_int _ (by omega)) rfl s m
  have hst : ∀ k b, strToBin F k s = .ok b ↔ StoredAs F k s b ∨ TimeStored k s b := by
    intro k b
    have := c52_scalar_to_binary F k (.str s) b
    cases k with
    | bool => simp [strToBin, StoredAs, TimeStored]
    | _ => exact this
  have hs1 : ∀ k, (∀ b, ¬ TimeStored k s b) → ((∀ b, strToBin F k s ≠ .ok b) ↔ ∀ b, ¬ StoredAs F k s b) := by
    intro k hk
    refine forall_congr' fun b => not_congr ?_
    rw [hst]
    exact ⟨fun h => h.resolve_right (hk b), .inl⟩
  have hs2 : ∀ k, (∀ b, ¬ StoredAs F k s b) → ((∀ b, strToBin F k s ≠ .ok b) ↔ ∀ b, ¬ TimeStored k s b) := by
    intro k hk
    refine forall_congr' fun b => not_congr ?_
    rw [hst]
    exact ⟨fun h => h.resolve_left (hk b), .inr⟩
  cases k with
  | bool =>
    show Fails (.error .expected_bool : Res Bytes) m ↔ m = _
    rw [fails_error]
    exact ⟨fun h => h.2.symm, fun h => ⟨by simp, h.symm⟩⟩
  | int8 => exact i true 1 (by decide)
  | uint8 => exact i false 1 (by decide)
  | int16 => exact i true 2 (by decide)
  | uint16 => exact i false 2 (by decide)
  | int32 => exact i true 4 (by decide)
  | uint32 => exact i false 4 (by decide)
  | int64 => exact i true 8 (by decide)
  | uint64 => exact i false 8 (by decide)
  | int128 => exact i true 16 (by decide)
  | uint128 => exact i false 16 (by decide)
  | varuint32 => exact fails_varuint s m
  | varint32 => exact fails_varint s m
  | float32 => exact fails_float
  | float64 => exact fails_float
  | float128 => exact fails_fixed
  | checksum160 => exact fails_fixed
  | checksum256 => exact fails_fixed
  | checksum512 => exact fails_fixed
  | time_point =>
    rw [fails_only (r := strToBin F .time_point s) (e0 := .expected_time_point) (by simp) (fun e h => word_error h), hs2 .time_point (fun b h => h)]
    rfl
  | time_point_sec =>
    rw [fails_only (r := strToBin F .time_point_sec s) (e0 := .expected_time_point) (by simp) (fun e h => word_error h), hs2 .time_point_sec (fun b h => h)]
    rfl
  | block_timestamp =>
    rw [fails_only (r := strToBin F .block_timestamp s) (e0 := .expected_time_point) (by simp) (fun e h => word_error h), hs2 .block_timestamp (fun b h => h)]
    rfl
  | name =>
    constructor
    · intro h; exact absurd h fails_ok
    · intro h; cases h
  | bytes => exact fails_bytes hs
  | string => exact ⟨fun h => absurd h (fails_string hs), fun h => by cases h⟩
  | public_key =>
    show Fails (encKey publicKeyTy _ s) m ↔ KeyFault publicParts _ s m
    rw [publicKeyTy, encKey_fails wf_publicKey (fun v h => keyText_short hs ((c15_public_key digest_len s v).1 h)), publicKey_fails hs]
  | private_key =>
    show Fails (encKey privateKeyTy _ s) m ↔ _
    rw [privateKeyTy, encKey_fails wf_privateKey]
    · by_cases hp : ∃ r, s = str "PVT_" ++ r
      · rw [privateKey_fails hs hp]
        exact ⟨fun h => .inl ⟨hp, h⟩, fun h => h.elim (fun g => g.2) (fun g => absurd hp g.1)⟩
      · have e : privateKeyFromString keyDigest s = wifFromString s := by
          have hn : ∀ (n : Nat) (p : Bytes), p.length = n → str "PVT_" = p.take 4 → s.take n ≠ p := by
            intro n p hl h4 g
            obtain ⟨r, g⟩ := (take_prefix hl).1 g
            refine hp ⟨p.drop 4 ++ r, ?_⟩
            rw [g, h4, ← List.append_assoc, List.take_append_drop]
          unfold privateKeyFromString
          rw [if_neg (hn 7 _ rfl (by decide +kernel)), if_neg (hn 7 _ rfl (by decide +kernel)), if_neg (hn 4 _ rfl (by decide +kernel))]
        rw [e, wif_fails hs]
        exact ⟨fun h => .inr ⟨hp, h⟩, fun h => h.elim (fun g => absurd g.1 hp) (fun g => g.2)⟩
    · intro v h
      by_cases hp : ∃ r, s = str "PVT_" ++ r
      · exact keyText_short hs ((c15_private_key digest_len s v hp).1 h)
      · unfold privateKeyFromString at h
        have hn : ∀ (n : Nat) (p : Bytes), p.length = n → str "PVT_" = p.take 4 → s.take n ≠ p := by
          intro n p hl h4 g
          obtain ⟨r, g⟩ := (take_prefix hl).1 g
          refine hp ⟨p.drop 4 ++ r, ?_⟩
          rw [g, h4, ← List.append_assoc, List.take_append_drop]
        rw [if_neg (hn 7 _ rfl (by decide +kernel)), if_neg (hn 7 _ rfl (by decide +kernel)), if_neg (hn 4 _ rfl (by decide +kernel))] at h
        exact wif_short hs h
  | signature =>
    show Fails (encKey signatureTy _ s) m ↔ KeyFault signatureParts _ s m
    rw [signatureTy, encKey_fails wf_signature (fun v h => keyText_short hs ((c15_signature digest_len s v).1 h)), signature_fails hs]
  | symbol =>
    rw [fails_only (r := strToBin F .symbol s) (e0 := .expected_symbol) (by simp) (fun e h => word_error h), hs1 .symbol (fun b h => h)]
    rfl
  | symbol_code =>
    rw [fails_only (r := strToBin F .symbol_code s) (e0 := .expected_symbol_code) (by simp) (fun e h => word_error h), hs1 .symbol_code (fun b h => h)]
    rfl
  | asset =>
    rw [fails_only (r := strToBin F .asset s) (e0 := .expected_symbol_code) (by simp) (fun e h => asset_error h), hs1 .asset (fun b h => h)]
    rfl

/-- **C70**, the builtin types: what a refused scalar is told. -/
theorem scalar_fails {F : Floats} {k : Builtin} {v : JVal} (hs : ShortTexts v) {m : String} :
    Fails (leafEnc (builtins F) k v) m ↔ ScalarFault F k v m := by
  have mis : ∀ v, (leafEnc (builtins F) k v = .error (leafMismatch k)) →
      (Fails (leafEnc (builtins F) k v) m ↔ m = if k = .bool then "Expected true or false" else "Expected string") := by
    intro v h
    rw [h, fails_error]
    cases k <;> exact ⟨fun h => h.2.symm, fun h => ⟨by simp [leafMismatch], h.symm⟩⟩
  cases v with
  | null => exact mis .null rfl
  | arr l => exact mis (.arr l) rfl
  | obj l => exact mis (.obj l) rfl
  | str s =>
    have hs : s.length < 2147483648 := by simpa [ShortTexts] using hs
    show Fails (builtinToBin F k (.str s)) m ↔ TextFault F k s m
    rw [← text_fails hs]
    cases k <;> rfl
  | bool x =>
    show Fails (builtinToBin F k (.bool x)) m ↔ k ≠ .bool ∧ m = "Expected string"
    cases k with
    | bool => simp [builtinToBin, fails_ok]
    | _ =>
      constructor
      · rintro ⟨e, -, rfl, h⟩; injection h with h; subst h; exact ⟨by simp, rfl⟩
      · rintro ⟨-, rfl⟩; exact ⟨_, by simp, rfl, rfl⟩

end Abieos
