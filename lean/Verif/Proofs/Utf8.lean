import Verif.Proofs.ReadText
import Verif.Spec.Regular
/-
`Utf8` against the definition of UTF-8 by code points, and: the JSON reader delivers UTF-8 strings only.
-/
namespace Abieos

open Spec Reader

theorem u8_le (a b : UInt8) : a ≤ b ↔ a.toNat ≤ b.toNat := UInt8.le_iff_toNat_le
theorem u8_lt (a b : UInt8) : a < b ↔ a.toNat < b.toNat := UInt8.lt_iff_toNat_lt
theorem u8_eq (a b : UInt8) : a = b ↔ a.toNat = b.toNat := UInt8.toNat_inj.symm

theorem utf8Seq_1 {c : UInt8} {s : Bytes} (h : c.toNat < 128) : utf8Seq (c :: s) = some 1 := by
  have : c < 0x80 := by rw [u8_lt]; exact h
  simp [utf8Seq, this]

theorem utf8Seq_2 {c a : UInt8} {s : Bytes} (h : 194 ≤ c.toNat ∧ c.toNat ≤ 223) (ha : 128 ≤ a.toNat ∧ a.toNat ≤ 191) :
    utf8Seq (c :: a :: s) = some 2 := by
  have h1 : ¬ c < 0x80 := by rw [u8_lt, show (0x80 : UInt8).toNat = 128 from rfl]; omega
  have h2 : 0xC2 ≤ c ∧ c ≤ 0xDF := by rw [u8_le, u8_le]; exact h
  have h3 : 0x80 ≤ a ∧ a ≤ 0xBF := by rw [u8_le, u8_le]; exact ha
  unfold utf8Seq
  simp only
  rw [if_neg h1, if_pos h2, if_pos (decide_eq_true h3)]

theorem utf8Seq_3 {c a b : UInt8} {s : Bytes} (h : 224 ≤ c.toNat ∧ c.toNat ≤ 239) (ha : 128 ≤ a.toNat ∧ a.toNat ≤ 191)
    (hb : 128 ≤ b.toNat ∧ b.toNat ≤ 191) (h0 : c.toNat = 224 → 160 ≤ a.toNat) (h1 : c.toNat = 237 → a.toNat ≤ 159) :
    utf8Seq (c :: a :: b :: s) = some 3 := by
  have h1 : ¬ c < 0x80 := by rw [u8_lt, show (0x80 : UInt8).toNat = 128 from rfl]; omega
  have h2 : ¬ (0xC2 ≤ c ∧ c ≤ 0xDF) := by
    rw [u8_le, u8_le, show (0xC2 : UInt8).toNat = 194 from rfl, show (0xDF : UInt8).toNat = 223 from rfl]; omega
  have h3 : 0xE0 ≤ c ∧ c ≤ 0xEF := by rw [u8_le, u8_le]; exact h
  have h4 : 0x80 ≤ a ∧ a ≤ 0xBF := by rw [u8_le, u8_le]; exact ha
  have h5 : 0x80 ≤ b ∧ b ≤ 0xBF := by rw [u8_le, u8_le]; exact hb
  have h6 : c = 0xE0 → 0xA0 ≤ a := by rw [u8_eq, u8_le]; exact h0
  have h7 : c = 0xED → a ≤ 0x9F := by rw [u8_eq, u8_le]; assumption
  unfold utf8Seq
  simp only
  rw [if_neg h1, if_neg h2, if_pos h3, if_pos]
  simp only [Bool.and_eq_true, Bool.or_eq_true, bne_iff_ne, decide_eq_true_eq]
  exact ⟨⟨⟨h4, h5⟩, by by_cases e : c = 0xE0 <;> simp [e] at h6 ⊢; exact h6⟩, by by_cases e : c = 0xED <;> simp [e] at h7 ⊢; exact h7⟩

theorem utf8Seq_4 {c a b d : UInt8} {s : Bytes} (h : 240 ≤ c.toNat ∧ c.toNat ≤ 244) (ha : 128 ≤ a.toNat ∧ a.toNat ≤ 191)
    (hb : 128 ≤ b.toNat ∧ b.toNat ≤ 191) (hd : 128 ≤ d.toNat ∧ d.toNat ≤ 191) (h0 : c.toNat = 240 → 144 ≤ a.toNat)
    (h1 : c.toNat = 244 → a.toNat ≤ 143) : utf8Seq (c :: a :: b :: d :: s) = some 4 := by
  have h1 : ¬ c < 0x80 := by rw [u8_lt, show (0x80 : UInt8).toNat = 128 from rfl]; omega
  have h2 : ¬ (0xC2 ≤ c ∧ c ≤ 0xDF) := by
    rw [u8_le, u8_le, show (0xC2 : UInt8).toNat = 194 from rfl, show (0xDF : UInt8).toNat = 223 from rfl]; omega
  have h2' : ¬ (0xE0 ≤ c ∧ c ≤ 0xEF) := by
    rw [u8_le, u8_le, show (0xE0 : UInt8).toNat = 224 from rfl, show (0xEF : UInt8).toNat = 239 from rfl]; omega
  have h3 : 0xF0 ≤ c ∧ c ≤ 0xF4 := by rw [u8_le, u8_le]; exact h
  have h4 : 0x80 ≤ a ∧ a ≤ 0xBF := by rw [u8_le, u8_le]; exact ha
  have h5 : 0x80 ≤ b ∧ b ≤ 0xBF := by rw [u8_le, u8_le]; exact hb
  have h5' : 0x80 ≤ d ∧ d ≤ 0xBF := by rw [u8_le, u8_le]; exact hd
  have h6 : c = 0xF0 → 0x90 ≤ a := by rw [u8_eq, u8_le]; exact h0
  have h7 : c = 0xF4 → a ≤ 0x8F := by rw [u8_eq, u8_le]; assumption
  unfold utf8Seq
  simp only
  rw [if_neg h1, if_neg h2, if_neg h2', if_pos h3, if_pos]
  simp only [Bool.and_eq_true, Bool.or_eq_true, bne_iff_ne, decide_eq_true_eq]
  exact ⟨⟨⟨⟨h4, h5⟩, h5'⟩, by by_cases e : c = 0xF0 <;> simp [e] at h6 ⊢; exact h6⟩, by by_cases e : c = 0xF4 <;> simp [e] at h7 ⊢; exact h7⟩

theorem utf8Seq_encode {cp : Nat} (h : IsScalarValue cp) (x : Bytes) :
    utf8Seq (utf8Encode cp ++ x) = some (utf8Encode cp).length := by
  unfold utf8Encode
  unfold IsScalarValue at h
  have hb : ∀ m : Nat, m < 256 → (UInt8.ofNat m).toNat = m := fun m hm => uint8_toNat_ofNat_lt hm
  split
  · rename_i h1
    have e1 := hb cp (by omega)
    exact utf8Seq_1 (by omega)
  · split
    · rename_i h1 h2
      have e1 := hb (0xC0 + cp / 64) (by omega)
      have e2 := hb (0x80 + cp % 64) (by omega)
      exact utf8Seq_2 (by omega) (by omega)
    · split
      · rename_i h1 h2 h3
        have e1 := hb (0xE0 + cp / 4096) (by omega)
        have e2 := hb (0x80 + cp / 64 % 64) (by omega)
        have e3 := hb (0x80 + cp % 64) (by omega)
        exact utf8Seq_3 (by omega) (by omega) (by omega) (by omega) (by omega)
      · rename_i h1 h2 h3
        have e1 := hb (0xF0 + cp / 262144) (by omega)
        have e2 := hb (0x80 + cp / 4096 % 64) (by omega)
        have e3 := hb (0x80 + cp / 64 % 64) (by omega)
        have e4 := hb (0x80 + cp % 64) (by omega)
        exact utf8Seq_4 (by omega) (by omega) (by omega) (by omega) (by omega) (by omega)

theorem utf8Encode_pos (cp : Nat) : 0 < (utf8Encode cp).length := by
  unfold utf8Encode
  repeat' split
  all_goals simp

/-- A sequence the validator accepts is the encoding of a scalar value. -/
theorem encode_of_utf8Seq {s : Bytes} {k : Nat} (h : utf8Seq s = some k) : ∃ cp, IsScalarValue cp ∧ s.take k = utf8Encode cp := by
  have hof : ∀ (a : UInt8) (m : Nat), m = a.toNat → a = UInt8.ofNat m := by
    intro a m hm; subst hm; simp
  unfold utf8Seq at h
  simp only [Bool.and_eq_true, Bool.or_eq_true, bne_iff_ne, decide_eq_true_eq, u8_le, u8_lt] at h
  split at h
  · simp at h
  · rename_i c s
    have hc := c.toNat_lt
    split at h
    · rename_i h1
      simp at h; subst h
      change c.toNat < 128 at h1
      refine ⟨c.toNat, .inl (by omega), ?_⟩
      unfold utf8Encode
      rw [if_pos (by omega)]; simp
    · split at h
      · rename_i h1 h2
        change ¬ c.toNat < 128 at h1
        change 194 ≤ c.toNat ∧ c.toNat ≤ 223 at h2
        split at h
        · rename_i a s
          split at h
          · rename_i ha
            change 128 ≤ a.toNat ∧ a.toNat ≤ 191 at ha
            simp at h; subst h
            refine ⟨(c.toNat - 192) * 64 + (a.toNat - 128), .inl (by omega), ?_⟩
            unfold utf8Encode
            rw [if_neg (by omega), if_pos (by omega)]
            simp only [List.take_succ_cons, List.take_zero]
            rw [← hof c _ (by omega), ← hof a _ (by omega)]
          · simp at h
        · simp at h
      · split at h
        · rename_i h1 h2 h3
          change ¬ c.toNat < 128 at h1
          change 224 ≤ c.toNat ∧ c.toNat ≤ 239 at h3
          split at h
          · rename_i a b s
            split at h
            · rename_i ha
              simp at h; subst h
              obtain ⟨⟨⟨ha, hb⟩, h4⟩, h5⟩ := ha
              change 128 ≤ a.toNat ∧ a.toNat ≤ 191 at ha
              change 128 ≤ b.toNat ∧ b.toNat ≤ 191 at hb
              have h4 : c.toNat ≠ 224 ∨ 160 ≤ a.toNat := h4.imp (fun h e => h (uint8_ext e)) id
              have h5 : c.toNat ≠ 237 ∨ a.toNat ≤ 159 := h5.imp (fun h e => h (uint8_ext e)) id
              refine ⟨(c.toNat - 224) * 4096 + (a.toNat - 128) * 64 + (b.toNat - 128), ?_, ?_⟩
              · unfold IsScalarValue; omega
              unfold utf8Encode
              rw [if_neg (by omega), if_neg (by omega), if_pos (by omega)]
              simp only [List.take_succ_cons, List.take_zero]
              rw [← hof c _ (by omega), ← hof a _ (by omega), ← hof b _ (by omega)]
            · simp at h
          · simp at h
        · split at h
          · rename_i h1 h2 h3 h3'
            change 240 ≤ c.toNat ∧ c.toNat ≤ 244 at h3'
            split at h
            · rename_i a b d s
              split at h
              · rename_i ha
                simp at h; subst h
                obtain ⟨⟨⟨⟨ha, hb⟩, hd⟩, h4⟩, h5⟩ := ha
                change 128 ≤ a.toNat ∧ a.toNat ≤ 191 at ha
                change 128 ≤ b.toNat ∧ b.toNat ≤ 191 at hb
                change 128 ≤ d.toNat ∧ d.toNat ≤ 191 at hd
                have h4 : c.toNat ≠ 240 ∨ 144 ≤ a.toNat := h4.imp (fun h e => h (uint8_ext e)) id
                have h5 : c.toNat ≠ 244 ∨ a.toNat ≤ 143 := h5.imp (fun h e => h (uint8_ext e)) id
                refine ⟨(c.toNat - 240) * 262144 + (a.toNat - 128) * 4096 + (b.toNat - 128) * 64 + (d.toNat - 128), ?_, ?_⟩
                · unfold IsScalarValue; omega
                unfold utf8Encode
                rw [if_neg (by omega), if_neg (by omega), if_neg (by omega)]
                simp only [List.take_succ_cons, List.take_zero]
                rw [← hof c _ (by omega), ← hof a _ (by omega), ← hof b _ (by omega), ← hof d _ (by omega)]
              · simp at h
            · simp at h
          · simp at h

/-- `Utf8` is UTF-8. -/
theorem utf8_iff (s : Bytes) : Utf8 s ↔ IsUtf8Text s := by
  constructor
  · intro h
    induction h with
    | nil => exact ⟨[], by simp, rfl⟩
    | cons s n h _ ih =>
      obtain ⟨cp, h1, h2⟩ := encode_of_utf8Seq h
      obtain ⟨cps, h3, h4⟩ := ih
      refine ⟨cp :: cps, by simpa using ⟨h1, h3⟩, ?_⟩
      rw [List.flatMap_cons, ← h4, ← h2, List.take_append_drop]
  · rintro ⟨cps, h1, rfl⟩
    induction cps with
    | nil => exact .nil
    | cons cp cps ih =>
      rw [List.flatMap_cons]
      refine .cons _ _ (utf8Seq_encode (h1 cp (by simp)) _) ?_
      rw [List.drop_left]
      exact ih fun c hc => h1 c (by simp [hc])

theorem Spec.Utf8.append {a b : Bytes} (ha : Utf8 a) (hb : Utf8 b) : Utf8 (a ++ b) := by
  rw [utf8_iff] at *
  obtain ⟨x, h1, rfl⟩ := ha
  obtain ⟨y, h2, rfl⟩ := hb
  refine ⟨x ++ y, ?_, by simp⟩
  intro c hc
  rcases List.mem_append.1 hc with h | h
  · exact h1 c h
  · exact h2 c h

theorem utf8_ascii {s : Bytes} (h : ∀ c ∈ s, c.toNat < 128) : Utf8 s := by
  induction s with
  | nil => exact .nil
  | cons c s ih =>
    exact .cons _ 1 (utf8Seq_1 (h c (by simp))) (ih fun d hd => h d (by simp [hd]))

theorem utf8_encode {cp : Nat} (h : IsScalarValue cp) : Utf8 (utf8Encode cp) := by
  rw [utf8_iff]; exact ⟨[cp], by simpa using h, by simp⟩

theorem unhexDigit_lt : ∀ c n, unhexDigit c = some n → n < 16 := by
  have : ∀ c : UInt8, ((unhexDigit c).all fun n => decide (n < 16)) = true := by
    apply forall_uint8; decide +kernel
  intro c n h
  have := this c
  rw [h] at this
  simpa using this

theorem hex4_lt {s r : Bytes} {n : Nat} (h : hex4 s = some (n, r)) : n < 65536 := by
  unfold hex4 at h
  split at h
  · rename_i a b c d s
    simp only [Option.bind_eq_bind, Option.bind_eq_some_iff] at h
    obtain ⟨x1, h1, x2, h2, x3, h3, x4, h4, h5⟩ := h
    have := unhexDigit_lt _ _ h1
    have := unhexDigit_lt _ _ h2
    have := unhexDigit_lt _ _ h3
    have := unhexDigit_lt _ _ h4
    simp at h5
    omega
  · simp at h

theorem escape_utf8 {s e r : Bytes} (h : escape s = some (e, r)) : Utf8 e := by
  have one : ∀ c : UInt8, c.toNat < 128 → Utf8 [c] := fun c hc => utf8_ascii (by simpa using hc)
  unfold escape at h
  split at h
  all_goals first
    | (simp at h; obtain ⟨rfl, -⟩ := h; exact one _ (by decide))
    | skip
  · split at h
    · simp at h
    · rename_i hi s h1
      have := hex4_lt h1
      split at h
      · rename_i hs
        split at h
        · split at h
          · split at h
            · rename_i lo s h2
              have := hex4_lt h2
              split at h
              · simp at h
                obtain ⟨rfl, -⟩ := h
                exact utf8_encode (by unfold IsScalarValue; omega)
              · simp at h
            · simp at h
          · simp at h
        · simp at h
      · simp at h
        obtain ⟨rfl, -⟩ := h
        exact utf8_encode (by unfold IsScalarValue; omega)
  · simp at h

theorem chars_utf8 : ∀ (n : Nat) (s t r : Bytes), chars n s = some (t, r) → Utf8 t := by
  intro n
  induction n with
  | zero => intro s t r h; simp [chars] at h
  | succ n ih =>
    intro s t r h
    cases s with
    | nil => simp [chars] at h
    | cons c s =>
      rw [chars] at h
      split at h
      · simp at h; rw [h.1]; exact .nil
      · split at h
        · split at h
          · rename_i e s' he
            split at h
            · rename_i r' s'' hc
              simp at h
              rw [← h.1]
              exact (escape_utf8 he).append (ih _ _ _ hc)
            · simp at h
          · simp at h
        · split at h
          · simp at h
          · split at h
            · rename_i k hk
              split at h
              · rename_i r' s'' hc
                simp at h
                rw [← h.1]
                obtain ⟨cp, h1, h2⟩ := encode_of_utf8Seq hk
                rw [h2]
                exact (utf8_encode h1).append (ih _ _ _ hc)
              · simp at h
            · simp at h

theorem digits_ascii : ∀ s : Bytes, ∀ c ∈ (digits s).1, c.toNat < 128 := by
  intro s
  induction s with
  | nil => simp [digits]
  | cons c s ih =>
    rw [digits]
    split
    · rename_i h
      rw [u8_le, u8_le] at h
      intro d hd
      rcases List.mem_cons.1 hd with rfl | hd
      · have := h.2; change _ ≤ 57 at this; omega
      · exact ih d hd
    · simp

theorem number_ascii {s t r : Bytes} (h : number s = some (t, r)) : ∀ c ∈ t, c.toNat < 128 := by
  have hd := digits_ascii
  have hs : ∀ c ∈ (signPart s).1, c.toNat < 128 := by
    cases s with
    | nil => simp [signPart]
    | cons c s => rw [signPart]; split <;> simp
  unfold number at h
  simp only at h
  split at h
  · simp at h
  · split at h
    · simp at h
    · rename_i frac s2 hf
      split at h
      · simp at h
      · rename_i e s3 he
        have hfr : ∀ c ∈ frac, c.toNat < 128 := by
          unfold fracPart at hf
          split at hf
          · simp at hf; simp [hf.1]
          · split at hf
            · split at hf
              · simp at hf
              · simp only [Option.some.injEq, Prod.mk.injEq] at hf
                rw [← hf.1]
                simp only [List.mem_cons]
                rintro c (rfl | hc)
                · decide
                · exact hd _ c hc
            · simp at hf; simp [hf.1]
        have her : ∀ c ∈ e, c.toNat < 128 := by
          unfold expPart at he
          split at he
          · simp at he; simp [he.1]
          · rename_i c0 s0
            split at he
            · rename_i hc0
              split at he
              · simp at he
              · simp only [Option.some.injEq, Prod.mk.injEq] at he
                rw [← he.1]
                simp only [List.mem_cons, List.mem_append]
                rintro c (rfl | hc | hc)
                · rcases hc0 with rfl | rfl <;> decide
                · cases s0 with
                  | nil => simp [expSign] at hc
                  | cons c1 s1 =>
                    rw [expSign] at hc
                    split at hc
                    · rename_i h1
                      simp at hc
                      subst hc
                      rcases h1 with rfl | rfl <;> decide
                    · simp at hc
                · exact hd _ c hc
            · simp at he; simp [he.1]
        simp only [Option.some.injEq, Prod.mk.injEq] at h
        rw [← h.1]
        simp only [List.mem_append]
        rintro c (((hc | hc) | hc) | hc)
        · exact hs c hc
        · exact hd _ c hc
        · exact hfr c hc
        · exact her c hc

mutual
theorem value_utf8 : ∀ (n : Nat) (s : Bytes) (v : JVal) (r : Bytes), value n s = some (v, r) → DocUtf8 v
  | 0, s, v, r, h => by simp [value] at h
  | n + 1, s, v, r, h => by
    rw [value] at h
    split at h
    · simp at h
    · simp at h; rw [← h.1]; trivial
    · simp at h; rw [← h.1]; trivial
    · simp at h; rw [← h.1]; trivial
    · split at h
      · rename_i t s' hc
        simp at h; rw [← h.1]; exact chars_utf8 _ _ _ _ hc
      · simp at h
    · split at h
      · simp at h; rw [← h.1]; trivial
      · split at h
        · rename_i l s' hc
          simp at h; rw [← h.1]
          exact elems_utf8 n _ _ _ hc
        · simp at h
    · split at h
      · simp at h; rw [← h.1]; trivial
      · split at h
        · rename_i l s' hc
          simp at h; rw [← h.1]
          exact members_utf8 n _ _ _ hc
        · simp at h
    · split at h
      · rename_i t s' hc
        simp at h; rw [← h.1]; exact utf8_ascii (number_ascii hc)
      · simp at h

theorem elems_utf8 : ∀ (n : Nat) (s : Bytes) (l : List JVal) (r : Bytes), elems n s = some (l, r) → DocUtf8.go l
  | 0, s, l, r, h => by simp [elems] at h
  | n + 1, s, l, r, h => by
    rw [elems] at h
    split at h
    · simp at h
    · rename_i v s' hv
      have h1 := value_utf8 n _ _ _ hv
      split at h
      · split at h
        · rename_i l' s'' hl
          simp at h; rw [← h.1]
          exact ⟨h1, elems_utf8 n _ _ _ hl⟩
        · simp at h
      · simp at h; rw [← h.1]; exact ⟨h1, trivial⟩
      · simp at h

theorem members_utf8 : ∀ (n : Nat) (s : Bytes) (l : List (Bytes × JVal)) (r : Bytes), members n s = some (l, r) → DocUtf8.goM l
  | 0, s, l, r, h => by simp [members] at h
  | n + 1, s, l, r, h => by
    rw [members] at h
    split at h
    · split at h
      · simp at h
      · split at h
        · split at h
          · simp at h
          · rename_i v s' hv
            have h1 := value_utf8 n _ _ _ hv
            split at h
            · split at h
              · rename_i l' s'' hl
                simp at h; rw [← h.1]
                exact ⟨h1, members_utf8 n _ _ _ hl⟩
              · simp at h
            · simp at h; rw [← h.1]; exact ⟨h1, trivial⟩
            · simp at h
        · simp at h
    · simp at h
end

/-- The reader delivers UTF-8 strings. -/
theorem read_utf8 {t : Bytes} {v : JVal} (h : Reader.read t = some v) : DocUtf8 v := by
  unfold Reader.read at h
  simp only at h
  split at h
  · rename_i v' r hv
    split at h
    · simp at h; subst h; exact value_utf8 _ _ _ _ hv
    · simp at h
  · simp at h

end Abieos
