import Verif.Spec.JsonText
import Verif.Proofs.Bytes
import Verif.Props.Hex
/-
The reader reads back what the writer wrote.
-/
namespace Abieos

open Spec

/-- The length found by `utf8Seq` is between 1 and 4, the bytes are there, and only they matter. -/
theorem utf8Seq_spec {s : Bytes} {k : Nat} (h : utf8Seq s = some k) :
    0 < k ∧ k ≤ s.length ∧ k ≤ 4 ∧ ∀ x, utf8Seq (s.take k ++ x) = some k := by
  unfold utf8Seq at h
  simp only at h
  split at h
  · simp at h
  · rename_i c s
    split at h
    · simp at h; subst h; simp [utf8Seq, *]
    · split at h
      · split at h
        · split at h
          · simp at h; subst h; simp_all [utf8Seq]
          · simp at h
        · simp at h
      · split at h
        · split at h
          · split at h
            · simp at h; subst h; rename_i h1 h2 h3 _ _ _ _ h4
              refine ⟨by omega, by simp, by omega, fun x => ?_⟩
              simp only [List.take_succ_cons, List.take_zero, List.cons_append, List.nil_append, utf8Seq, if_neg h1, if_neg h2, if_pos h3, if_pos h4]
            · simp at h
          · simp at h
        · split at h
          · split at h
            · split at h
              · simp at h; subst h; rename_i h1 h2 h3 h4 _ _ _ _ _ h5
                refine ⟨by omega, by simp, by omega, fun x => ?_⟩
                simp only [List.take_succ_cons, List.take_zero, List.cons_append, List.nil_append, utf8Seq, if_neg h1, if_neg h2, if_neg h3, if_pos h4, if_pos h5]
              · simp at h
            · simp at h
          · simp at h

theorem tail_plain : ∀ c : UInt8, 0x80 ≤ c → plainByte c = true := by
  apply forall_uint8; decide +kernel

/-- A sequence that starts with a plain byte consists of plain bytes. -/
theorem utf8Seq_plain {c : UInt8} {s : Bytes} {k : Nat} (hc : plainByte c = true) (h : utf8Seq (c :: s) = some k) :
    ∀ b ∈ (c :: s).take k, plainByte b = true := by
  unfold utf8Seq at h
  simp only at h
  split at h
  · simp at h; subst h; simp [hc]
  · split at h
    · split at h
      · split at h
        · simp at h; subst h; rename_i h'; simp at h'; simp [hc, tail_plain _ h'.1]
        · simp at h
      · simp at h
    · split at h
      · split at h
        · split at h
          · simp at h; subst h; rename_i h'; simp at h'; simp [hc, tail_plain _ h'.1.1.1.1, tail_plain _ h'.1.1.2.1]
          · simp at h
        · simp at h
      · split at h
        · split at h
          · split at h
            · simp at h; subst h; rename_i h'; simp at h'
              simp [hc, tail_plain _ h'.1.1.1.1.1, tail_plain _ h'.1.1.1.2.1, tail_plain _ h'.1.1.2.1]
            · simp at h
          · simp at h
        · simp at h

theorem takeWhile_prefix {p : UInt8 → Bool} : ∀ (k : Nat) (s : Bytes), (∀ b ∈ s.take k, p b = true) →
    ∃ t, s.takeWhile p = s.take k ++ t
  | 0, s, _ => ⟨s.takeWhile p, by simp⟩
  | k + 1, [], _ => ⟨[], by simp⟩
  | k + 1, c :: s, h => by
    obtain ⟨t, ht⟩ := takeWhile_prefix k s (fun b hb => h b (by simp [hb]))
    exact ⟨t, by simp [h c (by simp), ht]⟩

/-- The writer's look-ahead window (4 bytes of the current run) finds the same sequence as the whole text. -/
theorem utf8Seq_window {c : UInt8} {s : Bytes} (hc : plainByte c = true) :
    utf8Seq (((c :: s).takeWhile plainByte).take 4) = utf8Seq (c :: s) := by
  cases h : utf8Seq (c :: s) with
  | some k =>
    obtain ⟨h1, h2, h3, h4⟩ := utf8Seq_spec h
    obtain ⟨t, ht⟩ := takeWhile_prefix k _ (utf8Seq_plain hc h)
    rw [ht, List.take_append, List.take_take, Nat.min_eq_right h3]
    exact h4 _
  | none =>
    cases h' : utf8Seq (((c :: s).takeWhile plainByte).take 4) with
    | none => rfl
    | some k =>
      obtain ⟨h1, h2, h3, h4⟩ := utf8Seq_spec h'
      exfalso
      have e : ((c :: s).takeWhile plainByte).take 4 ++ (((c :: s).takeWhile plainByte).drop 4 ++ (c :: s).dropWhile plainByte) = c :: s := by
        rw [← List.append_assoc, List.take_append_drop, List.takeWhile_append_dropWhile]
      have := h4 ((((c :: s).takeWhile plainByte).take 4).drop k ++ (((c :: s).takeWhile plainByte).drop 4 ++ (c :: s).dropWhile plainByte))
      rw [← List.append_assoc, List.take_append_drop, e, h] at this
      exact absurd this (by simp)

theorem patch_cons_some {c : UInt8} {r : Bytes} {n : Nat} (h : utf8Seq (c :: r) = some n) :
    patch (c :: r) = (c :: r).take n ++ patch (r.drop (n - 1)) := by
  rw [patch.eq_def]; simp only [h]

theorem patch_cons_none {c : UInt8} {r : Bytes} (h : utf8Seq (c :: r) = none) :
    patch (c :: r) = 63 :: patch r := by
  rw [patch.eq_def]; simp only [h]

theorem drop_cons_pred {c : UInt8} {r : Bytes} {n : Nat} (h : 0 < n) : (c :: r).drop n = r.drop (n - 1) := by
  cases n with
  | zero => omega
  | succ n => simp

theorem patch_eq_of_utf8 {s : Bytes} (h : Utf8 s) : patch s = s := by
  induction h with
  | nil => rw [patch.eq_def]
  | cons s n h _ ih =>
    cases s with
    | nil => simp [utf8Seq] at h
    | cons c r =>
      have hn := (utf8Seq_spec h).1
      rw [patch_cons_some h, ← drop_cons_pred hn, ih, List.take_append_drop]

/-- The patched text is UTF-8. -/
theorem patch_utf8 (s : Bytes) : Utf8 (patch s) := by
  induction hn : s.length using Nat.strongRecOn generalizing s with
  | _ n ih =>
    cases s with
    | nil => rw [patch.eq_def]; exact .nil
    | cons c r =>
      cases h : utf8Seq (c :: r) with
      | some k =>
        obtain ⟨h1, h2, h3, h4⟩ := utf8Seq_spec h
        rw [patch_cons_some h]
        refine .cons _ k (h4 _) ?_
        rw [List.drop_append, List.drop_take, Nat.sub_self]
        simp only [List.length_take, Nat.min_eq_left h2, Nat.sub_self, List.drop_zero, List.take_zero, List.nil_append]
        exact ih (r.drop (k - 1)).length (by subst hn; simp; omega) _ rfl
      | none =>
        rw [patch_cons_none h]
        exact .cons _ 1 (by simp [utf8Seq]) (by simpa using ih r.length (by subst hn; simp) r rfl)

theorem jsonChars_plain {c : UInt8} {r : Bytes} {n : Nat} (hc : plainByte c = true) (h : utf8Seq (c :: r) = some n) :
    jsonChars (c :: r) = (c :: r).take n ++ jsonChars (r.drop (n - 1)) := by
  rw [jsonChars.eq_def]; simp only [hc, if_true, utf8Seq_window hc, h]

theorem jsonChars_bad {c : UInt8} {r : Bytes} (hc : plainByte c = true) (h : utf8Seq (c :: r) = none) :
    jsonChars (c :: r) = 63 :: jsonChars r := by
  rw [jsonChars.eq_def]; simp only [hc, if_true, utf8Seq_window hc, h]

theorem jsonChars_escape {c : UInt8} {r : Bytes} (hc : plainByte c = false) :
    jsonChars (c :: r) = escapeByte c ++ jsonChars r := by
  rw [jsonChars.eq_def]; simp only [hc]; simp

theorem escape_read : ∀ c : UInt8, plainByte c = false → ∃ e, escapeByte c = 92 :: e ∧
    (∀ x, Reader.escape (e ++ x) = some ([c], x)) ∧ (∀ b ∈ escapeByte c, b ≠ 0) ∧ utf8Seq [c] = some 1 ∧
    (escapeByte c).length ≤ 6 := by
  intro c hc
  have h0 : ∀ c : UInt8, plainByte c = false → (∀ b ∈ escapeByte c, b ≠ 0) ∧ utf8Seq [c] = some 1 ∧
    (escapeByte c).length ≤ 6 ∧ (c = 34 ∨ c = 92 ∨ (c ≠ 34 ∧ c ≠ 92 ∧
      unhexDigit (hexDigit (c.toNat >>> 4)) = some (c.toNat >>> 4) ∧
      unhexDigit (hexDigit (c.toNat &&& 15)) = some (c.toNat &&& 15) ∧
      ¬ (0xD800 ≤ (c.toNat >>> 4) * 16 + (c.toNat &&& 15) ∧ (c.toNat >>> 4) * 16 + (c.toNat &&& 15) ≤ 0xDFFF) ∧
      Reader.utf8Encode ((c.toNat >>> 4) * 16 + (c.toNat &&& 15)) = [c])) := by
    apply forall_uint8; decide +kernel
  obtain ⟨h1, h2, h2', h3⟩ := h0 c hc
  rcases h3 with rfl | rfl | ⟨h34, h92, h4, h5, h6, h7⟩
  · exact ⟨[34], rfl, fun x => rfl, h1, h2, h2'⟩
  · exact ⟨[92], rfl, fun x => rfl, h1, h2, h2'⟩
  · refine ⟨[117, 48, 48, hexDigit (c.toNat >>> 4), hexDigit (c.toNat &&& 15)], by simp [escapeByte, h34, h92], ?_, h1, h2, h2'⟩
    intro x
    have u0 : unhexDigit 48 = some 0 := by decide +kernel
    show Reader.escape (117 :: 48 :: 48 :: hexDigit (c.toNat >>> 4) :: hexDigit (c.toNat &&& 15) :: x) = _
    rw [Reader.escape.eq_def]
    simp only [Reader.hex4, u0, h4, h5, bind, Option.bind, pure]
    simp only [Nat.zero_mul, Nat.zero_add, if_neg h6, h7]

theorem plain_ne : ∀ c : UInt8, plainByte c = true → c ≠ 34 ∧ c ≠ 92 ∧ ¬ c < 32 ∧ c ≠ 0 := by
  apply forall_uint8; decide +kernel

theorem chars_escape {n : Nat} {s e x r x' : Bytes} (h : Reader.escape s = some (e, x)) (hr : Reader.chars n x = some (r, x')) :
    Reader.chars (n + 1) (92 :: s) = some (e ++ r, x') := by
  rw [Reader.chars.eq_def]; simp [h, hr]

theorem chars_plain {n : Nat} {c : UInt8} {s r x' : Bytes} {k : Nat} (hc : plainByte c = true)
    (h : utf8Seq (c :: s) = some k) (hr : Reader.chars n ((c :: s).drop k) = some (r, x')) :
    Reader.chars (n + 1) (c :: s) = some ((c :: s).take k ++ r, x') := by
  obtain ⟨h1, h2, h3, -⟩ := plain_ne c hc
  rw [Reader.chars.eq_def]; simp only [h1, h2, h3, h, hr, if_false]

/-- Reading back what the string writer wrote. -/
theorem chars_jsonChars (s : Bytes) : ∀ n, (jsonChars s).length < n → ∀ x,
    Reader.chars n (jsonChars s ++ 34 :: x) = some (patch s, x) := by
  induction hn : s.length using Nat.strongRecOn generalizing s with
  | _ m ih =>
    intro n hlt x
    cases n with
    | zero => omega
    | succ n =>
    cases s with
    | nil => rw [jsonChars.eq_def, patch.eq_def]; simp [Reader.chars]
    | cons c r =>
      cases hc : plainByte c with
      | true =>
        cases h : utf8Seq (c :: r) with
        | some k =>
          obtain ⟨h1, h2, h3, h4⟩ := utf8Seq_spec h
          rw [jsonChars_plain hc h] at hlt ⊢
          rw [patch_cons_some h, List.append_assoc]
          obtain ⟨k, rfl⟩ : ∃ j, k = j + 1 := ⟨k - 1, by omega⟩
          have h5 := h4 (jsonChars (r.drop (k + 1 - 1)) ++ 34 :: x)
          simp only [List.take_succ_cons, List.cons_append] at h5 ⊢
          rw [chars_plain hc h5 (r := patch (r.drop k)) (x' := x)]
          · simp only [List.take_succ_cons, List.cons_append, Nat.add_sub_cancel]
            rw [List.take_append_of_le_length (by simp at h2 ⊢; omega), List.take_take, Nat.min_self]
          · simp only [List.drop_succ_cons, Nat.add_sub_cancel]
            rw [List.drop_append_of_le_length (by simp at h2 ⊢; omega), List.drop_take, Nat.sub_self, List.take_zero, List.nil_append]
            exact ih (r.drop k).length (by subst hn; simp; omega) _ rfl n (by simp at hlt; omega) x
        | none =>
          rw [jsonChars_bad hc h] at hlt ⊢
          rw [patch_cons_none h]
          have := ih r.length (by subst hn; simp) r rfl n (by simp at hlt; omega) x
          exact chars_plain (c := 63) (k := 1) (by decide) (by simp [utf8Seq]) (by simpa using this)
      | false =>
        rw [jsonChars_escape hc] at hlt ⊢
        obtain ⟨e, he, h1, _, h2, _⟩ := escape_read c hc
        have hk : utf8Seq (c :: r) = some 1 := by simpa using (utf8Seq_spec h2).2.2.2 r
        rw [patch_cons_some hk, he]
        rw [he] at hlt
        have := ih r.length (by subst hn; simp) r rfl n (by simp at hlt; omega) x
        rw [List.cons_append, List.cons_append, List.append_assoc, chars_escape (h1 _) this]
        simp

/-- What the string writer wrote contains no NUL. -/
theorem jsonChars_ne_zero (s : Bytes) : ∀ b ∈ jsonChars s, b ≠ 0 := by
  induction hn : s.length using Nat.strongRecOn generalizing s with
  | _ m ih =>
    cases s with
    | nil => rw [jsonChars.eq_def]; simp
    | cons c r =>
      cases hc : plainByte c with
      | true =>
        cases h : utf8Seq (c :: r) with
        | some k =>
          rw [jsonChars_plain hc h]
          intro b hb
          rcases List.mem_append.1 hb with hb | hb
          · exact (plain_ne b (utf8Seq_plain hc h b hb)).2.2.2
          · exact ih (r.drop (k - 1)).length (by subst hn; simp; omega) _ rfl b hb
        | none =>
          rw [jsonChars_bad hc h]
          intro b hb
          rcases List.mem_cons.1 hb with rfl | hb
          · decide
          · exact ih r.length (by subst hn; simp) _ rfl b hb
      | false =>
        rw [jsonChars_escape hc]
        intro b hb
        rcases List.mem_append.1 hb with hb | hb
        · exact (escape_read c hc).choose_spec.2.2.1 b hb
        · exact ih r.length (by subst hn; simp) _ rfl b hb

theorem chars_jsonString (s : Bytes) (n : Nat) (x : Bytes) (h : (jsonChars s).length < n) :
    Reader.chars n (jsonChars s ++ [34] ++ x) = some (patch s, x) := by
  rw [List.append_assoc]; exact chars_jsonChars s n h x

theorem jsonString_ne_zero (s : Bytes) : ∀ b ∈ jsonString s, b ≠ 0 := by
  intro b hb
  unfold jsonString at hb
  rcases List.mem_cons.1 hb with rfl | hb
  · decide
  · rcases List.mem_append.1 hb with hb | hb
    · exact jsonChars_ne_zero s b hb
    · simp at hb; subst hb; decide

/-- A JSON string reads as the patched string. -/
theorem reads_jsonString (s : Bytes) : Reads (jsonString s) (.str (patch s)) := by
  refine ⟨by simp [jsonString], jsonString_ne_zero s, ?_⟩
  intro r _ n hn
  cases n with
  | zero => omega
  | succ n =>
    unfold jsonString
    rw [Reader.value.eq_def]
    simp only [List.cons_append, Reader.skipWs]
    rw [if_neg (by decide)]
    simp only
    rw [chars_jsonString s _ _ (by simp; omega)]

end Abieos
