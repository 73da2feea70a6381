import Verif.Spec.Murmur
import Verif.Props.Name
import Verif.Model.Builtins
/-! # C45: how texts that are no names are hashed -/
namespace Abieos
open Spec

theorem shiftMix_toNat (v : UInt64) : (shiftMix v).toNat = hashMix v.toNat := by
  simp [shiftMix, hashMix, Nat.shiftRight_eq_div_pow]

theorem step_toNat (h k : UInt64) : ((h ^^^ k) * murmurMul).toNat = hashStep h.toNat k.toNat := by
  simp [hashStep, murmurMul, hashMul]

theorem leVal_lt64 : ∀ s : Bytes, leVal s < 256 ^ s.length
  | [] => by simp [leVal]
  | c :: s => by
    have := leVal_lt64 s
    have := c.toNat_lt
    simp only [leVal, List.length_cons, Nat.pow_succ]
    omega

theorem loadBytes_toNat (s : Bytes) (hs : s.length < 8) : (loadBytes s).toNat = leVal s := by
  have : ∀ s : Bytes, (loadBytes s).toNat = leVal s % 2 ^ 64 := by
    intro s
    induction s with
    | nil => rfl
    | cons c s ih =>
      have e : loadBytes (c :: s) = (loadBytes s <<< 8) + UInt64.ofNat c.toNat := by
        simp [loadBytes]
      have := c.toNat_lt
      simp only [e, UInt64.toNat_add, UInt64.toNat_shiftLeft, ih, leVal, UInt64.toNat_ofNat', Nat.shiftLeft_eq]
      simp
      omega
  rw [this, Nat.mod_eq_of_lt]
  refine Nat.lt_of_lt_of_le (leVal_lt64 s) ?_
  calc 256 ^ s.length ≤ 256 ^ 8 := Nat.pow_le_pow_right (by decide) (by omega)
    _ = 2 ^ 64 := by decide

theorem foldl_load : ∀ (s : Bytes) (r : UInt64), s.length ≤ 8 →
    (s.foldl (fun r b => (r ||| signExtend8 b) <<< 8) r).toNat = (r.toNat * 256 ^ s.length % 2 ^ 64) ||| codeLoad s
  | [], r, _ => by
    have := r.toNat_lt
    simp only [List.foldl_nil, List.length_nil, codeLoad, Nat.or_zero]
    omega
  | c :: s, r, h => by
    simp only [List.foldl_cons]
    simp only [List.length_cons] at h
    rw [foldl_load s _ (by omega)]
    have e : (signExtend8 c).toNat = if c.toNat < 128 then c.toNat else 2 ^ 64 - 256 + c.toNat := by
      have := c.toNat_lt
      unfold signExtend8
      split <;> rw [UInt64.toNat_ofNat'] <;> omega
    have e2 : (((r ||| signExtend8 c) <<< 8).toNat * 256 ^ s.length) % 2 ^ 64 =
        (r.toNat * 256 ^ (s.length + 1) % 2 ^ 64) ||| ((signExtend8 c).toNat * 256 ^ (s.length + 1) % 2 ^ 64) := by
      simp only [UInt64.toNat_shiftLeft, UInt64.toNat_or]
      have : (256 : Nat) = 2 ^ 8 := rfl
      rw [this, ← Nat.pow_mul, ← Nat.pow_mul, ← Nat.shiftLeft_eq, ← Nat.shiftLeft_eq, ← Nat.shiftLeft_eq]
      apply Nat.eq_of_testBit_eq
      intro i
      simp only [Nat.testBit_mod_two_pow, Nat.testBit_shiftLeft, Nat.testBit_or]
      simp
      by_cases h1 : i < 64 <;> by_cases h2 : 8 * s.length ≤ i <;> by_cases h3 : 8 * (s.length + 1) ≤ i <;>
        simp [h1, h2, h3] <;> first | omega | skip
      have e1 : i - 8 * s.length - 8 = i - 8 * (s.length + 1) := by omega
      have e2 : i - 8 * s.length < 64 := by omega
      have e3 : 8 ≤ i - 8 * s.length := by omega
      simp [e1, e2, e3]
    rw [e2, e, Nat.or_assoc]
    simp only [codeLoad, List.length_cons]

theorem unalignedLoad_toNat (s : Bytes) : (unalignedLoad s).toNat = codeLoad (s.take 8) := by
  unfold unalignedLoad
  rw [foldl_load _ _ (by simp)]
  simp

theorem murmurLoop_rounds : ∀ (n : Nat) (h : UInt64) (s : Bytes), s.length / 8 = n →
    hashRounds codeLoad h.toNat s =
      (if s.length % 8 ≠ 0 then ((murmurLoop n h s).1 ^^^ loadBytes (murmurLoop n h s).2) * murmurMul else (murmurLoop n h s).1).toNat
  | 0, h, s, hn => by
    rw [hashRounds, if_neg (by omega)]
    simp only [murmurLoop]
    cases s with
    | nil => simp
    | cons c s =>
      rw [if_neg (by simp), if_pos (by simp at hn ⊢; omega), step_toNat, loadBytes_toNat _ (by omega)]
  | n + 1, h, s, hn => by
    rw [hashRounds, if_pos (by omega)]
    have e : hashStep h.toNat (hashMix (codeLoad (s.take 8) * hashMul % 2 ^ 64) * hashMul % 2 ^ 64) =
        ((h ^^^ (shiftMix (unalignedLoad s * murmurMul) * murmurMul)) * murmurMul).toNat := by
      rw [step_toNat, UInt64.toNat_mul, shiftMix_toNat, UInt64.toNat_mul, unalignedLoad_toNat]
      rfl
    rw [e, murmurLoop_rounds n _ (s.drop 8) (by simp; omega)]
    have : (s.drop 8).length % 8 = s.length % 8 := by simp; omega
    rw [this]
    rfl

theorem murmur64_toNat (s : Bytes) : (murmur64 s).toNat = murmurHash codeLoad 50160733440 s := by
  have e : 50160733440 ^^^ (s.length * hashMul % 2 ^ 64) = ((0xbadd00d00 : UInt64) ^^^ (UInt64.ofNat s.length * murmurMul)).toNat := by
    simp [murmurMul, hashMul]
  unfold murmur64 murmurHash
  rw [e, murmurLoop_rounds (s.length / 8) _ s rfl]
  simp only [shiftMix_toNat, UInt64.toNat_mul]
  rfl

/-- **C45**: a text that is no valid name gets its 64-bit Murmur hash, with seed `0xbadd00d00`, except that eight-byte blocks
are loaded in the code's own way (`codeLoad`). -/
theorem c45_murmur (s : Bytes) (h : ¬ ValidNameText s) : hashName s = murmurHash codeLoad 0xbadd00d00 s := by
  unfold hashName
  cases hs : stringToNameStrict s with
  | ok v => exact absurd ((c05_strict_accepts_iff s).1 ⟨v, hs⟩) h
  | error e => simpa only using murmur64_toNat s


theorem hashRounds_short (load : Bytes → Nat) (h : Nat) (s : Bytes) (hs : s.length < 8) :
    hashRounds load h s = if s = [] then h else hashStep h (leVal s) := by
  rw [hashRounds, if_neg (by omega)]

/-- Shorter than eight bytes: the published hash, however blocks are loaded. -/
theorem c45_short (load : Bytes → Nat) (s : Bytes) (h : ¬ ValidNameText s) (hs : s.length < 8) :
    hashName s = murmurHash load 0xbadd00d00 s := by
  rw [c45_murmur s h]
  unfold murmurHash
  rw [hashRounds_short _ _ _ hs, hashRounds_short _ _ _ hs]

theorem hashMix_lt {v : Nat} (h : v < 2 ^ 64) : hashMix v < 2 ^ 64 :=
  Nat.xor_lt_two_pow h (by omega)

theorem hashMix_hashMix {v : Nat} (h : v < 2 ^ 64) : hashMix (hashMix v) = v := by
  unfold hashMix
  rw [← Nat.shiftRight_eq_div_pow, ← Nat.shiftRight_eq_div_pow]
  apply Nat.eq_of_testBit_eq
  intro i
  have : v.testBit (47 + (47 + i)) = false := Nat.testBit_lt_two_pow (Nat.lt_of_lt_of_le h (Nat.pow_le_pow_right (by decide) (by omega)))
  simp only [Nat.testBit_xor, Nat.testBit_shiftRight, this]
  simp

theorem hashMul_inj {a b : Nat} (ha : a < 2 ^ 64) (hb : b < 2 ^ 64) (h : a * hashMul % 2 ^ 64 = b * hashMul % 2 ^ 64) : a = b := by
  have e : ∀ x, x < 2 ^ 64 → x * hashMul % 2 ^ 64 * 6879827495036328381 % 2 ^ 64 = x := by
    intro x hx
    rw [Nat.mod_mul_mod, Nat.mul_assoc, Nat.mul_mod, show hashMul * 6879827495036328381 % 2 ^ 64 = 1 by decide +kernel, Nat.mul_one, Nat.mod_mod,
      Nat.mod_eq_of_lt hx]
  rw [← e a ha, h, e b hb]

/-- Two different texts of the same length, shorter than eight bytes, that are no names never get the same value. -/
theorem c45_short_injective (s t : Bytes) (hs : ¬ ValidNameText s) (ht : ¬ ValidNameText t) (hl : s.length = t.length)
    (h8 : s.length < 8) (h : hashName s = hashName t) : s = t := by
  rw [c45_short (fun _ => 0) s hs h8, c45_short (fun _ => 0) t ht (by omega)] at h
  unfold murmurHash at h
  rw [hashRounds_short _ _ _ h8, hashRounds_short _ _ _ (by omega : t.length < 8), ← hl] at h
  by_cases h0 : s = []
  · subst h0
    simp at hl
    exact (List.length_eq_zero_iff.1 hl.symm).symm
  have h0' : t ≠ [] := by
    rintro rfl
    exact h0 (List.length_eq_zero_iff.1 hl)
  simp only [if_neg h0, if_neg h0'] at h
  have step_lt : ∀ a b, hashStep a b < 2 ^ 64 := fun a b => Nat.mod_lt _ (by decide)
  have mul_lt : ∀ a, a * hashMul % 2 ^ 64 < 2 ^ 64 := fun a => Nat.mod_lt _ (by decide)
  have h := congrArg hashMix h
  rw [hashMix_hashMix (mul_lt _), hashMix_hashMix (mul_lt _)] at h
  have h := hashMul_inj (hashMix_lt (step_lt _ _)) (hashMix_lt (step_lt _ _)) h
  have h := congrArg hashMix h
  rw [hashMix_hashMix (step_lt _ _), hashMix_hashMix (step_lt _ _)] at h
  have lt : ∀ u : Bytes, u.length < 8 → leVal u < 2 ^ 64 := by
    intro u hu
    refine Nat.lt_of_lt_of_le (leVal_lt64 u) ?_
    calc 256 ^ u.length ≤ 256 ^ 8 := Nat.pow_le_pow_right (by decide) (by omega)
      _ = 2 ^ 64 := by decide
  have hb : (0xbadd00d00 ^^^ (s.length * hashMul % 2 ^ 64)) < 2 ^ 64 := Nat.xor_lt_two_pow (by decide) (mul_lt _)
  have h := hashMul_inj (Nat.xor_lt_two_pow hb (lt s h8)) (Nat.xor_lt_two_pow hb (lt t (by omega))) h
  have h := congrArg ((0xbadd00d00 ^^^ (s.length * hashMul % 2 ^ 64)) ^^^ ·) h
  simp only [← Nat.xor_assoc, Nat.xor_self, Nat.zero_xor] at h
  exact leVal_inj s t hl h

/-- A finding: of each block of eight bytes the first counts for nothing, so texts of eight bytes and more that differ only
there get the same value. -/
theorem c45_first_byte_ignored (pre s post : Bytes) (c d : UInt8) (hp : pre.length % 8 = 0) (hs : s.length = 7)
    (h : ¬ ValidNameText (pre ++ c :: s ++ post)) (h' : ¬ ValidNameText (pre ++ d :: s ++ post)) :
    hashName (pre ++ c :: s ++ post) = hashName (pre ++ d :: s ++ post) := by
  have hload : ∀ c d : UInt8, codeLoad (c :: s) = codeLoad (d :: s) := by
    intro c d
    have z : ∀ x : Nat, x * 256 ^ 8 % 2 ^ 64 = 0 := by intro x; omega
    simp only [codeLoad, hs, z]
  have key : ∀ (n : Nat) (pre : Bytes), pre.length = 8 * n → ∀ x,
      hashRounds codeLoad x (pre ++ c :: s ++ post) = hashRounds codeLoad x (pre ++ d :: s ++ post) := by
    intro n
    induction n with
    | zero =>
      intro pre hp x
      obtain rfl : pre = [] := List.length_eq_zero_iff.1 (by omega)
      rw [hashRounds, if_pos (by simp; omega), hashRounds.eq_1 _ _ ([] ++ d :: s ++ post), if_pos (by simp; omega)]
      have e : ∀ c : UInt8, ([] ++ c :: s ++ post).take 8 = c :: s := by
        intro c; simp [hs]
      have e' : ∀ c : UInt8, ([] ++ c :: s ++ post).drop 8 = post := by
        intro c; simp [hs]
      rw [e, e, e', e', hload c d]
    | succ n ih =>
      intro pre hp x
      obtain ⟨a, b, rfl, ha⟩ : ∃ a b, pre = a ++ b ∧ a.length = 8 := ⟨pre.take 8, pre.drop 8, by simp, by simp; omega⟩
      rw [hashRounds, if_pos (by simp; omega), hashRounds.eq_1 _ _ (a ++ b ++ d :: s ++ post), if_pos (by simp; omega)]
      have e : ∀ c : UInt8, (a ++ b ++ c :: s ++ post).take 8 = a := by
        intro c; simp [ha]
      have e' : ∀ c : UInt8, (a ++ b ++ c :: s ++ post).drop 8 = b ++ c :: s ++ post := by
        intro c; simp [ha]
      rw [e, e, e', e']
      exact ih b (by simp at hp; omega) _
  rw [c45_murmur _ h, c45_murmur _ h']
  unfold murmurHash
  rw [show (pre ++ c :: s ++ post).length = (pre ++ d :: s ++ post).length by simp,
    key (pre.length / 8) pre (by omega)]

/-- In a block of ASCII characters, the other seven bytes count as a big-endian number. -/
theorem c45_ascii_block (c : UInt8) (s : Bytes) (hs : s.length = 7) (ha : ∀ x ∈ s, x.toNat < 128) :
    codeLoad (c :: s) = 256 * leVal s.reverse := by
  have h : ∀ s : Bytes, s.length ≤ 7 → (∀ x ∈ s, x.toNat < 128) → codeLoad s = 256 * leVal s.reverse := by
    intro s
    induction s with
    | nil => intros; rfl
    | cons x s ih =>
      intro hl hx
      have app : ∀ (a : Bytes) (x : UInt8), leVal (a ++ [x]) = leVal a + 256 ^ a.length * x.toNat := by
        intro a x
        induction a with
        | nil => simp [leVal]
        | cons y a ih => simp only [List.cons_append, leVal, ih, List.length_cons, Nat.pow_succ]; grind
      have hx0 := hx x (by simp)
      simp only [List.length_cons] at hl
      have hb : leVal s.reverse < 256 ^ s.length := by simpa using leVal_lt64 s.reverse
      have h64 : x.toNat * 256 ^ (s.length + 1) < 2 ^ 64 := by
        calc x.toNat * 256 ^ (s.length + 1) < 256 * 256 ^ (s.length + 1) := by
              have := Nat.pow_pos (n := s.length + 1) (show 0 < 256 by decide)
              exact Nat.mul_lt_mul_of_pos_right (by omega) this
          _ = 256 ^ (s.length + 2) := by rw [Nat.pow_succ 256 (s.length + 1), Nat.mul_comm]
          _ ≤ 256 ^ 8 := Nat.pow_le_pow_right (by decide) (by omega)
          _ = 2 ^ 64 := by decide
      simp only [codeLoad, if_pos hx0, Nat.mod_eq_of_lt h64, ih (by omega) (fun y hy => hx y (by simp [hy])), List.reverse_cons, app,
        List.length_reverse]
      have e : (256 : Nat) ^ (s.length + 1) = 2 ^ (8 * (s.length + 1)) := by
        rw [show (256 : Nat) = 2 ^ 8 by decide, ← Nat.pow_mul]
      rw [e, ← Nat.shiftLeft_eq, ← Nat.shiftLeft_add_eq_or_of_lt, Nat.shiftLeft_eq, ← e, Nat.pow_succ]
      · grind
      · rw [← e, Nat.pow_succ]; omega
  have e : codeLoad (c :: s) = codeLoad s := by
    have z : ∀ x : Nat, x * 256 ^ 8 % 2 ^ 64 = 0 := by intro x; omega
    simp only [codeLoad, hs, z, Nat.zero_or]
  rw [e, h s (by omega) ha]

/-- So the text of a `name` is always accepted by the conversion to binary. -/
theorem c45_never_rejected (F : Floats) (s : Bytes) : builtinToBin F .name (.str s) = .ok (leBytes 8 (hashName s)) := rfl

/-! Examples: `UPPER` and `LOWER` get different values, `Xaaaaaaa` and `Yaaaaaaa` do not. -/
theorem not_name {s : Bytes} (h : (stringToNameStrict s).isOk = false) : ¬ ValidNameText s := fun hv => by
  obtain ⟨v, hv⟩ := (c05_strict_accepts_iff _).2 hv
  simp [hv, Except.isOk, Except.toBool] at h

example : hashName (str "UPPER") ≠ hashName (str "LOWER") := fun h => by
  have := c45_short_injective _ _ (not_name (by decide +kernel)) (not_name (by decide +kernel)) (by decide) (by decide) h
  revert this; decide

example : hashName (str "Xaaaaaaa") = hashName (str "Yaaaaaaa") :=
  c45_first_byte_ignored [] (str "aaaaaaa") [] 88 89 (by decide) (by decide) (not_name (by decide +kernel)) (not_name (by decide +kernel))

end Abieos
