import Verif.Spec.TimeText
import Verif.Proofs.Calendar
import Verif.Proofs.Decimal
/-! # C10, C11, C12: calendar, time texts, block timestamps -/
namespace Abieos
open Spec

/-! ## C10 -/

/-- Converting a day number to a date and back is the identity, for every day number. -/
theorem c10_days_roundtrip (n : Int) : toDays (fromDays n) = n := toDays_fromDays n

/-- Converting a date of the Gregorian calendar to a day number and back is the identity. -/
theorem c10_date_roundtrip {x : Date} (hx : ValidDate x) : fromDays (toDays x) = x := fromDays_toDays hx

/-- Every day number gives a date of the calendar. -/
theorem c10_from_days_valid (n : Int) : ValidDate (fromDays n) := fromDays_valid n

/-- Day 0 is 1 January 1970. -/
theorem c10_epoch : fromDays 0 = ⟨1970, 1, 1⟩ := by decide +kernel

/-- The next day number is the next date of the calendar; also before 1970. -/
theorem c10_consecutive (n : Int) : fromDays (n + 1) = tomorrow (fromDays n) := by
  have h := toDays_tomorrow (fromDays_valid n)
  rw [toDays_fromDays] at h
  rw [← h, fromDays_toDays (tomorrow_valid (fromDays_valid n))]

/-- Day `n` is the date reached from 1 January 1970 by going `n` times to the next date. -/
theorem c10_from_days (n : Nat) : fromDays n = dayDate n := by
  induction n with
  | zero => exact c10_epoch
  | succ n ih => rw [dayDate, ← ih, ← c10_consecutive]; rfl

theorem c10_to_days (n : Nat) : toDays (dayDate n) = n := by rw [← c10_from_days, toDays_fromDays]

/-- Different dates have different day numbers and later dates larger ones is a consequence of the above; the leap-century
corners: -/
example : fromDays (toDays ⟨2000, 2, 28⟩ + 1) = ⟨2000, 2, 29⟩ ∧ fromDays (toDays ⟨1900, 2, 28⟩ + 1) = ⟨1900, 3, 1⟩ ∧
    ValidDate ⟨2000, 2, 29⟩ ∧ ¬ ValidDate ⟨1900, 2, 29⟩ ∧ toDays ⟨1969, 12, 31⟩ = -1 := by decide +kernel

/-! ## C11 -/

theorem digitOf_some {c : UInt8} {v : Nat} : digitOf c = some v ↔ IsDigit c ∧ v = digitVal c := by
  unfold digitOf
  rw [digitVal_eq, ← isDigit_iff]
  split <;> simp_all [eq_comm]

theorem digitOf_none {c : UInt8} : digitOf c = none ↔ ¬ IsDigit c := by
  unfold digitOf
  rw [← isDigit_iff]
  split <;> simp_all

theorem parseUint_iff {k acc v : Nat} {s r : Bytes} : parseUint acc k s = some (v, r) ↔
    ∃ w, s = w ++ r ∧ w.length = k ∧ (∀ c ∈ w, IsDigit c) ∧ decFrom acc w = v := by
  induction k generalizing acc s with
  | zero =>
    simp only [parseUint, Option.some.injEq, Prod.mk.injEq]
    constructor
    · rintro ⟨rfl, rfl⟩; exact ⟨[], rfl, rfl, by simp, rfl⟩
    · rintro ⟨w, rfl, hw, -, rfl⟩
      have : w = [] := by simpa using hw
      subst this; exact ⟨rfl, rfl⟩
  | succ k ih =>
    cases s with
    | nil =>
      simp only [parseUint, reduceCtorEq, false_iff]
      rintro ⟨w, hw, hl, -⟩
      have := congrArg List.length hw
      simp at this; omega
    | cons c s =>
      simp only [parseUint]
      cases hc : digitOf c with
      | none =>
        simp only [reduceCtorEq, false_iff]
        rintro ⟨w, hw, hl, hd, -⟩
        cases w with
        | nil => simp at hl
        | cons x w =>
          simp only [List.cons_append, List.cons.injEq] at hw
          exact digitOf_none.1 hc (hw.1 ▸ hd x (by simp))
      | some d =>
        obtain ⟨h1, rfl⟩ := digitOf_some.1 hc
        simp only
        rw [ih]
        constructor
        · rintro ⟨w, rfl, hl, hd, hv⟩
          refine ⟨c :: w, rfl, by simp [hl], ?_, by rw [decFrom]; exact hv⟩
          simp only [List.mem_cons]
          rintro a (rfl | ha)
          · exact h1
          · exact hd a ha
        · rintro ⟨w, hw, hl, hd, hv⟩
          cases w with
          | nil => simp at hl
          | cons x w =>
            simp only [List.cons_append, List.cons.injEq] at hw
            obtain ⟨rfl, rfl⟩ := hw
            exact ⟨w, rfl, by simpa using hl, fun a ha => hd a (by simp [ha]), by rw [decFrom] at hv; exact hv⟩

theorem parseUint_padded {k v : Nat} {w r : Bytes} (h : Padded k v w) : parseUint 0 k (w ++ r) = some (v, r) :=
  parseUint_iff.2 ⟨w, rfl, h.1, h.2.1, h.2.2⟩

theorem parseChar_iff {c : UInt8} {s r : Bytes} : parseChar c s = some r ↔ s = c :: r := by
  cases s with
  | nil => simp [parseChar]
  | cons x s =>
    simp only [parseChar]
    split <;> simp_all

/-- the date and time of day that is read, exactly -/
theorem parseDateTime_iff {s r : Bytes} {y m d h mi sec : Nat} :
    parseDateTime s = some ((y, m, d), (h, mi, sec), r) ↔ ∃ w, DateTimeText y m d h mi sec w ∧ s = w ++ r := by
  constructor
  · intro hs
    simp only [parseDateTime, Option.bind_eq_bind, Option.bind_eq_some_iff, Prod.exists, Option.some.injEq, Prod.mk.injEq] at hs
    obtain ⟨a1, s1, p1, s2, q1, a2, s3, p2, s4, q2, a3, s5, p3, s6, q3, a4, s7, p4, s8, q4, a5, s9, p5, s10, q5, a6, s11, p6,
      ⟨e1, e2, e3⟩, ⟨e4, e5, e6⟩, e7⟩ := hs
    subst e1 e2 e3 e4 e5 e6 e7
    simp only [parseChar_iff] at q1 q2 q3 q4 q5
    subst q1 q2 q3 q4 q5
    obtain ⟨w1, rfl, l1, d1, v1⟩ := parseUint_iff.1 p1
    obtain ⟨w2, rfl, l2, d2, v2⟩ := parseUint_iff.1 p2
    obtain ⟨w3, rfl, l3, d3, v3⟩ := parseUint_iff.1 p3
    obtain ⟨w4, rfl, l4, d4, v4⟩ := parseUint_iff.1 p4
    obtain ⟨w5, rfl, l5, d5, v5⟩ := parseUint_iff.1 p5
    obtain ⟨w6, rfl, l6, d6, v6⟩ := parseUint_iff.1 p6
    exact ⟨_, ⟨w1, w2, w3, w4, w5, w6, ⟨l1, d1, v1⟩, ⟨l2, d2, v2⟩, ⟨l3, d3, v3⟩, ⟨l4, d4, v4⟩, ⟨l5, d5, v5⟩, ⟨l6, d6, v6⟩, rfl⟩,
      by simp⟩
  · rintro ⟨w, ⟨w1, w2, w3, w4, w5, w6, h1, h2, h3, h4, h5, h6, rfl⟩, rfl⟩
    simp only [List.append_assoc, List.cons_append, List.nil_append, parseDateTime, Option.bind_eq_bind]
    simp [parseUint_padded h1, parseUint_padded h2, parseUint_padded h3, parseUint_padded h4, parseUint_padded h5,
      parseUint_padded h6, parseChar]

theorem skipDigits_digits {w r : Bytes} (h : ∀ c ∈ w, IsDigit c) : skipDigits (w ++ r) = skipDigits r := by
  induction w with
  | nil => rfl
  | cons c w ih =>
    have hc := h c (by simp)
    rw [List.cons_append, skipDigits]
    rw [digitOf_some.2 ⟨hc, rfl⟩]
    exact ih fun a ha => h a (by simp [ha])

theorem skipDigits_nil_iff {s : Bytes} : skipDigits s = [] ↔ ∀ c ∈ s, IsDigit c := by
  induction s with
  | nil => simp [skipDigits]
  | cons c s ih =>
    rw [skipDigits]
    cases hc : digitOf c with
    | none =>
      have := digitOf_none.1 hc
      simp [this]
    | some v =>
      have := (digitOf_some.1 hc).1
      simp [ih, this]

theorem dayDate_range {n : Nat} (h : n < 49711) : ∃ y : Nat, (dayDate n).y = y ∧ y < 10000 := by
  rw [← c10_from_days]
  obtain ⟨doe, yoe, doy, mp, h1, h2, h3, h4, h5, h6⟩ := fromDays_eq n
  obtain ⟨g1, -⟩ := yoeOf_spec h1
  rw [← h3] at g1
  rw [h6]
  generalize hera : ((n : Int) + 719468) / 146097 = era at *
  have he : 4 ≤ era ∧ era ≤ 5 := by omega
  simp only
  have hb : ∀ p : Prop, [Decidable p] → ∃ k : Nat, k ≤ 1 ∧ (if p then (1 : Int) else 0) = k := by
    intro p _
    split
    · exact ⟨1, by simp⟩
    · exact ⟨0, by simp⟩
  obtain ⟨k, hk, he'⟩ := hb ((if mp < 10 then mp + 3 else mp - 9) ≤ 2)
  rw [he']
  exact ⟨(yoe + era * 400 + k).toNat, by omega, by omega⟩

theorem dateSeconds_dayDate {n y : Nat} (hy : (dayDate n).y = y) (h mi s : Nat) :
    dateSeconds y (dayDate n).m (dayDate n).d h mi s = instant n h mi s := by
  unfold dateSeconds instant
  rw [← hy, show toDays ⟨(dayDate n).y, (dayDate n).m, (dayDate n).d⟩ = toDays (dayDate n) from rfl, c10_to_days]
  push_cast
  ring

/-- A text `YYYY-MM-DDThh:mm:ss`, optionally with a decimal point and any digits after it, of a date of the calendar from
1970 on, is read as the number of seconds from the start of 1970, if that number fits 32 bits. -/
theorem c11_parse_seconds {n y h mi s : Nat} {w f : Bytes} (hy : (dayDate n).y = y)
    (hw : DateTimeText y (dayDate n).m (dayDate n).d h mi s w) (hf : f = [] ∨ ∃ g, f = 46 :: g ∧ ∀ c ∈ g, IsDigit c)
    (hr : instant n h mi s < 2 ^ 32) : timePointSecFromText (w ++ f) = some (instant n h mi s) := by
  have hp := parseDateTime_iff.2 ⟨w, hw, (rfl : w ++ f = w ++ f)⟩
  unfold timePointSecFromText stringToUtcSeconds
  simp only [hp, Option.bind_eq_bind, Option.bind_some, dateSeconds_dayDate hy, if_true]
  have hm : ((instant n h mi s : Int) % 4294967296).toNat = instant n h mi s := by omega
  rw [hm]
  rcases hf with rfl | ⟨g, rfl, hg⟩
  · simp
  · simp [skipDigits_nil_iff.2 hg]

/-- Only such texts are accepted. (The numbers are not checked to be a date of the calendar or a time of day: see
`dateSeconds`.) -/
theorem c11_parse_seconds_shape {t : Bytes} {r : Nat} (h : timePointSecFromText t = some r) :
    r < 2 ^ 32 ∧ ∃ y m d h mi s w f, DateTimeText y m d h mi s w ∧ (f = [] ∨ ∃ g, f = 46 :: g ∧ ∀ c ∈ g, IsDigit c) ∧ t = w ++ f := by
  unfold timePointSecFromText stringToUtcSeconds at h
  simp only [Option.bind_eq_bind, Option.map_eq_some_iff, Option.bind_eq_some_iff, Prod.exists, if_true] at h
  obtain ⟨r', x, ⟨y, m, d, hh, mi, s, rest, hp, hrest⟩, rfl⟩ := h
  obtain ⟨w, hw, rfl⟩ := parseDateTime_iff.1 hp
  simp only [Bool.not_true, Bool.false_eq_true, or_false] at hrest
  split at hrest
  · rename_i g
    by_cases hg : skipDigits g = []
    · rw [if_pos hg] at hrest
      simp only [Option.some.injEq, Prod.mk.injEq] at hrest
      exact ⟨by omega, y, m, d, hh, mi, s, w, _, hw, .inr ⟨g, rfl, skipDigits_nil_iff.1 hg⟩, rfl⟩
    · rw [if_neg hg] at hrest; simp at hrest
  · by_cases hg : rest = []
    · rw [if_pos hg] at hrest
      simp only [Option.some.injEq, Prod.mk.injEq] at hrest
      exact ⟨by omega, y, m, d, hh, mi, s, w, _, hw, .inl hg, rfl⟩
    · rw [if_neg hg] at hrest; simp at hrest

theorem parseFraction_digits {g : Bytes} {acc sc fuel : Nat} {k : Nat} (hg : ∀ c ∈ g, IsDigit c) (hl : g.length ≤ k)
    (hsc : sc = 10 ^ k / 10) (hk : k < fuel) : parseFraction acc sc fuel g = (acc + decVal g * 10 ^ (k - g.length), []) := by
  induction g generalizing acc sc fuel k with
  | nil =>
    cases fuel with
    | zero => omega
    | succ fuel => simp [parseFraction, decVal, decFrom]
  | cons c g ih =>
    cases fuel with
    | zero => omega
    | succ fuel =>
      cases k with
      | zero => simp at hl
      | succ k =>
        have hsc' : sc = 10 ^ k := by rw [hsc, Nat.pow_succ]; simp
        have : 1 ≤ sc := by rw [hsc']; exact Nat.one_le_pow _ _ (by decide)
        rw [parseFraction, if_pos this, digitOf_some.2 ⟨hg c (by simp), rfl⟩]
        simp only
        rw [ih (k := k) (fun a ha => hg a (by simp [ha])) (by simpa using hl) (by rw [hsc']) (by omega)]
        congr 1
        have : decVal (c :: g) = digitVal c * 10 ^ g.length + decVal g := by
          rw [decVal, decFrom, decFrom_eq]; simp
        rw [this, hsc', List.length_cons, show k + 1 - (g.length + 1) = k - g.length by omega, Nat.add_mul, Nat.mul_assoc,
          ← Nat.pow_add, show g.length + (k - g.length) = k by simp at hl; omega]
        omega

/-- With at most six digits after the decimal point, `time_point` reads the exact number of microseconds. -/
theorem c11_parse_microseconds {n y h mi s : Nat} {w g : Bytes} (hy : (dayDate n).y = y)
    (hw : DateTimeText y (dayDate n).m (dayDate n).d h mi s w) (hg : ∀ c ∈ g, IsDigit c) (hl : g.length ≤ 6)
    (hr : instant n h mi s < 2 ^ 32) :
    stringToUtcMicroseconds (w ++ 46 :: g) = some (instant n h mi s * 1000000 + decVal g * 10 ^ (6 - g.length)) ∧
    stringToUtcMicroseconds w = some (instant n h mi s * 1000000) := by
  have hm : ((instant n h mi s : Int) % 4294967296).toNat = instant n h mi s := by omega
  constructor
  · have hp := parseDateTime_iff.2 ⟨w, hw, (rfl : w ++ 46 :: g = w ++ 46 :: g)⟩
    unfold stringToUtcMicroseconds stringToUtcSeconds
    simp only [hp, Option.bind_eq_bind, Option.bind_some, dateSeconds_dayDate hy, hm, Bool.false_eq_true, if_false, Bool.not_false,
      or_true, if_true, ne_eq, not_true_eq_false]
    rw [parseFraction_digits (k := 6) hg hl (by decide) (by decide)]
    simp
  · have hp := parseDateTime_iff.2 ⟨w, hw, (List.append_nil w).symm⟩
    unfold stringToUtcMicroseconds stringToUtcSeconds
    simp only [hp, Option.bind_eq_bind, Option.bind_some, dateSeconds_dayDate hy, hm, Bool.false_eq_true, if_false, Bool.not_false,
      or_true, if_true]

theorem appendUint_padded (v k : Nat) : Padded k (v % 10 ^ k) (appendUint v k) := by
  induction k generalizing v with
  | zero => exact ⟨rfl, by simp [appendUint], by simp [appendUint, decVal, decFrom, Nat.mod_one]⟩
  | succ k ih =>
    obtain ⟨h1, h2, h3⟩ := ih (v / 10)
    refine ⟨by simp [appendUint, h1], ?_, ?_⟩
    · simp only [appendUint, List.mem_append, List.mem_singleton]
      rintro c (hc | rfl)
      · exact h2 c hc
      · exact digit_isDigit (Nat.mod_lt _ (by decide))
    · rw [appendUint, decVal_snoc, h3, digitChar, digit_toNat (Nat.mod_lt _ (by decide)), Nat.pow_succ, Nat.mul_comm (10 ^ k) 10,
        Nat.mod_mul]
      omega

/-- The text of an instant: the date of the calendar, the time of day and the milliseconds. Every instant from 1970 that
fits 32 bits of seconds. -/
theorem c11_print {us : Nat} (h : us < 2 ^ 32 * 1000000) :
    ∃ n y hour min sec ms w f, (dayDate n).y = (y : Nat) ∧ DateTimeText y (dayDate n).m (dayDate n).d hour min sec w ∧ Padded 3 ms f ∧
      hour < 24 ∧ min < 60 ∧ sec < 60 ∧ (instant n hour min sec * 1000 + ms) = us / 1000 ∧
      microsecondsToStr us = w ++ 46 :: f := by
  obtain ⟨n, hn⟩ : ∃ n, n = us / 86400000000 := ⟨_, rfl⟩
  obtain ⟨t, ht⟩ : ∃ t, t = us / 1000 - n * 86400000 := ⟨_, rfl⟩
  obtain ⟨y, hy, hy'⟩ := dayDate_range (n := n) (by omega)
  have ht' : t < 86400000 := by omega
  have hv := fromDays_valid n
  rw [c10_from_days] at hv
  have hml : ∀ a b, monthLength a b ≤ 31 := by intro a b; unfold monthLength; split <;> split <;> omega
  have hms : (((us : Int) / 1000 - (us : Int) / 86400000000 * 86400000).toNat) = t := by omega
  have hsd : ((us : Int) / 86400000000) = (n : Int) := by omega
  have hd2 := hml (dayDate n).y (dayDate n).m
  refine ⟨n, y, t / 3600000, t / 60000 % 60, t / 1000 % 60, t % 1000, _, _, hy, ⟨appendUint y 4, appendUint (dayDate n).m 2,
    appendUint (dayDate n).d 2, appendUint (t / 3600000 % 60) 2, appendUint (t / 60000 % 60) 2, appendUint (t / 1000 % 60) 2,
    ?_, ?_, ?_, ?_, ?_, ?_, rfl⟩, (?_ : Padded 3 (t % 1000) (appendUint (t % 1000) 3)), by omega, by omega, by omega, ?_, ?_⟩
  · have := appendUint_padded y 4; rwa [Nat.mod_eq_of_lt (by omega)] at this
  · have := appendUint_padded (dayDate n).m 2; rwa [Nat.mod_eq_of_lt (by have := hv.2.1; omega)] at this
  · have := appendUint_padded (dayDate n).d 2; rwa [Nat.mod_eq_of_lt (by have := hv.2.2.2; omega)] at this
  · have := appendUint_padded (t / 3600000 % 60) 2
    rw [Nat.mod_eq_of_lt (a := t / 3600000 % 60) (by omega)] at this
    rwa [show t / 3600000 % 60 = t / 3600000 by omega] at this ⊢
  · have := appendUint_padded (t / 60000 % 60) 2; rwa [Nat.mod_eq_of_lt (a := t / 60000 % 60) (by omega)] at this
  · have := appendUint_padded (t / 1000 % 60) 2; rwa [Nat.mod_eq_of_lt (a := t / 1000 % 60) (by omega)] at this
  · have := appendUint_padded (t % 1000) 3; rwa [Nat.mod_eq_of_lt (a := t % 1000) (by omega)] at this
  · unfold instant; omega
  · unfold microsecondsToStr
    simp only [hsd] at hms
    simp only [hsd, hms, c10_from_days, hy]
    rw [show ((y : Int) % 4294967296).toNat = y by omega]
    simp

/-- Printing a `time_point` and reading the text gives the instant back, to the millisecond. -/
theorem c11_time_point_roundtrip {us : Nat} (h : us < 2 ^ 32 * 1000000) :
    stringToUtcMicroseconds (microsecondsToStr us) = some (us / 1000 * 1000) := by
  obtain ⟨n, y, hour, min, sec, ms, w, f, hy, hw, hf, h1, h2, h3, h4, h5⟩ := c11_print h
  have hms : ms < 1000 := by have := decVal_lt f hf.2.1; rw [hf.2.2, hf.1] at this; omega
  have hu := (c11_parse_microseconds (n := n) hy hw hf.2.1 (by rw [hf.1]; decide) (by omega)).1
  rw [h5, hu, hf.2.2, hf.1, ← h4]
  have ha : ∀ i : Nat, i * 1000000 + ms * 10 ^ (6 - 3) = (i * 1000 + ms) * 1000 := by intro i; ring
  rw [ha]

/-- Printing a `time_point_sec` and reading the text gives it back: all 2^32 values. -/
theorem c11_time_point_sec_roundtrip {s : Nat} (h : s < 2 ^ 32) : timePointSecFromText (timePointSecToText s) = some s := by
  unfold timePointSecToText
  obtain ⟨n, y, hour, min, sec, ms, w, f, hy, hw, hf, h1, h2, h3, h4, h5⟩ := c11_print (us := s * 1000000) (by omega)
  have hms : ms < 1000 := by have := decVal_lt f hf.2.1; rw [hf.2.2, hf.1] at this; omega
  rw [show (s : Int) * 1000000 = ((s * 1000000 : Nat) : Int) by push_cast; rfl, h5,
    c11_parse_seconds hy hw (.inr ⟨f, rfl, hf.2.1⟩) (by omega)]
  congr 1
  omega

theorem timeToSlot_eq {us : Int} (h : 946684800000000 ≤ us) :
    timeToSlot us = ((us / 1000 - 946684800000) / 500 % 4294967296).toNat := by
  unfold timeToSlot toU32
  have h1 : us.tdiv 1000 = us / 1000 := Int.tdiv_eq_ediv_of_nonneg (by omega)
  rw [h1, Int.tdiv_eq_ediv_of_nonneg (by omega)]

/-- Printing a `block_timestamp` and reading the text gives it back: all 2^32 slots. -/
theorem c11_block_timestamp_roundtrip {slot : Nat} (h : slot < 2 ^ 32) : slotFromText (slotToText slot) = some slot := by
  unfold slotToText slotFromText slotToTime
  rw [show ((slot : Int) * 500 + 946684800000) * 1000 = (((slot * 500 + 946684800000) * 1000 : Nat) : Int) by push_cast; rfl,
    c11_time_point_roundtrip (by omega)]
  rw [Option.map_some, timeToSlot_eq (by omega)]
  exact congrArg some (by omega)

/-- The product of the day number and 86400 is computed in a 32-bit signed `int` (chain_conversions.hpp:302). For dates
from 1970 it stays in range up to 2038-01-19 and overflows, which is undefined behaviour in C++, from 2038-01-20 on: there
the results above rest on the two's complement wrap-around. -/
theorem c11_day_product_in_range (n : Nat) : toDays (dayDate n) * 86400 ≤ 2 ^ 31 - 1 ↔ n ≤ 24855 := by
  rw [c10_to_days]; omega

example : fromDays 24855 = ⟨2038, 1, 19⟩ := by decide +kernel
example : timePointSecFromText (str "2018-06-15T19:17:47.1234567") = some 1529090267 := by decide +kernel
example : stringToUtcMicroseconds (str "2018-06-15T19:17:47.999999") = some 1529090267999999 := by decide +kernel
example : microsecondsToStr 1529090267999999 = str "2018-06-15T19:17:47.999" := by decide +kernel
example : slotToText 4294967295 = str "2068-01-19T03:14:07.500" := by decide +kernel

/-! ## C12 -/

/-- A slot, its instant, and the slot of that instant. -/
theorem c12_slot_roundtrip {slot : Nat} (h : slot < 2 ^ 32) : timeToSlot (slotToTime slot) = slot := by
  unfold slotToTime
  rw [timeToSlot_eq (by omega)]
  omega

/-- Slots start 2000-01-01T00:00:00 and last half a second. -/
theorem c12_slot_time (slot : Nat) : slotToTime slot = (instant (10957) 0 0 0 * 1000000 + slot * 500000 : Nat) ∧
    dayDate 10957 = ⟨2000, 1, 1⟩ := by
  refine ⟨?_, ?_⟩
  · unfold slotToTime instant; push_cast; ring
  · rw [← c10_from_days]; decide +kernel

/-- Going through whole seconds rounds down to an even slot. -/
theorem c12_slot_seconds {slot : Nat} (h : slot < 2 ^ 32) : secToSlot (timeToSec (slotToTime slot)) = slot / 2 * 2 := by
  unfold secToSlot timeToSec slotToTime toU32
  have h1 : (((slot : Int) * 500 + 946684800000) * 1000).tdiv 1000000 = ((slot : Int) * 500 + 946684800000) * 1000 / 1000000 :=
    Int.tdiv_eq_ediv_of_nonneg (by omega)
  rw [h1, Int.tdiv_eq_ediv_of_nonneg (by omega)]
  omega

/-- From the first slot to the last, the slot of an instant starts at or before the instant, less than one slot earlier. -/
theorem c12_time_to_slot {us : Int} (h0 : slotToTime 0 ≤ us) (h1 : us < slotToTime (2 ^ 32)) :
    timeToSlot us < 2 ^ 32 ∧ slotToTime (timeToSlot us) ≤ us ∧ us < slotToTime (timeToSlot us) + 500000 := by
  unfold slotToTime at *
  rw [timeToSlot_eq (by omega)]
  omega

/-- Later instants have later or equal slots. -/
theorem c12_monotone {a b : Int} (h0 : slotToTime 0 ≤ a) (hab : a ≤ b) (h1 : b < slotToTime (2 ^ 32)) :
    timeToSlot a ≤ timeToSlot b := by
  unfold slotToTime at *
  rw [timeToSlot_eq (by omega), timeToSlot_eq (by omega)]
  omega

/-- `next` gives the slot that starts half a second later, and fails exactly for the last slot. -/
theorem c12_next {slot : Nat} (h : slot < 2 ^ 32) :
    (∀ s, nextSlot slot = .ok s → s < 2 ^ 32 ∧ slotToTime s = slotToTime slot + 500000) ∧
    ((∃ s, nextSlot slot = .ok s) ↔ slot ≠ 2 ^ 32 - 1) := by
  unfold nextSlot slotToTime
  constructor
  · intro s hs
    split at hs
    · injection hs with hs; omega
    · simp at hs
  · split
    · simp; omega
    · simp; omega

/-- Before the year 2000 the conversion wraps around, and truncates toward zero: the slot before the first one. -/
example : timeToSlot (slotToTime 0 - 500000) = 4294967295 ∧ timeToSlot (slotToTime 0 - 1) = 0 := by decide +kernel

end Abieos
