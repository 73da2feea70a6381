import Verif.Props.Time
/-
C11 and C52: exactly which texts are times, and which.
-/
namespace Abieos
open Spec

theorem dayNumber_iff {x : Date} {n : Int} : DayNumber x n ↔ ValidDate x ∧ toDays x = n := by
  constructor
  · intro h
    induction h with
    | epoch => exact ⟨by decide, by decide⟩
    | after _ ih => exact ⟨tomorrow_valid ih.1, by rw [toDays_tomorrow ih.1, ih.2]⟩
    | before hv _ ih => exact ⟨hv, by have := toDays_tomorrow hv; omega⟩
  · rintro ⟨hv, rfl⟩
    have key : ∀ n : Int, DayNumber (fromDays n) n := by
      intro n
      induction n with
      | zero => rw [c10_epoch]; exact .epoch
      | succ n ih => rw [c10_consecutive]; exact .after ih
      | pred n ih =>
        refine .before (fromDays_valid _) ?_
        rw [← c10_consecutive, show -(n : Int) - 1 + 1 = -n by omega]
        exact ih
    have := key (toDays x)
    rwa [fromDays_toDays hv] at this

theorem monthStart_iff {y : Int} {m : Nat} {n : Int} : MonthStart y m n ↔ toDays ⟨y, m, 1⟩ = n := by
  have hv : ∀ (y : Int) (m : Nat), 1 ≤ m → m ≤ 12 → ValidDate ⟨y, m, 1⟩ := by
    intro y m h1 h2
    refine ⟨h1, h2, Nat.le_refl 1, ?_⟩
    simp only [monthLength]
    split
    · split <;> decide
    · split <;> decide
  have hz : toDays ⟨y, 0, 1⟩ = toDays ⟨y - 1, 12, 1⟩ := by
    rw [toDays_eq, toDays_eq]; simp [monthStart]
  have hb : 12 < m → toDays ⟨y, m, 1⟩ = toDays ⟨y, 3, 1⟩ + (153 * (m - 3) + 2) / 5 := by
    intro h
    rw [toDays_eq, toDays_eq]
    have h1 : ¬ m ≤ 2 := by omega
    have h2 : m > 2 := by omega
    simp [monthStart, h1, h2]
    omega
  constructor
  · intro h
    cases h with
    | month h1 h2 h3 => exact (dayNumber_iff.1 h3).2
    | zero h => rw [hz]; exact (dayNumber_iff.1 h).2
    | beyond h1 h2 => rw [hb h1, (dayNumber_iff.1 h2).2]
  · rintro rfl
    by_cases h : m ≤ 12
    · by_cases h0 : m = 0
      · subst h0; rw [hz]; exact .zero (dayNumber_iff.2 ⟨hv _ 12 (by omega) (by omega), rfl⟩)
      · exact .month (by omega) h (dayNumber_iff.2 ⟨hv _ m (by omega) h, rfl⟩)
    · rw [hb (by omega)]; exact .beyond (by omega) (dayNumber_iff.2 ⟨hv _ 3 (by omega) (by omega), rfl⟩)

theorem secondsText_iff {w : Bytes} {t : Int} : SecondsText w t ↔ ∃ y m d hour min sec, DateTimeText y m d hour min sec w ∧ t = dateSeconds y m d hour min sec := by
  have key : ∀ (y m d : Nat) (n : Int), toDays ⟨y, m, 1⟩ = n → toDays ⟨y, m, d⟩ = n + d - 1 := by
    intro y m d n h
    rw [toDays_eq] at h ⊢
    simp only at h ⊢
    omega
  constructor
  · rintro ⟨y, m, d, hour, min, sec, n, h1, h2, h3⟩
    refine ⟨y, m, d, hour, min, sec, h1, ?_⟩
    rw [h3, dateSeconds, key y m d n (monthStart_iff.1 h2)]
    ring
  · rintro ⟨y, m, d, hour, min, sec, h1, h2⟩
    refine ⟨y, m, d, hour, min, sec, _, h1, monthStart_iff.2 rfl, ?_⟩
    rw [h2, dateSeconds, key y m d _ rfl]
    ring

/-- **C11**: exactly which texts are times in seconds, and which time they say (modulo 2^32). -/
theorem c11_seconds_iff {s : Bytes} {r : Nat} : timePointSecFromText s = some r ↔ ∃ t g, TimeText none s t g ∧ r = (t % 2 ^ 32).toNat := by
  unfold timePointSecFromText stringToUtcSeconds
  simp only [Option.bind_eq_bind, Option.map_eq_some_iff, Option.bind_eq_some_iff, Prod.exists, if_true]
  constructor
  · rintro ⟨r', x, ⟨y, m, d, hh, mi, sec, rest, hp, hrest⟩, rfl⟩
    obtain ⟨w, hw, rfl⟩ := parseDateTime_iff.1 hp
    simp only [Bool.not_true, Bool.false_eq_true, or_false] at hrest
    split at hrest
    · rename_i g
      split at hrest
      · rename_i hg
        cases hrest
        exact ⟨_, g, ⟨w, secondsText_iff.2 ⟨y, m, d, hh, mi, sec, hw, rfl⟩, skipDigits_nil_iff.1 hg, by simp, .inr rfl⟩, rfl⟩
      · cases hrest
    · split at hrest
      · rename_i hg
        cases hrest
        subst hg
        exact ⟨_, [], ⟨w, secondsText_iff.2 ⟨y, m, d, hh, mi, sec, hw, rfl⟩, by simp, by simp, .inl ⟨rfl, by simp⟩⟩, rfl⟩
      · cases hrest
  · rintro ⟨t, g, ⟨w, ht, hg, -, h⟩, rfl⟩
    obtain ⟨y, m, d, hh, mi, sec, hw, rfl⟩ := secondsText_iff.1 ht
    rcases h with ⟨rfl, rfl⟩ | rfl
    · refine ⟨_, [], ⟨y, m, d, hh, mi, sec, [], parseDateTime_iff.2 ⟨s, hw, by simp⟩, ?_⟩, rfl⟩
      simp
    · refine ⟨_, [], ⟨y, m, d, hh, mi, sec, 46 :: g, parseDateTime_iff.2 ⟨w, hw, rfl⟩, ?_⟩, rfl⟩
      simp [skipDigits_nil_iff.2 hg]

theorem parseFraction_inv {g : Bytes} {acc sc fuel k r : Nat} (hsc : sc = 10 ^ k / 10) (hk : k < fuel) (h : parseFraction acc sc fuel g = (r, [])) :
    (∀ c ∈ g, IsDigit c) ∧ g.length ≤ k := by
  induction g generalizing acc sc fuel k with
  | nil => simp
  | cons c g ih =>
    cases fuel with
    | zero => omega
    | succ fuel =>
      simp only [parseFraction] at h
      split at h
      · rename_i hs
        have hk0 : k ≠ 0 := by rintro rfl; simp at hsc; omega
        split at h
        · rename_i v hv
          obtain ⟨j, rfl⟩ : ∃ j, k = j + 1 := ⟨k - 1, by omega⟩
          have := ih (k := j) (by rw [hsc, pow_succ]; simp) (by omega) h
          refine ⟨?_, by simp; omega⟩
          simp only [List.mem_cons]
          rintro a (rfl | ha)
          · exact (digitOf_some.1 hv).1
          · exact this.1 a ha
        · cases h
      · cases h

/-- **C11**: exactly which texts are times in microseconds, and which time they say (the seconds modulo 2^32). -/
theorem c11_microseconds_iff {s : Bytes} {r : Nat} : stringToUtcMicroseconds s = some r ↔
    ∃ t g, TimeText (some 6) s t g ∧ r = (t % 2 ^ 32).toNat * 1000000 + decVal g * 10 ^ (6 - g.length) := by
  unfold stringToUtcMicroseconds stringToUtcSeconds
  simp only [Option.bind_eq_bind, Option.bind_eq_some_iff, Prod.exists, Bool.false_eq_true, if_false, Bool.not_false, or_true, if_true,
    Option.some.injEq, Prod.mk.injEq]
  constructor
  · rintro ⟨r', x, ⟨y, m, d, hh, mi, sec, rest, hp, rfl, rfl⟩, h⟩
    obtain ⟨w, hw, rfl⟩ := parseDateTime_iff.1 hp
    have hw := secondsText_iff.2 ⟨y, m, d, hh, mi, sec, hw, rfl⟩
    split at h
    · cases h
      exact ⟨_, [], ⟨w, hw, by simp, by simp, .inl ⟨rfl, by simp⟩⟩, by simp [decVal, decFrom]⟩
    · rename_i c g
      split at h
      · cases h
      · rename_i hc
        simp only [ne_eq, Decidable.not_not] at hc
        subst hc
        split at h
        · rename_i hg
          obtain ⟨h1, h2⟩ := parseFraction_inv (k := 6) (by norm_num) (by norm_num) (Prod.ext rfl hg)
          rw [parseFraction_digits h1 h2 (by norm_num) (by norm_num)] at h
          cases h
          exact ⟨_, g, ⟨w, hw, h1, by simp; omega, .inr rfl⟩, by norm_num⟩
        · cases h
  · rintro ⟨t, g, ⟨w, ht, hg, hl, h⟩, rfl⟩
    obtain ⟨y, m, d, hh, mi, sec, hw, rfl⟩ := secondsText_iff.1 ht
    rcases h with ⟨rfl, rfl⟩ | rfl
    · exact ⟨_, [], ⟨y, m, d, hh, mi, sec, [], parseDateTime_iff.2 ⟨s, hw, by simp⟩, rfl, rfl⟩, by simp [decVal, decFrom]⟩
    · refine ⟨_, 46 :: g, ⟨y, m, d, hh, mi, sec, 46 :: g, parseDateTime_iff.2 ⟨w, hw, rfl⟩, rfl, rfl⟩, ?_⟩
      simp [parseFraction_digits (k := 6) (sc := 100000) (fuel := 7) hg (hl 6 rfl) (by norm_num) (by norm_num)]

end Abieos
