import Verif.Model.TimeArith
import Verif.Props.Operators
import Verif.Spec.TimeArith
/-
C72: the arithmetic of times.
-/
namespace Abieos
open Spec TimeArith

theorem int64_iff {x y : Int} : int64 x = .ok y ↔ y = x ∧ Is64 x := by
  unfold int64 Is64
  split
  · rename_i h
    constructor
    · intro e; injection e with e; exact ⟨e.symm, h⟩
    · rintro ⟨rfl, -⟩; rfl
  · rename_i h
    constructor
    · intro e; cases e
    · rintro ⟨-, h'⟩; exact absurd h' h

/-- An operation that is computed in `int64_t` gives the exact result, or is undefined. -/
theorem int64_error {x : Int} {e : Err} : int64 x = .error e ↔ e = .ub ∧ ¬ Is64 x := by
  unfold int64 Is64
  split
  · rename_i h
    constructor
    · intro e; cases e
    · rintro ⟨-, h'⟩; exact absurd h h'
  · rename_i h
    constructor
    · intro e; injection e with e; exact ⟨e.symm, h⟩
    · rintro ⟨rfl, -⟩; rfl

/-- **C72.** Sums of times and durations are exact, and defined exactly if they fit in 64 bits. -/
theorem c72_add (t d x : Int) : add t d = .ok x ↔ x = t + d ∧ Is64 (t + d) := int64_iff
theorem c72_sub (t d x : Int) : sub t d = .ok x ↔ x = t - d ∧ Is64 (t - d) := int64_iff

/-- **C72.** What was added can be taken away again, and the difference tells what was added. -/
theorem c72_add_sub {t d x : Int} (ht : Is64 t) (hd : Is64 d) (h : add t d = .ok x) : sub x d = .ok t ∧ sub x t = .ok d ∧ add d t = .ok x := by
  rw [c72_add] at h
  obtain ⟨rfl, h⟩ := h
  simp only [c72_sub, c72_add, Is64] at *
  omega

/-- **C72.** A later time plus the same duration is later. -/
theorem c72_add_mono {t t' d x x' : Int} (h : add t d = .ok x) (h' : add t' d = .ok x') : t < t' ↔ x < x' := by
  rw [c72_add] at h h'
  omega

theorem bind_int64_iff {x y : Int} {f : Int → Res Int} : (int64 x >>= f) = .ok y ↔ Is64 x ∧ f x = .ok y := by
  rw [bind_eq_ok]
  constructor
  · rintro ⟨a, h1, h2⟩
    obtain ⟨rfl, h⟩ := int64_iff.1 h1
    exact ⟨h, h2⟩
  · rintro ⟨h, h2⟩
    exact ⟨x, int64_iff.2 ⟨rfl, h⟩, h2⟩

/-- **C72.** Durations: `n` units are so many microseconds, defined exactly if these fit in 64 bits. -/
theorem c72_milliseconds (n x : Int) : milliseconds n = .ok x ↔ x = n * 1000 ∧ Is64 x := by
  unfold milliseconds; rw [int64_iff]; constructor <;> rintro ⟨rfl, h⟩ <;> exact ⟨rfl, h⟩
theorem c72_seconds (n x : Int) : seconds n = .ok x ↔ x = n * 1000000 ∧ Is64 x := by
  unfold seconds; rw [int64_iff]; constructor <;> rintro ⟨rfl, h⟩ <;> exact ⟨rfl, h⟩
theorem c72_minutes (n x : Int) : minutes n = .ok x ↔ x = n * 60 * 1000000 ∧ Is64 x := by
  unfold minutes; rw [bind_int64_iff, c72_seconds]; unfold Is64; omega
theorem c72_hours (n x : Int) : hours n = .ok x ↔ x = n * 3600 * 1000000 ∧ Is64 x := by
  unfold hours; rw [bind_int64_iff, c72_minutes]; unfold Is64; omega
theorem c72_days (n x : Int) : days n = .ok x ↔ x = n * 86400 * 1000000 ∧ Is64 x := by
  unfold days; rw [bind_int64_iff, c72_hours]; unfold Is64; omega

/-- **C72.** The number of whole seconds of a duration, dropping a fraction. -/
theorem c72_to_seconds (us : Int) : (toSeconds us * 1000000 ≤ us ∧ us < (toSeconds us + 1) * 1000000 ∧ 0 ≤ us) ∨
    (us ≤ toSeconds us * 1000000 ∧ (toSeconds us - 1) * 1000000 < us ∧ us < 0) := by
  unfold toSeconds
  rcases Int.le_total 0 us with h | h
  · left
    rw [Int.tdiv_eq_ediv_of_nonneg h]
    omega
  · by_cases h0 : us = 0
    · subst h0; left; decide
    right
    obtain ⟨n, rfl⟩ : ∃ n : Nat, us = -(n : Int) := ⟨us.natAbs, by omega⟩
    rw [Int.neg_tdiv, Int.tdiv_eq_ediv_of_nonneg (by omega)]
    omega

theorem c72_to_seconds_seconds {n x : Int} (h : seconds n = .ok x) : toSeconds x = n := by
  rw [c72_seconds] at h
  have := c72_to_seconds x
  omega

/-- **C72.** A `time_point_sec` is the time so many seconds after the epoch, always defined, and the time gives the `time_point_sec` back. -/
theorem c72_sec_to_time {s : Nat} (h : s < 2 ^ 32) : secToTime s = .ok (s * 1000000) ∧ timeToSec (s * 1000000) = s := by
  refine ⟨(c72_seconds _ _).2 ⟨rfl, ?_⟩, ?_⟩
  · unfold Is64; omega
  · unfold timeToSec toU32
    rw [Int.tdiv_eq_ediv_of_nonneg (by omega)]
    omega

/-- **C72.** A time from 1970 up to 2106 as a `time_point_sec` is the last whole second not after it. -/
theorem c72_time_to_sec {t : Int} (h0 : 0 ≤ t) (h1 : t < 2 ^ 32 * 1000000) : (timeToSec t : Int) * 1000000 ≤ t ∧ t < (timeToSec t + 1) * 1000000 := by
  unfold timeToSec toU32
  rw [Int.tdiv_eq_ediv_of_nonneg h0]
  omega

theorem toU32_same (x : Int) : SameSec (toU32 x) x := by
  unfold SameSec toU32
  exact ⟨by omega, x / 4294967296, by omega⟩

theorem same_unique {t t' : Nat} {x : Int} (h : SameSec t x) (h' : SameSec t' x) : t = t' := by
  obtain ⟨h1, k, h2⟩ := h
  obtain ⟨h3, k', h4⟩ := h'
  omega

/-- **C72.** Adding seconds to a `time_point_sec` or subtracting them is exact modulo 2^32. -/
theorem c72_sec_add (t n : Nat) : SameSec (secAdd t n) (t + n) := ⟨by unfold secAdd; omega, ((t + n) / 4294967296 : Nat), by unfold secAdd; omega⟩
theorem c72_sec_sub (t n : Nat) : SameSec (secSub t n) (t - n) := toU32_same _

theorem c72_sec_add_sub {t : Nat} (h : t < 2 ^ 32) (n : Nat) : secSub (secAdd t n) n = t ∧ secAdd (secSub t n) n = t := by
  unfold secSub secAdd toU32
  omega

/-- **C72.** Adding a duration with `+=` adds its whole seconds, dropping the fraction; it never fails. -/
theorem c72_sec_add_micro {t : Nat} (h : t < 2 ^ 32) {us : Int} (hu : Is64 us) :
    ∃ x, secAddMicro t us = .ok x ∧ SameSec x (t + toSeconds us) := by
  have := c72_to_seconds us
  have hi : Is64 (t + toSeconds us) := by unfold Is64 at *; omega
  refine ⟨_, ?_, toU32_same _⟩
  unfold secAddMicro
  rw [int64_iff.2 ⟨rfl, hi⟩]
  rfl

theorem c72_sec_sub_micro {t : Nat} (h : t < 2 ^ 32) {us : Int} (hu : Is64 us) :
    ∃ x, secSubMicro t us = .ok x ∧ SameSec x (t - toSeconds us) := by
  have := c72_to_seconds us
  have hi : Is64 (t - toSeconds us) := by unfold Is64 at *; omega
  refine ⟨_, ?_, toU32_same _⟩
  unfold secSubMicro
  rw [int64_iff.2 ⟨rfl, hi⟩]
  rfl

/-- **C72.** `t += d; t -= d` restores `t`. -/
theorem c72_sec_micro_restore {t : Nat} (h : t < 2 ^ 32) {us : Int} (hu : Is64 us) {x : Nat} (hx : secAddMicro t us = .ok x) :
    secSubMicro x us = .ok t := by
  obtain ⟨y, h1, h2⟩ := c72_sec_add_micro h hu
  obtain ⟨z, h3, h4⟩ := c72_sec_sub_micro (t := x) (by rw [hx] at h1; cases h1; exact h2.1) hu
  rw [hx] at h1
  cases h1
  rw [h3]
  obtain ⟨-, k, h5⟩ := h2
  obtain ⟨h6, k', h7⟩ := h4
  have : z = t := by omega
  rw [this]

/-- **C72.** `t + d` and `t - d` with a duration are exact times, not reduced to seconds. -/
theorem c72_sec_plus {t : Nat} (h : t < 2 ^ 32) (us x : Int) : secPlus t us = .ok x ↔ x = t * 1000000 + us ∧ Is64 x := by
  unfold secPlus
  rw [(c72_sec_to_time h).1]
  show add (t * 1000000) us = .ok x ↔ _
  rw [c72_add]
  constructor <;> rintro ⟨rfl, h⟩ <;> exact ⟨rfl, h⟩
theorem c72_sec_minus {t : Nat} (h : t < 2 ^ 32) (us x : Int) : secMinus t us = .ok x ↔ x = t * 1000000 - us ∧ Is64 x := by
  unfold secMinus
  rw [(c72_sec_to_time h).1]
  show sub (t * 1000000) us = .ok x ↔ _
  rw [c72_sub]
  constructor <;> rintro ⟨rfl, h⟩ <;> exact ⟨rfl, h⟩

/-- **C72.** The difference of two `time_point_sec` is exact and always defined. -/
theorem c72_sec_diff {t m : Nat} (h : t < 2 ^ 32) (hm : m < 2 ^ 32) : secDiff t m = .ok (((t : Int) - m) * 1000000) := by
  unfold secDiff
  rw [(c72_sec_to_time h).1, (c72_sec_to_time hm).1]
  show sub (t * 1000000) (m * 1000000) = _
  rw [c72_sub]
  unfold Is64
  omega
theorem c72_time_sec_diff {m : Nat} (hm : m < 2 ^ 32) (t x : Int) : timeSecDiff t m = .ok x ↔ x = t - m * 1000000 ∧ Is64 x := by
  unfold timeSecDiff
  rw [(c72_sec_to_time hm).1]
  show sub t (m * 1000000) = .ok x ↔ _
  rw [c72_sub]
  constructor <;> rintro ⟨rfl, h⟩ <;> exact ⟨rfl, h⟩

theorem one_compare {β : Type} {lt eq : β → β → Bool} {a b : β} : structCompare [Member.leaf id lt eq] a b = leafCompare lt a b := by
  rw [structCompare_cons, structCompare_nil]
  show (if leafCompare lt a b = 0 then 0 else leafCompare lt a b) = _
  split <;> omega

theorem leafCompare_int {a b : Int} : leafCompare (fun a b => decide (a < b)) a b = if a < b then -1 else if b < a then 1 else 0 := by
  simp [leafCompare]

theorem leafCompare_nat {a b : Nat} : leafCompare (fun a b => decide (a < b)) a b = if a < b then -1 else if b < a then 1 else 0 := by
  simp [leafCompare]

theorem time_compare (a b : Int) : structCompare timeMembers a b = if a < b then -1 else if b < a then 1 else 0 := by
  rw [← leafCompare_int, timeMembers, structCompare_cons, structCompare_nil]
  show (if structCompare microMembers a b = 0 then 0 else structCompare microMembers a b) = _
  rw [microMembers, one_compare]
  split <;> omega

theorem sec_compare (a b : Nat) : structCompare secMembers a b = if a < b then -1 else if b < a then 1 else 0 := by
  rw [← leafCompare_nat, secMembers, one_compare]

/-- **C72.** The comparison operators of times compare instants, and a `time_point_sec` compares as its time does. -/
theorem c72_compare (a b : Int) : (structLt timeMembers a b = true ↔ a < b) ∧ (structLe timeMembers a b = true ↔ a ≤ b) ∧
    (structGt timeMembers a b = true ↔ a > b) ∧ (structGe timeMembers a b = true ↔ a ≥ b) ∧ (structEq timeMembers a b = true ↔ a = b) ∧
    (structNe timeMembers a b = true ↔ a ≠ b) := by
  have he : structEq timeMembers a b = true ↔ a = b := by
    rw [structEq_iff]
    simp [timeMembers, Member.nested, structEq_iff, microMembers, Member.leaf]
  refine ⟨?_, ?_, ?_, ?_, he, ?_⟩
  · rw [structLt, decide_eq_true_iff, time_compare]; split <;> (try split) <;> omega
  · rw [structLe, decide_eq_true_iff, time_compare]; split <;> (try split) <;> omega
  · rw [structGt, decide_eq_true_iff, time_compare]; split <;> (try split) <;> omega
  · rw [structGe, decide_eq_true_iff, time_compare]; split <;> (try split) <;> omega
  · rw [structNe, Bool.not_eq_true', Ne, ← he, Bool.not_eq_true]

theorem c72_compare_sec {a b : Nat} (ha : a < 2 ^ 32) (hb : b < 2 ^ 32) {x y : Int} (hx : secToTime a = .ok x) (hy : secToTime b = .ok y) :
    structLt secMembers a b = structLt timeMembers x y ∧ structLe secMembers a b = structLe timeMembers x y ∧
    structGt secMembers a b = structGt timeMembers x y ∧ structGe secMembers a b = structGe timeMembers x y ∧
    structEq secMembers a b = structEq timeMembers x y ∧ structNe secMembers a b = structNe timeMembers x y := by
  rw [(c72_sec_to_time ha).1] at hx
  rw [(c72_sec_to_time hb).1] at hy
  injection hx with hx
  injection hy with hy
  subst hx hy
  have hc : structCompare secMembers a b = structCompare timeMembers (a * 1000000 : Int) (b * 1000000 : Int) := by
    rw [sec_compare, time_compare]
    split <;> split <;> (try split) <;> omega
  have he : structEq secMembers a b = structEq timeMembers (a * 1000000 : Int) (b * 1000000 : Int) := by
    rw [Bool.eq_iff_iff, (c72_compare _ _).2.2.2.2.1, structEq_iff]
    simp [secMembers, Member.leaf]
    omega
  refine ⟨?_, ?_, ?_, ?_, he, ?_⟩
  · rw [structLt, structLt, hc]
  · rw [structLe, structLe, hc]
  · rw [structGt, structGt, hc]
  · rw [structGe, structGe, hc]
  · rw [structNe, structNe, he]

/-- **C72.** The largest `time_point_sec` and `time_point` are what `maximum` and `max` give; `block_timestamp::maximum` is not the largest slot. -/
theorem c72_maximum : (∀ s : Nat, s < 2 ^ 32 ↔ s ≤ maximumSec) ∧ (∀ t : Int, Is64 t → t ≤ maximumTime) ∧ Is64 maximumTime ∧
    ∃ slot, slot < 2 ^ 32 ∧ maximumSlot < slot := by
  refine ⟨?_, ?_, ?_, 65536, by decide, by decide⟩
  · intro s; unfold maximumSec; omega
  · intro t h; unfold Is64 at h; unfold maximumTime; omega
  · unfold Is64 maximumTime; omega

/-! Examples: one day after 2020-01-01; half a second before a `time_point_sec`; overflow. -/
example : days 1 = .ok 86400000000 ∧ add 1577836800000000 86400000000 = .ok 1577923200000000 ∧ secAddMicro 5 (-500000) = .ok 5 ∧
    secMinus 5 500000 = .ok 4500000 ∧ secSub 3 5 = 4294967294 ∧ days 106751992 = .error .ub ∧ secDiff 3 5 = .ok (-2000000) := by decide +kernel

end Abieos
