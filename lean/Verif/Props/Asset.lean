import Verif.Props.Symbol
import Mathlib.Algebra.Order.Ring.Abs
import Mathlib.Algebra.Order.Ring.Int
import Mathlib.Tactic.Linarith
import Mathlib.Tactic.NormNum
/-! # C09: asset arithmetic -/
namespace Abieos
open Spec

/-- An amount within ±(2^62 - 1). -/
def Spec.InRange (x : Int) : Prop := -(2 ^ 62 - 1) ≤ x ∧ x ≤ 2 ^ 62 - 1
instance (x : Int) : Decidable (InRange x) := by unfold InRange; infer_instance

/-- An operation with exact result `x`: it gives `x` when `x` is in range and throws otherwise; it is never undefined. -/
def Spec.ExactOrThrows (sym : Nat) (x : Int) (r : Res Asset) : Prop :=
  (InRange x → r = .ok ⟨x, sym⟩) ∧ (¬ InRange x → ∃ m, r = .error (.text m))

theorem int64_ok {x : Int} (h : -2 ^ 63 ≤ x) (h' : x < 2 ^ 63) : int64 x = .ok x := by unfold int64; rw [if_pos ⟨h, h'⟩]

theorem two_checks {t : Int} {s : Nat} {p q : Prop} [Decidable p] [Decidable q] {m m' : Msg} (h : InRange t ↔ p ∧ q) :
    ExactOrThrows s t (check (decide p) (.text m) >>= fun _ => check (decide q) (.text m') >>= fun _ => .ok ⟨t, s⟩) := by
  unfold ExactOrThrows
  rw [h]
  by_cases hp : p
  · by_cases hq : q
    · simp [hp, hq]
    · simp [hp, hq]
  · simp [hp]

/-- `a + b`: exact, or an exception. -/
theorem c09_add {a b : Asset} (ha : InRange a.amount) (hb : InRange b.amount) :
    (a.symbol = b.symbol → ExactOrThrows a.symbol (a.amount + b.amount) (assetAdd a b)) ∧
    (a.symbol ≠ b.symbol → ∃ m, assetAdd a b = .error (.text m)) := by
  unfold InRange at ha hb
  unfold assetAdd
  constructor
  · intro h
    rw [int64_ok (by omega) (by omega)]
    simp only [h, beq_self_eq_true, check_true, bind_ok]
    exact two_checks Iff.rfl
  · intro h
    have : (b.symbol == a.symbol) = false := beq_eq_false_iff_ne.2 (Ne.symm h)
    rw [this]
    exact ⟨_, rfl⟩

/-- `a - b`: exact, or an exception. -/
theorem c09_sub {a b : Asset} (ha : InRange a.amount) (hb : InRange b.amount) :
    (a.symbol = b.symbol → ExactOrThrows a.symbol (a.amount - b.amount) (assetSub a b)) ∧
    (a.symbol ≠ b.symbol → ∃ m, assetSub a b = .error (.text m)) := by
  unfold InRange at ha hb
  unfold assetSub
  constructor
  · intro h
    rw [int64_ok (by omega) (by omega)]
    simp only [h, beq_self_eq_true, check_true, bind_ok]
    exact two_checks Iff.rfl
  · intro h
    have : (b.symbol == a.symbol) = false := beq_eq_false_iff_ne.2 (Ne.symm h)
    rw [this]
    exact ⟨_, rfl⟩

/-- `a * k` for every 64-bit `k`: exact, or an exception. -/
theorem c09_mul {a : Asset} {k : Int} (ha : InRange a.amount) (hk : -2 ^ 63 ≤ k) (hk' : k < 2 ^ 63) :
    ExactOrThrows a.symbol (a.amount * k) (assetMul a k) := by
  unfold InRange at ha
  unfold assetMul
  have hm : |a.amount * k| ≤ (2 ^ 62 - 1) * 2 ^ 63 := by
    rw [abs_mul]
    exact mul_le_mul (abs_le.2 ⟨ha.1, ha.2⟩) (abs_le.2 ⟨by omega, by omega⟩) (abs_nonneg _) (by norm_num)
  have h128 : int128 (a.amount * k) = .ok (a.amount * k) := by
    unfold int128
    have := abs_le.1 hm
    rw [if_pos ⟨by omega, by omega⟩]
  rw [h128, bind_ok]
  exact two_checks and_comm

theorem tdiv_range {a k : Int} (h : InRange a) : InRange (a.tdiv k) := by
  have : (a.tdiv k).natAbs ≤ a.natAbs := by
    rw [Int.natAbs_tdiv]
    exact Nat.div_le_self _ _
  unfold InRange at *
  omega

/-- `a / k`: the quotient, rounded toward zero, is always in range; only a zero divisor throws. -/
theorem c09_div {a : Asset} {k : Int} (ha : InRange a.amount) :
    (k ≠ 0 → assetDiv a k = .ok ⟨a.amount.tdiv k, a.symbol⟩ ∧ InRange (a.amount.tdiv k)) ∧
    (k = 0 → ∃ m, assetDiv a k = .error (.text m)) := by
  unfold assetDiv
  constructor
  · intro h
    have hr := tdiv_range (k := k) ha
    have hr' := hr
    unfold InRange at ha hr'
    rw [int64_ok (by omega) (by omega)]
    have h1 : ¬ (a.amount = -2 ^ 63 ∧ k = -1) := by omega
    simp only [decide_eq_true h, decide_eq_false h1, check_true, bind_ok, Bool.not_false, true_and]
    exact hr
  · rintro rfl
    exact ⟨_, rfl⟩

/-- Rounding toward zero, in terms of multiplication. -/
theorem c09_div_rounds (x k : Int) (hk : k ≠ 0) : |x.tdiv k * k| ≤ |x| ∧ |x| < |x.tdiv k * k| + |k| ∧ 0 ≤ x.tdiv k * k * x := by
  have hk' : 0 < |k| := abs_pos.2 hk
  have key : |x.tdiv k * k| = ((x.natAbs / k.natAbs * k.natAbs : Nat) : Int) := by
    rw [Int.abs_eq_natAbs, Int.natAbs_mul, Int.natAbs_tdiv]; rfl
  have hn : 0 < k.natAbs := Int.natAbs_pos.2 hk
  have h1 := Nat.div_mul_le_self x.natAbs k.natAbs
  have h2 := Nat.lt_div_mul_add (a := x.natAbs) hn
  refine ⟨?_, ?_, ?_⟩
  · rw [key, Int.abs_eq_natAbs x]; exact_mod_cast h1
  · rw [key, Int.abs_eq_natAbs x, Int.abs_eq_natAbs k]; exact_mod_cast h2
  · have h3 : x.tdiv k * k = x - x.tmod k := by have := Int.mul_tdiv_add_tmod x k; linarith [mul_comm k (x.tdiv k)]
    rw [h3]
    rcases le_total 0 x with hx | hx
    · have := Int.tmod_nonneg k hx
      have h4 : (x.tmod k).natAbs ≤ x.natAbs := by rw [Int.natAbs_tmod]; exact Nat.mod_le _ _
      exact mul_nonneg (by omega) hx
    · have h5 : x.tmod k = -((-x).tmod k) := by rw [Int.neg_tmod]; ring
      have := Int.tmod_nonneg k (show 0 ≤ -x by omega)
      have h4 : (x.tmod k).natAbs ≤ x.natAbs := by rw [Int.natAbs_tmod]; exact Nat.mod_le _ _
      exact mul_nonneg_of_nonpos_of_nonpos (by omega) hx

/-- `-a` is exact. -/
theorem c09_neg {a : Asset} (ha : InRange a.amount) : assetNeg a = .ok ⟨-a.amount, a.symbol⟩ ∧ InRange (-a.amount) := by
  unfold InRange at *
  unfold assetNeg
  rw [int64_ok (by omega) (by omega)]
  exact ⟨rfl, by omega⟩

/-- The division of two assets is the truncated quotient; it throws exactly when the symbols differ or the divisor is 0. -/
theorem c09_div_asset {a b : Asset} (ha : InRange a.amount) :
    (b.amount ≠ 0 ∧ a.symbol = b.symbol → assetDivAsset a b = .ok (a.amount.tdiv b.amount)) ∧
    (¬ (b.amount ≠ 0 ∧ a.symbol = b.symbol) → ∃ m, assetDivAsset a b = .error (.text m)) := by
  unfold assetDivAsset
  have hr := tdiv_range (k := b.amount) ha
  unfold InRange at hr
  rw [int64_ok (by omega) (by omega)]
  constructor
  · rintro ⟨h1, h2⟩
    simp only [decide_eq_true h1, h2, beq_self_eq_true, check_true, bind_ok]
  · intro hn
    by_cases h1 : b.amount ≠ 0
    · have h2 : (a.symbol == b.symbol) = false := by simpa using fun h => hn ⟨h1, h⟩
      simp only [decide_eq_true h1, h2, check_true, check_false, bind_ok, bind_error]
      exact ⟨_, rfl⟩
    · simp only [decide_eq_false h1, check_false, bind_error]
      exact ⟨_, rfl⟩

/-- The constructor accepts exactly the amounts in range with a valid symbol. -/
theorem c09_ctor {a : Int} {s : Nat} (hs : s < 2 ^ 64) : (∃ x, assetCtor a s = .ok x) ↔
    InRange a ∧ ∃ p l, p < 256 ∧ CodeText l ∧ s = p + 256 * leVal l := by
  rw [← c07_symbol_is_valid hs]
  unfold assetCtor InRange
  simp only [bind_eq_ok, check_eq_ok, decide_eq_true_eq, Except.ok.injEq]
  constructor
  · rintro ⟨x, -, h1, -, h2, -⟩; exact ⟨h1, h2⟩
  · rintro ⟨h1, h2⟩; exact ⟨_, (), h1, (), h2, rfl⟩

/-- All operands of an operation are in range and 64-bit. -/
def Spec.OperandOk : AssetOp → Prop
  | .add a | .sub a => InRange a.amount
  | .mul k | .div k => -2 ^ 63 ≤ k ∧ k < 2 ^ 63
  | .neg => True

/-- Any history: starting in range, every sequence of operations with operands in range keeps the amount in range and the
symbol unchanged, or throws; no overflow occurs on the way. -/
theorem c09_history (ops : List AssetOp) (hops : ∀ o ∈ ops, OperandOk o) {x : Asset} (hx : InRange x.amount) :
    (∃ y, AssetOp.runAll x ops = .ok y ∧ InRange y.amount ∧ y.symbol = x.symbol) ∨ ∃ m, AssetOp.runAll x ops = .error (.text m) := by
  induction ops generalizing x with
  | nil => exact .inl ⟨x, rfl, hx, rfl⟩
  | cons o ops ih =>
    have step : (∃ y, o.run x = .ok y ∧ InRange y.amount ∧ y.symbol = x.symbol) ∨ ∃ m, o.run x = .error (.text m) := by
      have ho := hops o (by simp)
      have ex : ∀ {t : Int} {r : Res Asset}, ExactOrThrows x.symbol t r →
          (∃ y, r = .ok y ∧ InRange y.amount ∧ y.symbol = x.symbol) ∨ ∃ m, r = .error (.text m) := by
        intro t r h
        by_cases ht : InRange t
        · exact .inl ⟨_, h.1 ht, ht, rfl⟩
        · exact .inr (h.2 ht)
      cases o with
      | add a =>
        by_cases hs : x.symbol = a.symbol
        · exact ex ((c09_add hx ho).1 hs)
        · exact .inr ((c09_add hx ho).2 hs)
      | sub a =>
        by_cases hs : x.symbol = a.symbol
        · exact ex ((c09_sub hx ho).1 hs)
        · exact .inr ((c09_sub hx ho).2 hs)
      | mul k => exact ex (c09_mul hx ho.1 ho.2)
      | div k =>
        by_cases hk : k = 0
        · exact .inr ((c09_div hx).2 hk)
        · obtain ⟨h1, h2⟩ := (c09_div hx).1 hk; exact .inl ⟨_, h1, h2, rfl⟩
      | neg => obtain ⟨h1, h2⟩ := c09_neg hx; exact .inl ⟨_, h1, h2, rfl⟩
    rw [AssetOp.runAll]
    rcases step with ⟨y, hy, hr, hsym⟩ | ⟨m, hm⟩
    · rw [hy, bind_ok]
      rcases ih (fun o' ho' => hops o' (by simp [ho'])) hr with ⟨z, h1, h2, h3⟩ | h
      · exact .inl ⟨z, h1, h2, by rw [h3, hsym]⟩
      · exact .inr h
    · rw [hm, bind_error]; exact .inr ⟨m, rfl⟩

/-- The result of a history without exception is the exact result of the same operations on unbounded integers. -/
def Spec.exact (x : Int) : List AssetOp → Int
  | [] => x
  | .add a :: os => exact (x + a.amount) os
  | .sub a :: os => exact (x - a.amount) os
  | .mul k :: os => exact (x * k) os
  | .div k :: os => exact (x.tdiv k) os
  | .neg :: os => exact (-x) os

theorem int64_inv {x y : Int} (h : int64 x = .ok y) : y = x := by
  unfold int64 at h; split at h <;> simp_all

theorem int128_inv {x y : Int} (h : int128 x = .ok y) : y = x := by
  unfold int128 at h; split at h <;> simp_all

theorem c09_history_exact (ops : List AssetOp) {x y : Asset} (h : AssetOp.runAll x ops = .ok y) :
    y.amount = exact x.amount ops := by
  induction ops generalizing x with
  | nil => simp only [AssetOp.runAll, Except.ok.injEq] at h; rw [h]; rfl
  | cons o ops ih =>
    rw [AssetOp.runAll, bind_eq_ok] at h
    obtain ⟨z, hz, h⟩ := h
    rw [ih h]
    cases o with
    | add a =>
      simp only [AssetOp.run, assetAdd, bind_eq_ok, check_eq_ok, Except.ok.injEq] at hz
      obtain ⟨-, -, r, hr, -, -, -, -, rfl⟩ := hz
      rw [int64_inv hr]; rfl
    | sub a =>
      simp only [AssetOp.run, assetSub, bind_eq_ok, check_eq_ok, Except.ok.injEq] at hz
      obtain ⟨-, -, r, hr, -, -, -, -, rfl⟩ := hz
      rw [int64_inv hr]; rfl
    | mul k =>
      simp only [AssetOp.run, assetMul, bind_eq_ok, check_eq_ok, Except.ok.injEq] at hz
      obtain ⟨r, hr, -, -, -, -, rfl⟩ := hz
      rw [int128_inv hr]; rfl
    | div k =>
      simp only [AssetOp.run, assetDiv, bind_eq_ok, check_eq_ok, Except.ok.injEq] at hz
      obtain ⟨-, -, -, -, r, hr, rfl⟩ := hz
      rw [int64_inv hr]; rfl
    | neg =>
      simp only [AssetOp.run, assetNeg, bind_eq_ok, Except.ok.injEq] at hz
      obtain ⟨r, hr, rfl⟩ := hz
      rw [int64_inv hr]; rfl

/-- The comparisons agree with the comparisons of the amounts and throw exactly for different symbols. -/
theorem c09_compare (f : Int → Int → Bool) (a b : Asset) :
    (a.symbol = b.symbol → assetCompare f a b = .ok (f a.amount b.amount)) ∧
    (a.symbol ≠ b.symbol → ∃ m, assetCompare f a b = .error (.text m)) := by
  unfold assetCompare
  constructor
  · intro h; simp [h]
  · intro h
    have : (a.symbol == b.symbol) = false := by simpa using h
    rw [this]; exact ⟨_, rfl⟩

/-- Extended assets: the same, for equal contracts. -/
theorem c09_ext_add {a b : ExtAsset} (ha : InRange a.quantity.amount) (hb : InRange b.quantity.amount) :
    (∀ r, extAdd a b = .ok r ↔ a.contract = b.contract ∧ a.quantity.symbol = b.quantity.symbol ∧
      InRange (a.quantity.amount + b.quantity.amount) ∧ r = ⟨⟨a.quantity.amount + b.quantity.amount, a.quantity.symbol⟩, a.contract⟩) ∧
    (∀ r, extSub a b = .ok r ↔ a.contract = b.contract ∧ a.quantity.symbol = b.quantity.symbol ∧
      InRange (a.quantity.amount - b.quantity.amount) ∧ r = ⟨⟨a.quantity.amount - b.quantity.amount, a.quantity.symbol⟩, a.contract⟩) := by
  have gen : ∀ (x : Int) (q : Res Asset), (a.quantity.symbol = b.quantity.symbol → ExactOrThrows a.quantity.symbol x q) →
      (a.quantity.symbol ≠ b.quantity.symbol → ∃ m, q = .error (.text m)) →
      ∀ r : ExtAsset, (check (a.contract == b.contract) (.text .typeMismatch) >>= fun _ => q >>= fun q => .ok ⟨q, a.contract⟩) = .ok r ↔
        a.contract = b.contract ∧ a.quantity.symbol = b.quantity.symbol ∧ InRange x ∧ r = ⟨⟨x, a.quantity.symbol⟩, a.contract⟩ := by
    intro x q h1 h2 r
    simp only [bind_eq_ok, check_eq_ok, beq_iff_eq, Except.ok.injEq]
    by_cases hc : a.contract = b.contract
    · by_cases hs : a.quantity.symbol = b.quantity.symbol
      · by_cases hr : InRange x
        · rw [(h1 hs).1 hr]
          simp [hc, hs, hr, eq_comm]
        · obtain ⟨m, hm⟩ := (h1 hs).2 hr
          simp [hm, hr]
      · obtain ⟨m, hm⟩ := h2 hs
        simp [hm, hs]
    · simp [hc]
  exact ⟨gen _ _ (c09_add ha hb).1 (c09_add ha hb).2, gen _ _ (c09_sub ha hb).1 (c09_sub ha hb).2⟩

/-- Extended assets are ordered like their quantities when the contracts are equal, and the comparison throws exactly when the
contracts or the symbols differ. -/
theorem c09_ext_compare (f : Int → Int → Bool) (a b : ExtAsset) :
    (a.contract = b.contract → a.quantity.symbol = b.quantity.symbol → extCompare f a b = .ok (f a.quantity.amount b.quantity.amount)) ∧
    (a.contract ≠ b.contract ∨ a.quantity.symbol ≠ b.quantity.symbol → ∃ m, extCompare f a b = .error (.text m)) := by
  unfold extCompare
  constructor
  · intro hc hs
    simp [hc, (c09_compare f a.quantity b.quantity).1 hs]
  · intro h
    by_cases hc : a.contract = b.contract
    · obtain ⟨m, hm⟩ := (c09_compare f a.quantity b.quantity).2 (h.resolve_left (fun g => g hc))
      exact ⟨m, by simp [hc, hm]⟩
    · have : (a.contract == b.contract) = false := by simpa using hc
      rw [this]; exact ⟨_, rfl⟩

/-- `==` on extended assets of the same symbol tells whether they are the same; for different symbols it throws, whatever the contracts. -/
theorem c09_ext_equal (a b : ExtAsset) :
    (a.quantity.symbol = b.quantity.symbol → ∃ r, extEqual a b = .ok r ∧ (r = true ↔ a = b)) ∧
    (a.quantity.symbol ≠ b.quantity.symbol → ∃ m, extEqual a b = .error (.text m)) := by
  unfold extEqual
  constructor
  · intro hs
    rw [(c09_compare _ a.quantity b.quantity).1 hs, bind_ok]
    refine ⟨_, rfl, ?_⟩
    obtain ⟨⟨aa, as⟩, ac⟩ := a
    obtain ⟨⟨ba, bs⟩, bc⟩ := b
    simp_all
  · intro hs
    obtain ⟨m, hm⟩ := (c09_compare (· == ·) a.quantity b.quantity).2 hs
    exact ⟨m, by rw [hm]; rfl⟩

/-- The negation of an extended asset in range. -/
theorem c09_ext_neg {a : ExtAsset} (ha : InRange a.quantity.amount) :
    extNeg a = .ok ⟨⟨-a.quantity.amount, a.quantity.symbol⟩, a.contract⟩ := by
  unfold extNeg; rw [(c09_neg ha).1]; rfl

example : let a : ExtAsset := ⟨⟨1, 1398362884⟩, 7⟩
    let b : ExtAsset := ⟨⟨1, 1398362884⟩, 8⟩
    extEqual a b = .ok false ∧ (∃ m, extCompare (· < ·) a b = .error (.text m)) := by
  exact ⟨by decide, ((c09_ext_compare _ _ _).2 (.inl (by decide)))⟩

/-- When `+=` throws for an amount out of range, the object is left with that amount: the invariant only holds for
histories that end at the first exception. -/
theorem c09_failed_add_leaves_result {a b : Asset} (hs : b.symbol = a.symbol) :
    assetAddState a b = ⟨a.amount + b.amount, a.symbol⟩ ∧ assetSubState a b = ⟨a.amount - b.amount, a.symbol⟩ := by
  simp [assetAddState, assetSubState, hs]

example : let a : Asset := ⟨2 ^ 62 - 1, 1398362884⟩
    InRange a.amount ∧ (∃ m, assetAdd a a = .error (.text m)) ∧ ¬ InRange (assetAddState a a).amount := by
  refine ⟨by decide, ?_, by decide⟩
  exact ((c09_add (by decide) (by decide)).1 rfl).2 (by decide)

example : AssetOp.runAll ⟨1000000, 1398362884⟩ [.mul (-3), .add ⟨5, 1398362884⟩, .div 7, .neg] = .ok ⟨428570, 1398362884⟩ := by
  decide

end Abieos
