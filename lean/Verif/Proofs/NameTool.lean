import Verif.Model.NameTool
import Verif.Spec.NameTool
import Verif.Proofs.Shown
/-! Numbers and lines of the `name` tool. -/
namespace Abieos.NameTool
open Abieos.Spec

theorem isSpace_iff (c : UInt8) : isSpace c = true ↔ SpaceChar c := by
  simp only [isSpace, SpaceChar, Bool.or_eq_true, beq_iff_eq, Bool.and_eq_true, decide_eq_true_eq, UInt8.le_iff_toNat_le, ← UInt8.toNat_inj]
  simp

theorem digitIs_iff (base : Nat) (hb : base ≤ 36) (c : UInt8) (d : Nat) : DigitIs base c d ↔ strDigit c = d ∧ d < base := by
  unfold strDigit DigitIs
  simp only [UInt8.le_iff_toNat_le]
  have h1 : (48 : UInt8).toNat = 48 := rfl
  have h2 : (57 : UInt8).toNat = 57 := rfl
  have h3 : (97 : UInt8).toNat = 97 := rfl
  have h4 : (122 : UInt8).toNat = 122 := rfl
  have h5 : (65 : UInt8).toNat = 65 := rfl
  have h6 : (90 : UInt8).toNat = 90 := rfl
  rw [h1, h2, h3, h4, h5, h6]
  split
  · omega
  · split
    · omega
    · split <;> omega

/-- the value of a digit string, continuing from `m` -/
def numFrom (base : Nat) : Nat → Bytes → Nat
  | m, [] => m
  | m, c :: s => numFrom base (m * base + strDigit c) s

theorem numFrom_append (base : Nat) : ∀ (m : Nat) (s t : Bytes), numFrom base m (s ++ t) = numFrom base (numFrom base m s) t
  | m, [], t => rfl
  | m, c :: s, t => by rw [List.cons_append, numFrom, numFrom_append base _ s t]; rfl

theorem numeral_iff (base : Nat) (hb : base ≤ 36) (s : Bytes) (n : Nat) :
    Numeral base s n ↔ s ≠ [] ∧ (∀ c ∈ s, strDigit c < base) ∧ n = numFrom base 0 s := by
  constructor
  · intro h
    induction h with
    | one h => 
      rename_i c d
      have := (digitIs_iff base hb c d).1 h
      exact ⟨by simp, by intro x hx; simp only [List.mem_singleton] at hx; subst hx; omega, by simp [numFrom, this.1]⟩
    | more h hd ih =>
      rename_i s n c d
      have := (digitIs_iff base hb c d).1 hd
      refine ⟨by simp, ?_, ?_⟩
      · intro x hx
        rw [List.mem_append, List.mem_singleton] at hx
        rcases hx with hx | rfl
        · exact ih.2.1 x hx
        · omega
      · rw [numFrom_append, ← ih.2.2]; simp [numFrom, this.1]
  · rintro ⟨h1, h2, rfl⟩
    have : ∀ k (s : Bytes), s.length = k + 1 → (∀ c ∈ s, strDigit c < base) → Numeral base s (numFrom base 0 s) := by
      intro k
      induction k with
      | zero =>
        intro s hl hs
        match s, hl with
        | [c], _ =>
          have := Numeral.one ((digitIs_iff base hb c _).2 ⟨rfl, hs c (by simp)⟩)
          simpa [numFrom] using this
      | succ k ih =>
        intro s hl hs
        have hne : s ≠ [] := by intro h; rw [h] at hl; cases hl
        have hc := List.dropLast_concat_getLast hne
        have hlast : s.getLast hne ∈ s := List.getLast_mem hne
        have i2 := ih s.dropLast (by rw [List.length_dropLast]; omega) fun c h => hs c (List.dropLast_subset s h)
        have := Numeral.more i2 ((digitIs_iff base hb (s.getLast hne) _).2 ⟨rfl, hs _ hlast⟩)
        rw [← hc, numFrom_append]
        exact this
    match s, h1 with
    | c :: s, _ => exact this s.length (c :: s) rfl h2

theorem takeNumber_iff (base : Nat) : ∀ (s : Bytes) (m v : Nat),
    takeNumber base m s = (v, []) ↔ (∀ c ∈ s, strDigit c < base) ∧ v = numFrom base m s
  | [], m, v => by simp [takeNumber, numFrom, eq_comm]
  | c :: s, m, v => by
    rw [takeNumber]
    split
    · rename_i h
      rw [takeNumber_iff base s, numFrom]
      simp [h]
    · rename_i h
      simp [h]

theorem takeNumber_numeral (base : Nat) (hb : base ≤ 36) {s : Bytes} (hs : s ≠ []) (v : Nat) :
    takeNumber base 0 s = (v, []) ↔ Numeral base s v := by
  rw [takeNumber_iff, numeral_iff base hb]
  simp [hs]

theorem strDigit_48 : strDigit 48 = 0 := by unfold strDigit; decide +kernel
theorem strDigit_x {x : UInt8} (h : x = 120 ∨ x = 88) : strDigit x = 33 := by
  rcases h with rfl | rfl <;> (unfold strDigit; decide +kernel)

theorem some_pair {p : Nat × Bytes} {n : Nat} : some p = some (n, ([] : Bytes)) ↔ p = (n, []) := by simp

theorem unsignedNumber_iff (s : Bytes) (n : Nat) : unsignedNumber s = some (n, []) ↔ NumberText s n := by
  have key : ∀ s : Bytes, NumberText s n ↔
      (∃ c t, s = c :: t ∧ c ≠ 48 ∧ Numeral 10 s n) ∨ (∃ t, s = 48 :: t ∧ Numeral 8 s n) ∨
      (∃ x t, s = 48 :: x :: t ∧ (x = 120 ∨ x = 88) ∧ Numeral 16 t n) := by
    intro s
    constructor
    · intro h
      cases h with
      | dec h1 h2 => exact .inl ⟨_, _, rfl, h1, h2⟩
      | oct h1 => exact .inr (.inl ⟨_, rfl, h1⟩)
      | hex h1 h2 => exact .inr (.inr ⟨_, _, rfl, h1, h2⟩)
    · rintro (⟨c, t, rfl, h1, h2⟩ | ⟨t, rfl, h1⟩ | ⟨x, t, rfl, h1, h2⟩)
      · exact .dec h1 h2
      · exact .oct h1
      · exact .hex h1 h2
  rw [key]
  match s with
  | [] => simp [unsignedNumber]
  | c :: t =>
    by_cases hc : c = 48
    · subst hc
      unfold unsignedNumber
      have h8 : (∃ t', (48 :: t : Bytes) = 48 :: t' ∧ Numeral 8 (48 :: t) n) ↔ Numeral 8 (48 :: t) n := by simp
      have h10 : ¬ ∃ c t', (48 :: t : Bytes) = c :: t' ∧ c ≠ 48 ∧ Numeral 10 (48 :: t) n := by
        rintro ⟨c, t', h, hne, _⟩; injection h with h _; exact hne h.symm
      match t with
      | [] =>
        simp only [some_pair]
        rw [takeNumber_numeral 8 (by decide) (by simp)]
        constructor
        · exact fun h => .inr (.inl ⟨_, rfl, h⟩)
        · rintro (⟨_, _, h, hne, _⟩ | ⟨_, _, h⟩ | ⟨_, _, h, _⟩)
          · injection h with h _; exact absurd h.symm hne
          · exact h
          · cases h
      | [x] =>
        simp only [some_pair]
        rw [takeNumber_numeral 8 (by decide) (by simp)]
        constructor
        · exact fun h => .inr (.inl ⟨_, rfl, h⟩)
        · rintro (⟨_, _, h, hne, _⟩ | ⟨_, _, h⟩ | ⟨_, _, h, _, h3⟩)
          · injection h with h _; exact absurd h.symm hne
          · exact h
          · injection h with _ h; injection h with _ h; subst h; exact absurd rfl ((numeral_iff 16 (by decide) _ _).1 h3).1
      | x :: d :: t =>
        simp only
        split
        · rename_i hx
          rw [some_pair, takeNumber_numeral 16 (by decide) (by simp)]
          constructor
          · exact fun h => .inr (.inr ⟨_, _, rfl, hx.1, h⟩)
          · rintro (⟨_, _, h, hne, _⟩ | ⟨_, _, h⟩ | ⟨_, _, h, _, h3⟩)
            · injection h with h _; exact absurd h.symm hne
            · have := ((numeral_iff 8 (by decide) _ _).1 h).2.1 x (by simp)
              rw [strDigit_x hx.1] at this; omega
            · injection h with _ h; injection h with _ h; subst h; exact h3
        · rename_i hx
          rw [some_pair, takeNumber_numeral 8 (by decide) (by simp)]
          constructor
          · exact fun h => .inr (.inl ⟨_, rfl, h⟩)
          · rintro (⟨_, _, h, hne, _⟩ | ⟨_, _, h⟩ | ⟨y, u, h, h2, h3⟩)
            · injection h with h _; exact absurd h.symm hne
            · exact h
            · injection h with _ h; injection h with hy h; subst h; subst hy
              exact absurd ⟨h2, ((numeral_iff 16 (by decide) _ _).1 h3).2.1 d (by simp)⟩ hx
    · have hu : unsignedNumber (c :: t) = if strDigit c < 10 then some (takeNumber 10 0 (c :: t)) else none := by
        rw [unsignedNumber]
        intro h; exact hc h
      rw [hu]
      constructor
      · intro h
        split at h
        · rw [some_pair, takeNumber_numeral 10 (by decide) (by simp)] at h
          exact .inl ⟨_, _, rfl, hc, h⟩
        · cases h
      · rintro (⟨_, _, _, _, h⟩ | ⟨_, h, _⟩ | ⟨_, _, h, _⟩)
        · have := ((numeral_iff 10 (by decide) _ _).1 h).2.1 c (by simp)
          rw [if_pos this, some_pair, takeNumber_numeral 10 (by decide) (by simp)]; exact h
        · injection h with h _; exact absurd h hc
        · injection h with h _; exact absurd h hc

theorem numberText_head {s : Bytes} {n : Nat} (h : NumberText s n) : ∃ c t, s = c :: t ∧ strDigit c < 10 := by
  cases h with
  | dec h1 h2 => exact ⟨_, _, rfl, ((numeral_iff 10 (by decide) _ _).1 h2).2.1 _ (by simp)⟩
  | oct h => exact ⟨_, _, rfl, by rw [strDigit_48]; decide⟩
  | hex _ _ => exact ⟨_, _, rfl, by rw [strDigit_48]; decide⟩

theorem digit_range {c : UInt8} (h : strDigit c < 10) : 48 ≤ c.toNat ∧ c.toNat ≤ 57 := by
  have := ((digitIs_iff 10 (by decide) c _).2 ⟨rfl, h⟩).2
  omega

theorem dropWhile_space {w r : Bytes} (hw : ∀ c ∈ w, SpaceChar c) (hr : ∀ c t, r = c :: t → ¬ SpaceChar c) :
    (w ++ r).dropWhile isSpace = r := by
  induction w with
  | nil =>
    cases r with
    | nil => rfl
    | cons c t =>
      have := hr c t rfl
      rw [← isSpace_iff] at this
      simp [this]
  | cons c w ih =>
    have := (isSpace_iff c).2 (hw c (by simp))
    rw [List.cons_append, List.dropWhile_cons, if_pos this]
    exact ih fun x h => hw x (List.mem_cons_of_mem _ h)

theorem dropWhile_split (s : Bytes) : ∃ w, s = w ++ s.dropWhile isSpace ∧ ∀ c ∈ w, SpaceChar c := by
  refine ⟨s.takeWhile isSpace, (List.takeWhile_append_dropWhile).symm, ?_⟩
  induction s with
  | nil => intro c hc; cases hc
  | cons d s ih =>
    intro c hc
    rw [List.takeWhile_cons] at hc
    split at hc
    · rename_i hd
      rcases List.mem_cons.1 hc with rfl | hc
      · exact (isSpace_iff _).1 hd
      · exact ih c hc
    · cases hc

theorem stoull_eq (s : Bytes) : stoull s = match unsignedNumber (signOf (s.dropWhile isSpace)).2 with
    | none => none
    | some (m, rest) => if m < 2 ^ 64 then some (if (signOf (s.dropWhile isSpace)).1 then (2 ^ 64 - m) % 2 ^ 64 else m, rest) else none := by
  rfl

theorem signOf_cases (r : Bytes) : (∃ t, r = 45 :: t ∧ signOf r = (true, t)) ∨ (∃ t, r = 43 :: t ∧ signOf r = (false, t)) ∨ signOf r = (false, r) := by
  unfold signOf
  split
  · exact .inl ⟨_, rfl, rfl⟩
  · exact .inr (.inl ⟨_, rfl, rfl⟩)
  · exact .inr (.inr rfl)

theorem signOf_digit {c : UInt8} {t : Bytes} (h : strDigit c < 10) : signOf (c :: t) = (false, c :: t) := by
  have := digit_range h
  rcases signOf_cases (c :: t) with ⟨u, h, _⟩ | ⟨u, h, _⟩ | h
  · injection h with h _; subst h; exact absurd this (by decide)
  · injection h with h _; subst h; exact absurd this (by decide)
  · exact h

theorem stoull_core (r : Bytes) (v : Nat) :
    (match unsignedNumber (signOf r).2 with
      | none => none
      | some (m, rest) => if m < 2 ^ 64 then some (if (signOf r).1 then (2 ^ 64 - m) % 2 ^ 64 else m, rest) else none) = some (v, []) ↔
    ∃ n, NumberText (signOf r).2 n ∧ n < 2 ^ 64 ∧ v = (if (signOf r).1 then (2 ^ 64 - n) % 2 ^ 64 else n) := by
  generalize signOf r = p
  obtain ⟨neg, t⟩ := p
  simp only
  cases hu : unsignedNumber t with
  | none =>
    simp only
    constructor
    · intro h; cases h
    · rintro ⟨n, h, _⟩; rw [← unsignedNumber_iff, hu] at h; cases h
  | some q =>
    obtain ⟨m, rest⟩ := q
    simp only
    constructor
    · intro h
      split at h
      · rename_i hm
        simp only [Option.some.injEq, Prod.mk.injEq] at h
        obtain ⟨h1, rfl⟩ := h
        exact ⟨m, (unsignedNumber_iff _ _).1 hu, hm, h1.symm⟩
      · cases h
    · rintro ⟨n, h, hn, rfl⟩
      rw [← unsignedNumber_iff, hu] at h
      simp only [Option.some.injEq, Prod.mk.injEq] at h
      obtain ⟨rfl, rfl⟩ := h
      rw [if_pos hn]

/-- **`std::stoull` of a whole text** -/
theorem stoull_iff (s : Bytes) (v : Nat) : stoull s = some (v, []) ↔ ValueText s v := by
  rw [stoull_eq, stoull_core]
  constructor
  · rintro ⟨n, h1, h2, h3⟩
    obtain ⟨w, hs, hw⟩ := dropWhile_split s
    generalize s.dropWhile isSpace = r at *
    rcases signOf_cases r with ⟨t, rfl, he⟩ | ⟨t, rfl, he⟩ | he
    · rw [he] at h1 h3
      refine ⟨w, [45], t, n, hs, hw, h1, h2, ?_, .inr ⟨rfl, ?_⟩⟩
      · rw [h3, if_pos rfl]; exact Nat.mod_lt _ (by decide)
      · rw [h3, if_pos rfl]; omega
    · rw [he] at h1 h3
      exact ⟨w, [43], t, n, hs, hw, h1, h2, by rw [h3]; exact h2, .inl ⟨.inr rfl, h3⟩⟩
    · rw [he] at h1 h3
      exact ⟨w, [], r, n, hs, hw, h1, h2, by rw [h3]; exact h2, .inl ⟨.inl rfl, h3⟩⟩
  · rintro ⟨w, sign, t, n, rfl, hw, h1, h2, hv, hsign⟩
    obtain ⟨c, u, rfl, hc⟩ := numberText_head h1
    have hr := digit_range hc
    have hd : (w ++ (sign ++ c :: u)).dropWhile isSpace = sign ++ c :: u := by
      apply dropWhile_space hw
      intro d q e
      have : d = 43 ∨ d = 45 ∨ d = c := by
        rcases hsign with ⟨rfl | rfl, _⟩ | ⟨rfl, _⟩ <;> (injection e with e _; simp [e])
      unfold SpaceChar
      rcases this with rfl | rfl | rfl
      · decide
      · decide
      · omega
    rw [hd]
    refine ⟨n, ?_⟩
    rcases hsign with ⟨rfl | rfl, rfl⟩ | ⟨rfl, hm⟩
    · rw [List.nil_append, signOf_digit hc]; exact ⟨h1, h2, rfl⟩
    · exact ⟨h1, h2, rfl⟩
    · refine ⟨h1, h2, ?_⟩
      rw [show ([45] ++ c :: u) = 45 :: (c :: u) from rfl]
      show v = (2 ^ 64 - n) % 2 ^ 64
      by_cases hn : n = 0
      · subst hn; omega
      · rw [Nat.mod_eq_of_lt (by omega)]; omega

/-! ### Numbers as texts -/

theorem lowDigit_is (base : Nat) (hb : base ≤ 16) {d : Nat} (hd : d < base) : strDigit (lowDigit d) = d := by
  have : ∀ k : Fin 16, strDigit (lowDigit k.val) = k.val := by unfold strDigit; decide +kernel
  exact this ⟨d, by omega⟩

theorem lowDigit_low {d : Nat} (hd : d < 16) : 97 ≤ (lowDigit d).toNat ∨ (lowDigit d).toNat ≤ 57 := by
  have : ∀ k : Fin 16, 97 ≤ (lowDigit k.val).toNat ∨ (lowDigit k.val).toNat ≤ 57 := by decide +kernel
  exact this ⟨d, hd⟩

theorem lowDigit_head {d : Nat} (hd : d < 16) (h0 : d ≠ 0) : lowDigit d ≠ 48 := by
  have : ∀ k : Fin 16, k.val ≠ 0 → lowDigit k.val ≠ 48 := by decide +kernel
  exact this ⟨d, hd⟩ h0

theorem baseText_spec (base : Nat) (h2 : 2 ≤ base) (hb : base ≤ 16) (n : Nat) :
    Numeral base (baseText base n) n ∧ (n ≠ 0 → (baseText base n).head? ≠ some 48) ∧ ∀ c ∈ baseText base n, 97 ≤ c.toNat ∨ c.toNat ≤ 57 := by
  induction n using Nat.strongRecOn with
  | _ n ih =>
    rw [baseText]
    have hm : n % base < base := Nat.mod_lt _ (by omega)
    have hd : DigitIs base (lowDigit (n % base)) (n % base) := (digitIs_iff base (by omega) _ _).2 ⟨lowDigit_is base hb hm, hm⟩
    split
    · rename_i h
      obtain ⟨i1, i2, i3⟩ := ih (n / base) (Nat.div_lt_self (by omega) (by omega))
      have hq : n / base ≠ 0 := by
        have := Nat.div_pos h.2 (by omega); omega
      refine ⟨?_, ?_, ?_⟩
      · have := Numeral.more i1 hd
        rwa [Nat.mul_comm, Nat.div_add_mod] at this
      · intro _
        have hne := ((numeral_iff base (by omega) _ _).1 i1).1
        rw [List.head?_append_of_ne_nil _ hne]
        exact i2 hq
      · intro c hc
        rw [List.mem_append, List.mem_singleton] at hc
        rcases hc with hc | rfl
        · exact i3 c hc
        · exact lowDigit_low (by omega)
    · rename_i h
      have : n % base = n := Nat.mod_eq_of_lt (by omega)
      rw [this] at hd ⊢
      refine ⟨.one hd, ?_, ?_⟩
      · intro h0; simp only [List.head?_cons, ne_eq, Option.some.injEq]
        exact lowDigit_head (by omega) h0
      · intro c hc; rw [List.mem_singleton] at hc; subst hc; exact lowDigit_low (by omega)

end Abieos.NameTool
