import Verif.Spec.ScalarFaults
import Verif.Proofs.Faults
import Verif.Props.BuiltinFormat
import Verif.Proofs.Shown
/-
What is wrong with a scalar.
-/
namespace Abieos
open Spec

/-- The result is an error with the message. -/
def Fails {α : Type} (r : Res α) (m : String) : Prop := ∃ e, e ≠ Err.ub ∧ e.what = m ∧ r = .error e

/-! ## Integers -/

theorem intLoop_cons (t : IntTy) (sign limit r : Int) (f : Bool) (c : UInt8) (s : Bytes) :
    fromJsonIntLoop t sign limit r f (c :: s) = (fromJsonIntLoop t sign limit r true [c] >>= fun r' => fromJsonIntLoop t sign limit r' true s) := by
  rw [fromJsonIntLoop, fromJsonIntLoop]
  split
  · dsimp only
    split
    · cases t.arith (-sign * limit) with
      | error e => rfl
      | ok nl =>
        simp only [bind_ok]
        cases t.arith (nl + ((c.toNat : Int) - 48)) with
        | error e => rfl
        | ok x =>
          simp only [bind_ok]
          cases t.arith (-sign * r) with
          | error e => rfl
          | ok nr =>
            simp only [bind_ok]
            split
            · rfl
            · cases t.arith (r * 10) with
              | error e => rfl
              | ok a =>
                simp only [bind_ok]
                cases t.arith (sign * ((c.toNat : Int) - 48)) with
                | error e => rfl
                | ok b =>
                  simp only [bind_ok]
                  cases t.arith (a + b) with
                  | error e => rfl
                  | ok z => simp [fromJsonIntLoop]
    · cases t.arith (limit - ((c.toNat : Int) - 48)) with
      | error e => rfl
      | ok x =>
        simp only [bind_ok]
        split
        · rfl
        · cases t.arith (r * 10) with
          | error e => rfl
          | ok a =>
            simp only [bind_ok]
            cases t.arith (sign * ((c.toNat : Int) - 48)) with
            | error e => rfl
            | ok b =>
              simp only [bind_ok]
              cases t.arith (a + b) with
              | error e => rfl
              | ok z => simp [fromJsonIntLoop]
  · rfl

theorem arith_ub {t : IntTy} {x : Int} {e : Err} (h : t.arith x = .error e) : e = .ub := by
  unfold IntTy.arith at h
  split at h
  · cases h
  · dsimp only at h
    split at h
    · split at h
      · cases h
      · injection h with h; exact h.symm
    · split at h
      · cases h
      · injection h with h; exact h.symm

theorem intLoop_one (t : IntTy) (sign limit r : Int) (f : Bool) (c : UInt8) :
    fromJsonIntLoop t sign limit r f [c] = fromJsonIntLoop t sign limit r true [c] := by
  rw [fromJsonIntLoop, fromJsonIntLoop]

theorem intLoop_digit {t : IntTy} {sign limit r : Int} {f : Bool} {c : UInt8} (hd : IsDigit c) :
    fromJsonIntLoop t sign limit r f [c] ≠ .error .expected_int := by
  intro h
  rw [fromJsonIntLoop, if_pos (show (48 : UInt8) ≤ c ∧ c ≤ 57 from hd)] at h
  have hb : ∀ {x : Int} {f : Int → Res Int}, (∀ a, f a ≠ .error .expected_int) → (t.arith x >>= f) ≠ .error .expected_int := by
    intro x f hf g
    rcases bind_eq_error.1 g with g | ⟨a, -, g⟩
    · cases arith_ub g
    · exact hf a g
  have hfin : ∀ r', fromJsonIntLoop t sign limit r' true [] ≠ .error .expected_int := by
    intro r' g; rw [fromJsonIntLoop, if_pos rfl] at g; cases g
  revert h
  dsimp only
  split
  · refine hb fun _ => hb fun _ => hb fun _ => ?_
    split
    · intro g; cases g
    · exact hb fun _ => hb fun _ => hb fun _ => hfin _
  · refine hb fun _ => ?_
    split
    · intro g; cases g
    · exact hb fun _ => hb fun _ => hb fun _ => hfin _

theorem intLoop_notDigit {t : IntTy} {sign limit r : Int} {f : Bool} {c : UInt8} {s : Bytes} (hd : ¬ IsDigit c) :
    fromJsonIntLoop t sign limit r f (c :: s) = .error .expected_int := by
  rw [fromJsonIntLoop, if_neg (show ¬ ((48 : UInt8) ≤ c ∧ c ≤ 57) from hd)]

/-- Out of range is found at the end of some digits. -/
theorem intLoop_range {t : IntTy} {sign limit : Int} : ∀ (s : Bytes) (r : Int) (f : Bool),
    fromJsonIntLoop t sign limit r f s = .error .number_out_of_range →
    ∃ a b, s = a ++ b ∧ a ≠ [] ∧ (∀ c ∈ a, IsDigit c) ∧ fromJsonIntLoop t sign limit r f a = .error .number_out_of_range
  | [], r, f, h => by rw [fromJsonIntLoop] at h; split at h <;> cases h
  | c :: s, r, f, h => by
    by_cases hd : IsDigit c
    · rw [intLoop_cons] at h
      rcases bind_eq_error.1 h with h1 | ⟨r', h1, h2⟩
      · exact ⟨[c], s, rfl, by simp, by simpa using hd, by rw [intLoop_one]; exact h1⟩
      · obtain ⟨a, b, rfl, -, h3, h4⟩ := intLoop_range s r' true h2
        refine ⟨c :: a, b, rfl, by simp, ?_, ?_⟩
        · intro x hx
          rcases List.mem_cons.1 hx with rfl | hx
          · exact hd
          · exact h3 x hx
        · rw [intLoop_cons, h1, bind_ok, h4]
    · rw [intLoop_notDigit hd] at h; cases h

theorem intLoop_stays {t : IntTy} {sign limit : Int} : ∀ (a b : Bytes) (r : Int) (f : Bool),
    fromJsonIntLoop t sign limit r f a = .error .number_out_of_range → fromJsonIntLoop t sign limit r f (a ++ b) = .error .number_out_of_range
  | [], b, r, f, h => by rw [fromJsonIntLoop] at h; split at h <;> cases h
  | c :: a, b, r, f, h => by
    rw [intLoop_cons] at h
    rw [List.cons_append, intLoop_cons]
    rcases bind_eq_error.1 h with h1 | ⟨r', h1, h2⟩
    · rw [h1]; rfl
    · rw [h1, bind_ok, intLoop_stays a b r' true h2]

theorem intLoop_digits {t : IntTy} {sign limit : Int} : ∀ (s : Bytes) (r : Int) (f : Bool), (∀ c ∈ s, IsDigit c) → (f = true ∨ s ≠ []) →
    fromJsonIntLoop t sign limit r f s ≠ .error .expected_int
  | [], r, f, _, hf => by
    rw [fromJsonIntLoop, if_pos (hf.resolve_right fun h => h rfl)]
    intro h; cases h
  | c :: s, r, f, hs, _ => by
    rw [intLoop_cons]
    intro h
    rcases bind_eq_error.1 h with h1 | ⟨r', h1, h2⟩
    · exact intLoop_digit (hs c (by simp)) h1
    · exact intLoop_digits s r' true (fun x hx => hs x (by simp [hx])) (.inl rfl) h2

theorem isIntText_unique {g : Bool} {s : Bytes} {v w : Int} (h1 : IsIntText g s v) (h2 : IsIntText g s w) : v = w := by
  rcases h1 with ⟨n, ⟨-, hn, rfl⟩, rfl⟩ | ⟨-, s', n, rfl, ⟨-, hn, rfl⟩, rfl⟩ <;> rcases h2 with ⟨m, ⟨-, hm, rfl⟩, rfl⟩ | ⟨-, s'', m, h, ⟨-, hm, rfl⟩, rfl⟩
  · rfl
  · subst h
    have := (hn 45 (by simp)).1
    simp at this
  · have := (hm 45 (by simp)).1
    simp at this
  · injection h with _ h; subst h; rfl

theorem inBytes_iff {t : IntTy} {n : Nat} (hn : t.bits = 8 * n) (v : Int) : t.In v ↔ InBytes t.signed n v := by
  unfold IntTy.In IntTy.min IntTy.max InBytes
  rw [hn]
  cases t.signed <;> simp <;> omega

theorem fromJsonInt_range {t : IntTy} (ht : t.Std) {n : Nat} (hn : t.bits = 8 * n) (s : Bytes) :
    fromJsonInt t s = .error .number_out_of_range ↔ BeginsTooLarge t.signed n s := by
  constructor
  · intro h
    have fin : ∀ a b v, s = a ++ b → IsIntText t.signed a v → fromJsonInt t a = .error .number_out_of_range → BeginsTooLarge t.signed n s := by
      intro a b v hs hi he
      refine ⟨a, b, v, hs, hi, fun g => ?_⟩
      rw [(c16_from_json_int_iff t ht a v).2 ⟨hi, (inBytes_iff hn v).2 g⟩] at he
      cases he
    unfold fromJsonInt at h
    split at h
    · rename_i s' hsg
      obtain ⟨a, b, rfl, h1, h2, h3⟩ := intLoop_range _ _ _ h
      exact fin (45 :: a) b _ rfl (.inr ⟨hsg, a, _, rfl, ⟨h1, h2, rfl⟩, rfl⟩) (by unfold fromJsonInt; rw [hsg]; exact h3)
    · rename_i hno
      obtain ⟨a, b, rfl, h1, h2, h3⟩ := intLoop_range _ _ _ h
      refine fin a b _ rfl (.inl ⟨_, ⟨h1, h2, rfl⟩, rfl⟩) ?_
      unfold fromJsonInt
      split
      · have := (h2 45 (by simp)).1
        simp at this
      · exact h3
  · rintro ⟨a, b, v, rfl, hi, hout⟩
    have herr : ∀ w, fromJsonInt t a ≠ .ok w := by
      intro w g
      obtain ⟨g1, g2⟩ := (c16_from_json_int_iff t ht a w).1 g
      rw [isIntText_unique g1 hi] at g2
      exact hout ((inBytes_iff hn v).1 g2)
    cases hq : fromJsonInt t a with
    | ok w => exact absurd hq (herr w)
    | error e =>
      have he := c16_from_json_int_error t ht a e hq
      rcases hi with ⟨k, ⟨h1, h2, -⟩, -⟩ | ⟨hsg, s', k, rfl, ⟨h1, h2, -⟩, -⟩
      · have hno : ∀ s', a ++ b ≠ 45 :: s' := by
          intro s' g
          cases a with
          | nil => exact h1 rfl
          | cons c a =>
            injection g with g _
            subst g
            have := (h2 45 (by simp)).1
            simp at this
        have e1 : ∀ x, (∀ s', x ≠ 45 :: s') → fromJsonInt t x = fromJsonIntLoop t 1 t.max 0 false x := by
          intro x hx
          unfold fromJsonInt
          split
          · exact absurd rfl (hx _)
          · rfl
        have hno' : ∀ s', a ≠ 45 :: s' := fun s' g => hno (s' ++ b) (by rw [g]; rfl)
        rw [e1 a hno'] at hq
        rw [e1 _ hno]
        rcases he with rfl | rfl
        · exact absurd hq (intLoop_digits _ _ _ h2 (.inr h1))
        · exact intLoop_stays _ _ _ _ hq
      · have e1 : ∀ x, fromJsonInt t (45 :: x) = fromJsonIntLoop t (-1) t.min 0 false x := by
          intro x; unfold fromJsonInt; rw [hsg]; rfl
        rw [e1] at hq
        rw [List.cons_append, e1]
        rcases he with rfl | rfl
        · exact absurd hq (intLoop_digits _ _ _ h2 (.inr h1))
        · exact intLoop_stays _ _ _ _ hq

theorem fromJsonInt_fails {t : IntTy} (ht : t.Std) {n : Nat} (hn : t.bits = 8 * n) (s : Bytes) (m : String) :
    Fails (fromJsonInt t s) m ↔ IntFault t.signed n s m := by
  unfold IntFault Fails
  constructor
  · rintro ⟨e, -, rfl, h⟩
    rcases c16_from_json_int_error t ht s e h with rfl | rfl
    · refine .inr ⟨fun g => ?_, fun v g => ?_, rfl⟩
      · rw [(fromJsonInt_range ht hn s).2 g] at h; cases h
      · by_cases hv : t.In v
        · rw [(c16_from_json_int_iff t ht s v).2 ⟨g, hv⟩] at h; cases h
        · rw [(fromJsonInt_range ht hn s).2 ⟨s, [], v, by simp, g, fun k => hv ((inBytes_iff hn v).2 k)⟩] at h; cases h
    · exact .inl ⟨(fromJsonInt_range ht hn s).1 h, rfl⟩
  · rintro (⟨h, rfl⟩ | ⟨h, hno, rfl⟩)
    · exact ⟨_, by simp, rfl, (fromJsonInt_range ht hn s).2 h⟩
    · refine ⟨.expected_int, by simp, rfl, ?_⟩
      cases hq : fromJsonInt t s with
      | ok v => exact absurd ((c16_from_json_int_iff t ht s v).1 hq).1 (hno v)
      | error e =>
        rcases c16_from_json_int_error t ht s e hq with rfl | rfl
        · rfl
        · exact absurd ((fromJsonInt_range ht hn s).1 hq) h

theorem fails_map {α β : Type} {r : Res α} {f : α → Res β} (hf : ∀ a e, r = .ok a → f a ≠ .error e) (m : String) : Fails (r >>= f) m ↔ Fails r m := by
  unfold Fails
  constructor
  · rintro ⟨e, h1, h2, h3⟩
    rcases bind_eq_error.1 h3 with g | ⟨a, g1, g2⟩
    · exact ⟨e, h1, h2, g⟩
    · exact absurd g2 (hf a e g1)
  · rintro ⟨e, h1, h2, h3⟩
    exact ⟨e, h1, h2, by rw [h3]; rfl⟩

theorem fails_int {t : IntTy} (ht : t.Std) {n : Nat} (hn : t.bits = 8 * n) (s : Bytes) (m : String) : Fails (encInt t s) m ↔ IntFault t.signed n s m := by
  rw [← fromJsonInt_fails ht hn]
  unfold encInt
  exact fails_map (fun a e _ h => by cases h) m

theorem varuint32_not_error {n : Nat} (h : n < 2 ^ 32) (e : Err) : varuint32ToBin n ≠ .error e := by
  rw [varuint32ToBin_eq h]; intro g; cases g

theorem fails_varuint (s : Bytes) (m : String) : Fails (encVaruint s) m ↔ IntFault false 4 s m := by
  have ht : IntTy.Std ⟨false, 32⟩ := std_int _ (by decide)
  rw [← fromJsonInt_fails (t := ⟨false, 32⟩) ht rfl]
  unfold encVaruint
  refine fails_map (fun a e h => ?_) m
  have h1 := ((c16_from_json_int_iff _ ht s a).1 h).2
  have h2 := (inBytes_iff (t := ⟨false, 32⟩) (n := 4) rfl a).1 h1
  simp [InBytes] at h2
  exact varuint32_not_error (by omega) e

theorem fails_varint (s : Bytes) (m : String) : Fails (encVarint s) m ↔ IntFault true 4 s m := by
  have ht : IntTy.Std ⟨true, 32⟩ := std_int _ (by decide)
  rw [← fromJsonInt_fails (t := ⟨true, 32⟩) ht rfl]
  unfold encVarint
  refine fails_map (fun a e h => ?_) m
  unfold varint32ToBin
  exact varuint32_not_error (BitVec.isLt _) e

theorem fails_only {α : Type} {r : Res α} {e0 : Err} (h0 : e0 ≠ .ub) (h : ∀ e, r = .error e → e = e0) (m : String) :
    Fails r m ↔ (∀ b, r ≠ .ok b) ∧ m = e0.what := by
  constructor
  · rintro ⟨e, -, rfl, h3⟩
    exact ⟨fun b g => (by rw [h3] at g; cases g), by rw [h e h3]⟩
  · rintro ⟨h1, rfl⟩
    cases hr : r with
    | ok b => exact absurd hr (h1 b)
    | error e => exact ⟨e, by rw [h e hr]; exact h0, by rw [h e hr], rfl⟩

theorem fails_float {strto : Bytes → Option Nat} {n : Nat} {s : Bytes} {m : String} :
    Fails (encFloat strto n s) m ↔ (s = [] ∨ strto s = none) ∧ m = "Expected number or boolean" := by
  unfold encFloat Fails
  by_cases hs : s = []
  · rw [if_pos hs]
    constructor
    · rintro ⟨e, -, rfl, h⟩; injection h with h; subst h; exact ⟨.inl hs, rfl⟩
    · rintro ⟨-, rfl⟩; exact ⟨_, by simp, rfl, rfl⟩
  · rw [if_neg hs]
    cases hq : strto s with
    | none =>
      constructor
      · rintro ⟨e, -, rfl, h⟩; injection h with h; subst h; exact ⟨.inr rfl, rfl⟩
      · rintro ⟨-, rfl⟩; exact ⟨_, by simp, rfl, rfl⟩
    | some v =>
      constructor
      · rintro ⟨e, -, rfl, h⟩; cases h
      · rintro ⟨h | h, -⟩
        · exact absurd h hs
        · cases h

theorem word_error {n : Nat} {parse : Bytes → Option Nat} {e0 e : Err} {s : Bytes} (h : encWord n parse e0 s = .error e) : e = e0 := by
  unfold encWord at h
  split at h <;> cases h
  rfl

theorem fails_fixed {n : Nat} {s : Bytes} {m : String} : Fails (encFixed n s) m ↔ HexFault n s m := by
  have hh : ∀ b, HexText s b ↔ fromJsonHex s = .ok b := fun b => by rw [hexText_iff, c03_unhex_same]
  have he : ∀ e, fromJsonHex s = .error e → e = .expected_hex_string := by
    intro e h
    unfold fromJsonHex at h
    split at h
    · cases h; rfl
    · split at h <;> cases h
      rfl
  unfold encFixed HexFault Fails
  simp only [hh]
  constructor
  · rintro ⟨e, -, rfl, h⟩
    rcases bind_eq_error.1 h with g | ⟨b, g1, g2⟩
    · have := he e g
      subst this
      exact .inl ⟨fun b g' => (by rw [g] at g'; cases g'), rfl⟩
    · by_cases hl : b.length = n
      · rw [show (b.length == n) = true by simpa using hl] at g2
        cases g2
      · rw [show (b.length == n) = false by simpa using hl] at g2
        injection g2 with g2
        subst g2
        exact .inr ⟨⟨b, g1, hl⟩, rfl⟩
  · rintro (⟨h, rfl⟩ | ⟨⟨b, h1, h2⟩, rfl⟩)
    · cases hq : fromJsonHex s with
      | ok b => exact absurd hq (h b)
      | error e => exact ⟨e, by rw [he e hq]; simp, by rw [he e hq]; rfl, rfl⟩
    · refine ⟨.hex_string_incorrect_length, by simp, rfl, ?_⟩
      rw [h1, bind_ok, show (b.length == n) = false by simpa using h2]
      rfl

theorem fails_bytes {s : Bytes} (hs : s.length < 2147483648) {m : String} :
    Fails (encBytes s) m ↔ (∀ b, ¬ HexText s b) ∧ m = "Expected string containing hex" := by
  have e1 : ∀ e, encBytes s = .error e → e = .expected_hex_string := by
    intro e h
    unfold encBytes at h
    rcases bind_eq_error.1 h with g | ⟨-, -, g⟩
    · unfold check at g; split at g <;> cases g
      rfl
    · rcases bind_eq_error.1 g with g | ⟨b, -, g⟩
      · exact absurd g (varuint32_not_error (by omega) e)
      · split at g <;> cases g
        rfl
  rw [fails_only (by simp) e1]
  refine and_congr ?_ Iff.rfl
  constructor
  · intro h b hb
    have hl : b.length ≤ s.length := by
      clear h hs e1
      induction hb with
      | nil => simp
      | cons _ _ _ _ ih => simp only [List.length_cons] at *; omega
    exact h _ (bytes_stored.2 ⟨_, _, hb, size_iff.2 (varuint32ToBin_eq (by omega)), rfl⟩)
  · intro h b hb
    obtain ⟨-, a, g, -⟩ := bytes_stored.1 hb
    exact h a g

theorem fails_string {s : Bytes} (hs : s.length < 2147483648) {m : String} : ¬ Fails (encString s) m := by
  rintro ⟨e, -, -, h⟩
  unfold encString at h
  rcases bind_eq_error.1 h with g | ⟨b, -, g⟩
  · exact absurd g (varuint32_not_error (by omega) e)
  · cases g

theorem asset_error {s : Bytes} {e : Err} (h : encAsset s = .error e) : e = .expected_symbol_code := by
  unfold encAsset at h
  split at h <;> cases h
  rfl

end Abieos
