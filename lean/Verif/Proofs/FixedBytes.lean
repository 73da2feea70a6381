import Verif.Proofs.BigEndian
import Verif.Model.FixedBytes
/-
Splitting and joining words.
-/
namespace Abieos
open Spec

/-- the bytes of words, most significant first -/
def flatWords (w : Nat) (ws : List Nat) : Bytes := ws.flatMap (beBytes w)

theorem flatWords_nil (w : Nat) : flatWords w [] = [] := rfl
theorem flatWords_cons (w x : Nat) (ws : List Nat) : flatWords w (x :: ws) = beBytes w x ++ flatWords w ws := rfl
theorem flatWords_append (w : Nat) (a b : List Nat) : flatWords w (a ++ b) = flatWords w a ++ flatWords w b := by simp [flatWords]

theorem flatWords_length (w : Nat) (ws : List Nat) : (flatWords w ws).length = ws.length * w := by
  induction ws with
  | nil => simp [flatWords]
  | cons x ws ih => rw [flatWords_cons, List.length_append, beBytes_length, ih, List.length_cons, Nat.succ_mul]; omega

theorem flatWords_take (w n : Nat) (ws : List Nat) : flatWords w (ws.take n) = (flatWords w ws).take (n * w) := by
  induction ws generalizing n with
  | nil => simp [flatWords]
  | cons x ws ih =>
    cases n with
    | zero => simp [flatWords]
    | succ n =>
      rw [List.take_succ_cons, flatWords_cons, flatWords_cons, ih, List.take_append, beBytes_length, Nat.succ_mul,
        List.take_of_length_le (l := beBytes w x) (by rw [beBytes_length]; omega), show n * w + w - w = n * w by omega]

theorem flatWords_drop (w n : Nat) (ws : List Nat) : flatWords w (ws.drop n) = (flatWords w ws).drop (n * w) := by
  induction ws generalizing n with
  | nil => simp [flatWords]
  | cons x ws ih =>
    cases n with
    | zero => simp [flatWords]
    | succ n =>
      rw [List.drop_succ_cons, flatWords_cons, ih, List.drop_append, beBytes_length, Nat.succ_mul,
        List.drop_of_length_le (l := beBytes w x) (by rw [beBytes_length]; omega), show n * w + w - w = n * w by omega, List.nil_append]

theorem flatWords_zero (w n : Nat) : flatWords w (List.replicate n 0) = List.replicate (n * w) 0 := by
  induction n with
  | zero => simp [flatWords]
  | succ n ih => rw [List.replicate_succ, flatWords_cons, ih, beBytes_zero, Nat.succ_mul, Nat.add_comm, List.replicate_append_replicate]

theorem flatWords_inj {w : Nat} : ∀ {a b : List Nat}, (∀ x ∈ a, x < 256 ^ w) → (∀ x ∈ b, x < 256 ^ w) → a.length = b.length → flatWords w a = flatWords w b → a = b
  | [], [], _, _, _, _ => rfl
  | x :: a, y :: b, ha, hb, hl, h => by
    rw [flatWords_cons, flatWords_cons] at h
    have h1 := List.append_inj_left h (by rw [beBytes_length, beBytes_length])
    have h2 := List.append_inj_right h (by rw [beBytes_length, beBytes_length])
    rw [beBytes_inj (ha x (by simp)) (hb y (by simp)) h1,
      flatWords_inj (fun z hz => ha z (by simp [hz])) (fun z hz => hb z (by simp [hz])) (by simpa using hl) h2]
  | [], _ :: _, _, _, hl, _ => by cases hl
  | _ :: _, [], _, _, hl, _ => by cases hl

theorem wordsAre_iff {w : Nat} : ∀ {ws : List Nat} {b : Bytes}, WordsAre w ws b ↔ b = flatWords w ws ∧ ∀ x ∈ ws, x < 256 ^ w
  | [], b => by simp [WordsAre, flatWords]
  | x :: ws, b => by
    rw [WordsAre, flatWords_cons]
    constructor
    · rintro ⟨c, d, rfl, rfl, rfl, h⟩
      obtain ⟨rfl, h2⟩ := wordsAre_iff.1 h
      refine ⟨by rw [beBytes_beVal], fun y hy => ?_⟩
      rcases List.mem_cons.1 hy with rfl | hy
      · exact beVal_lt c
      · exact h2 y hy
    · rintro ⟨rfl, h⟩
      refine ⟨_, _, rfl, beBytes_length _ _, ?_, wordsAre_iff.2 ⟨rfl, fun y hy => h y (by simp [hy])⟩⟩
      rw [beVal_beBytes, Nat.mod_eq_of_lt (h x (by simp))]

/-! ## Splitting -/

theorem pow_256 (n : Nat) : 256 ^ n = 2 ^ (8 * n) := by rw [Nat.pow_mul]

theorem flatWords_split (w t : Nat) : ∀ k, flatWords w ((List.range k).map fun i => (t >>> (8 * w * (k - i - 1))) % 256 ^ w) = beBytes (k * w) t
  | 0 => by simp [flatWords, beBytes, leBytes]
  | k + 1 => by
    rw [List.range_succ_eq_map, List.map_cons, List.map_map, flatWords_cons, beBytes_mod,
      show (k + 1) * w = w + k * w by rw [Nat.succ_mul, Nat.add_comm], beBytes_append]
    have h : (List.range k).map ((fun i => (t >>> (8 * w * (k + 1 - i - 1))) % 256 ^ w) ∘ Nat.succ) =
        (List.range k).map fun i => (t >>> (8 * w * (k - i - 1))) % 256 ^ w := by
      apply List.map_congr_left
      intro i _
      simp only [Function.comp, Nat.succ_eq_add_one, Nat.add_sub_add_right]
    rw [h, flatWords_split w t k, Nat.shiftRight_eq_div_pow, pow_256, show 8 * w * (k + 1 - 0 - 1) = 8 * (k * w) by
      rw [show k + 1 - 0 - 1 = k by omega, Nat.mul_assoc, Nat.mul_comm w]]

theorem writeBe_length (wT wU t room : Nat) : (writeBe wT wU t room).length = min room (wT / wU) := by simp [writeBe]

theorem writeBe_lt {wT wU t room x : Nat} (h : x ∈ writeBe wT wU t room) : x < 256 ^ wU := by
  unfold writeBe at h
  obtain ⟨i, -, rfl⟩ := List.mem_map.1 h
  exact Nat.mod_lt _ (Nat.pow_pos (by decide))

theorem flatWords_writeBe {wT wU : Nat} (h : wU ∣ wT) (t room : Nat) : flatWords wU (writeBe wT wU t room) = (beBytes wT t).take (room * wU) := by
  unfold writeBe
  rw [List.map_take, flatWords_take, flatWords_split, Nat.div_mul_cancel h]

theorem flatWords_splitWords {wT wU : Nat} (h : wU ∣ wT) : ∀ ts room, flatWords wU (splitWords wT wU ts room) = (flatWords wT ts).take (room * wU)
  | [], room => by simp [splitWords, flatWords]
  | t :: ts, room => by
    rw [splitWords, flatWords_append, flatWords_writeBe h, flatWords_splitWords h, flatWords_cons, List.take_append, writeBe_length, beBytes_length]
    congr 2
    obtain ⟨k, rfl⟩ := h
    rcases Nat.eq_zero_or_pos wU with rfl | hu
    · simp
    · rw [Nat.mul_div_cancel_left _ hu, Nat.sub_mul]
      rcases Nat.le_total room k with h | h
      · rw [Nat.min_eq_left h]
        have := Nat.mul_le_mul_right wU h
        rw [Nat.mul_comm wU k]; omega
      · rw [Nat.min_eq_right h, Nat.mul_comm wU k]

theorem splitWords_lt {wT wU x : Nat} : ∀ {ts room}, x ∈ splitWords wT wU ts room → x < 256 ^ wU
  | [], _, h => by cases h
  | t :: ts, room, h => by
    rw [splitWords] at h
    rcases List.mem_append.1 h with h | h
    · exact writeBe_lt h
    · exact splitWords_lt h

/-! ## Joining -/

/-- the number with `n` digits in base `256 ^ w`, the most significant first, missing ones zero -/
def joined (w : Nat) : Nat → List Nat → Nat
  | 0, _ => 0
  | _, [] => 0
  | n + 1, x :: s => x * 256 ^ (w * n) + joined w n s

theorem joined_lt (w : Nat) : ∀ n s, (∀ x ∈ s, x < 256 ^ w) → joined w n s < 256 ^ (w * n)
  | 0, s, _ => by simp [joined]
  | n + 1, [], _ => by rw [joined]; exact Nat.pow_pos (by decide); simp
  | n + 1, x :: s, h => by
    have h1 := joined_lt w n s fun y hy => h y (by simp [hy])
    have h2 := h x (by simp)
    rw [joined, Nat.mul_succ, Nat.pow_add]
    calc x * 256 ^ (w * n) + joined w n s < x * 256 ^ (w * n) + 256 ^ (w * n) := by omega
      _ = (x + 1) * 256 ^ (w * n) := by rw [Nat.succ_mul]
      _ ≤ 256 ^ w * 256 ^ (w * n) := Nat.mul_le_mul_right _ h2
      _ = _ := Nat.mul_comm _ _

theorem readBeLoop_eq (wT wU : Nat) : ∀ n src q, (∀ x ∈ src, x < 256 ^ wU) → wU * n ≤ wT →
    readBeLoop wT wU n src (256 ^ (wU * n) * q) = (256 ^ (wU * n) * q + joined wU n src, src.drop n)
  | 0, src, q, _, _ => by simp [readBeLoop, joined]
  | n + 1, [], q, _, _ => by simp [readBeLoop, joined]
  | n + 1, x :: s, q, h, hn => by
    have hx := h x (by simp)
    rw [readBeLoop, joined, List.drop_succ_cons]
    have e : (x <<< (8 * wU * n)) % 256 ^ wT = x * 256 ^ (wU * n) := by
      rw [Nat.shiftLeft_eq, Nat.mul_assoc 8, ← pow_256]
      refine Nat.mod_eq_of_lt (Nat.lt_of_lt_of_le ?_ (Nat.pow_le_pow_right (by decide) hn))
      rw [Nat.mul_succ, Nat.pow_add, Nat.mul_comm (256 ^ (wU * n))]
      exact Nat.mul_lt_mul_of_pos_right hx (Nat.pow_pos (by decide))
    have e2 : 256 ^ (wU * (n + 1)) * q ||| x * 256 ^ (wU * n) = 256 ^ (wU * n) * (256 ^ wU * q + x) := by
      have hlt : x * 256 ^ (wU * n) < 2 ^ (8 * (wU * (n + 1))) := by
        rw [← pow_256, Nat.mul_succ, Nat.pow_add, Nat.mul_comm (256 ^ (wU * n))]
        exact Nat.mul_lt_mul_of_pos_right hx (Nat.pow_pos (by decide))
      rw [pow_256 (wU * (n + 1)), ← Nat.two_pow_add_eq_or_of_lt hlt, ← pow_256, Nat.mul_succ, Nat.pow_add, Nat.mul_add, Nat.mul_assoc,
        Nat.mul_comm x]
    rw [e, e2, readBeLoop_eq wT wU n s _ (fun y hy => h y (by simp [hy])) (by rw [Nat.mul_succ] at hn; omega)]
    rw [Nat.mul_add, Nat.mul_succ, Nat.pow_add, Nat.mul_assoc, Nat.add_assoc, Nat.mul_comm x]

theorem readBe_eq {wT wU : Nat} (src : List Nat) (h : ∀ x ∈ src, x < 256 ^ wU) : readBe wT wU src = (joined wU (wT / wU) src, src.drop (wT / wU)) := by
  unfold readBe
  have := readBeLoop_eq wT wU (wT / wU) src 0 h (Nat.mul_div_le wT wU)
  simpa using this

theorem beBytes_joined (w : Nat) : ∀ n s, (∀ x ∈ s, x < 256 ^ w) → beBytes (w * n) (joined w n s) = flatWords w (s.take n) ++ List.replicate ((n - s.length) * w) 0
  | 0, s, _ => by simp [beBytes, leBytes, flatWords]
  | n + 1, [], _ => by rw [joined, beBytes_zero]; simp [flatWords, Nat.mul_comm]; simp
  | n + 1, x :: s, h => by
    have h1 := joined_lt w n s fun y hy => h y (by simp [hy])
    have hp : 0 < 256 ^ (w * n) := Nat.pow_pos (by decide)
    rw [joined, Nat.mul_succ, Nat.add_comm (w * n), beBytes_append, List.take_succ_cons, flatWords_cons, List.append_assoc, List.length_cons, Nat.add_sub_add_right,
      ← beBytes_joined w n s fun y hy => h y (by simp [hy])]
    congr 1
    · rw [Nat.add_comm, Nat.add_mul_div_right _ _ hp, Nat.div_eq_of_lt h1, Nat.zero_add]
    · rw [← beBytes_mod, Nat.add_comm, Nat.add_mul_mod_self_right, Nat.mod_eq_of_lt h1]

theorem flatWords_joinWords {wT wU : Nat} (hd : wT ∣ wU) : ∀ n ts m, (∀ x ∈ ts, x < 256 ^ wT) → n * wU ≤ m →
    flatWords wU (joinWords wT wU n ts) = (flatWords wT ts ++ List.replicate m 0).take (n * wU)
  | 0, ts, m, _, _ => by simp [joinWords, flatWords]
  | n + 1, ts, m, h, hm => by
    have hk : wT * (wU / wT) = wU := Nat.mul_div_cancel' hd
    have hk' : wU / wT * wT = wU := Nat.div_mul_cancel hd
    rw [joinWords, readBe_eq ts h]
    simp only
    rw [flatWords_cons, Nat.succ_mul, Nat.add_comm (n * wU), List.take_add]
    rw [Nat.succ_mul] at hm
    have e1 : beBytes wU (joined wT (wU / wT) ts) = (flatWords wT ts ++ List.replicate m 0).take wU := by
      have := beBytes_joined wT (wU / wT) ts h
      rw [hk] at this
      rw [this, flatWords_take, hk', List.take_append, List.take_replicate, flatWords_length, Nat.min_eq_left (by omega), Nat.sub_mul, hk']
    have e2 : (flatWords wT ts ++ List.replicate m 0).drop wU = flatWords wT (ts.drop (wU / wT)) ++ List.replicate (m - (wU - ts.length * wT)) 0 := by
      rw [List.drop_append, flatWords_drop, hk', List.drop_replicate, flatWords_length]
    rw [e1, e2]
    congr 1
    exact flatWords_joinWords hd n _ _ (fun x hx => h x (List.mem_of_mem_drop hx)) (by omega)

theorem joinWords_length (wT wU : Nat) : ∀ n ts, (joinWords wT wU n ts).length = n
  | 0, _ => rfl
  | n + 1, ts => by rw [joinWords]; simp only; rw [List.length_cons, joinWords_length]

theorem joinWords_lt {wT wU : Nat} (hd : wT ∣ wU) : ∀ n ts, (∀ x ∈ ts, x < 256 ^ wT) → ∀ x ∈ joinWords wT wU n ts, x < 256 ^ wU
  | 0, _, _, x, hx => by cases hx
  | n + 1, ts, h, x, hx => by
    rw [joinWords, readBe_eq ts h] at hx
    rcases List.mem_cons.1 hx with rfl | hx
    · have := joined_lt wT (wU / wT) ts h
      rwa [Nat.mul_div_cancel' hd] at this
    · exact joinWords_lt hd n _ (fun x hx => h x (List.mem_of_mem_drop hx)) x hx

/-! ## Any conversion -/

/-- Word sizes of which one divides the other, as the sizes 1, 2, 4, 8 and 16 do. -/
def Divide (a b : Nat) : Prop := 0 < a ∧ 0 < b ∧ (a ∣ b ∨ b ∣ a)

theorem countWords_le {size w : Nat} (h : 0 < w) : size ≤ countWords size w * w := by
  unfold countWords
  have := Nat.div_add_mod (size + w - 1) w
  have := Nat.mod_lt (size + w - 1) h
  rw [Nat.mul_comm]; omega

theorem countWords_one (size : Nat) : countWords size 1 = size := by simp [countWords]

theorem flatWords_convertArray {size wT wU : Nat} (hd : Divide wT wU) {ts : List Nat} (h : ∀ x ∈ ts, x < 256 ^ wT) (m : Nat) (hm : countWords size wU * wU ≤ m)
    (hl : ts.length = countWords size wT) :
    flatWords wU (convertArray size wT wU ts) = (flatWords wT ts ++ List.replicate m 0).take (countWords size wU * wU) := by
  unfold convertArray
  split
  · rename_i hgt
    have hdv : wU ∣ wT := by
      rcases hd.2.2 with h | h
      · exact absurd (Nat.le_of_dvd hd.2.1 h) (by omega)
      · exact h
    have hle : countWords size wU * wU ≤ (flatWords wT ts).length := by
      rw [flatWords_length, hl]
      obtain ⟨k, rfl⟩ := hdv
      have h1 : countWords size wU ≤ countWords size (wU * k) * k := by
        have := countWords_le (size := size) hd.1
        have h2 : size ≤ countWords size (wU * k) * k * wU := by rw [Nat.mul_assoc, Nat.mul_comm k]; exact this
        generalize countWords size (wU * k) * k = c at h2
        unfold countWords
        refine Nat.lt_succ_iff.1 ((Nat.div_lt_iff_lt_mul hd.2.1).2 ?_)
        rw [Nat.succ_mul]
        have := hd.2.1
        omega
      calc countWords size wU * wU ≤ countWords size (wU * k) * k * wU := Nat.mul_le_mul_right _ h1
        _ = _ := by rw [Nat.mul_assoc, Nat.mul_comm k]
    rw [flatWords_splitWords hdv, List.take_append_of_le_length hle]
  · rename_i hgt
    have hdv : wT ∣ wU := by
      rcases hd.2.2 with h | h
      · exact h
      · have := Nat.le_of_dvd hd.1 h
        have : wT = wU := by omega
        rw [this]; exact Nat.dvd_refl _
    exact flatWords_joinWords hdv _ _ _ h hm

theorem convertArray_lt {size wT wU : Nat} (hd : Divide wT wU) {ts : List Nat} (h : ∀ x ∈ ts, x < 256 ^ wT) : ∀ x ∈ convertArray size wT wU ts, x < 256 ^ wU := by
  intro x hx
  unfold convertArray at hx
  split at hx
  · exact splitWords_lt hx
  · rename_i hgt
    have hdv : wT ∣ wU := by
      rcases hd.2.2 with h | h
      · exact h
      · have := Nat.le_of_dvd hd.1 h
        have : wT = wU := by omega
        rw [this]; exact Nat.dvd_refl _
    exact joinWords_lt hdv _ _ h x hx

theorem convertArray_length {size wT wU : Nat} (hd : Divide wT wU) {ts : List Nat} (h : ∀ x ∈ ts, x < 256 ^ wT) (hl : ts.length = countWords size wT) :
    (convertArray size wT wU ts).length = countWords size wU := by
  have h1 := congrArg List.length (flatWords_convertArray hd h _ (Nat.le_refl _) hl)
  rw [flatWords_length, List.length_take, List.length_append, List.length_replicate] at h1
  have : (convertArray size wT wU ts).length * wU = countWords size wU * wU := by omega
  exact Nat.eq_of_mul_eq_mul_right hd.2.1 this

end Abieos
