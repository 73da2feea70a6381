import Verif.Spec.Ripemd160
import Verif.Proofs.Ripemd160
import Verif.Props.Keys
/-! # C44: RIPEMD-160 streaming -/
namespace Abieos
open Spec Ripemd

theorem rmdBlocks_short {h : RmdVars} {m : Bytes} (hm : m.length < 64) : rmdBlocks h m = h := by rw [rmdBlocks, if_pos hm]

theorem rmdBlocks_cons {h : RmdVars} {b m : Bytes} (hb : b.length = 64) : rmdBlocks h (b ++ m) = rmdBlocks (rmdCompress h b) m := by
  rw [rmdBlocks, if_neg (by simp; omega), ← hb, List.take_left', List.drop_left'] <;> rfl

theorem rmdBlocks_append (n : Nat) : ∀ {h : RmdVars} {a m : Bytes}, a.length = 64 * n → rmdBlocks h (a ++ m) = rmdBlocks (rmdBlocks h a) m := by
  induction n with
  | zero =>
    intro h a m ha
    have : a = [] := List.length_eq_zero_iff.1 (by omega)
    subst this
    rw [rmdBlocks_short (m := []) (by simp)]; rfl
  | succ n ih =>
    intro h a m ha
    have h1 : (a.take 64).length = 64 := by simp; omega
    have h2 : (a.drop 64).length = 64 * n := by simp; omega
    rw [← List.take_append_drop 64 a, List.append_assoc, rmdBlocks_cons h1, ih h2, rmdBlocks_cons h1]

/-- the state reached after the message `m` -/
structure Absorbed (m : Bytes) (s : State) : Prop where
  pos : s.bufpos = m.length % 64
  h : s.h = rmdList (rmdBlocks rmdInitial m)
  buf : s.buf = m.drop (m.length / 64 * 64) ++ List.replicate (64 - m.length % 64) 0
  length : s.length = m.length * 8 % 2 ^ 64

theorem absorbed_init : Absorbed [] init := ⟨rfl, by rw [rmdBlocks_short (by simp)]; rfl, rfl, rfl⟩

/-- writing inside the zero part of the buffer -/
theorem memcpyAt_pend {pend src : Bytes} {k : Nat} (hk : src.length ≤ k) :
    memcpyAt (pend ++ List.replicate k 0) pend.length src = pend ++ src ++ List.replicate (k - src.length) 0 := by
  unfold memcpyAt
  have h1 : (pend ++ List.replicate k (0:UInt8)).take pend.length = pend := by simp
  have h2 : (pend ++ List.replicate k (0:UInt8)).drop (pend.length + src.length) = List.replicate (k - src.length) 0 := by
    rw [List.drop_append]; simp
  rw [h1, h2]

theorem div_mul_add_mod (m : Bytes) : (m.drop (m.length / 64 * 64)).length = m.length % 64 := by
  simp only [List.length_drop]; omega

theorem absorbed_update : ∀ (n : Nat) (p m : Bytes) (s : State), p.length ≤ n → Absorbed m s → Absorbed (m ++ p) (update s p) := by
  intro n
  induction n with
  | zero =>
    intro p m s hp hs
    have : p = [] := List.length_eq_zero_iff.1 (by omega)
    subst this
    rw [update, dif_pos rfl, List.append_nil]; exact hs
  | succ n ih =>
    intro p m s hp hs
    by_cases hne : p = []
    · subst hne
      rw [update, dif_pos rfl, List.append_nil]; exact hs
    · have hpos := hs.pos
      have hlt : m.length % 64 < 64 := Nat.mod_lt _ (by decide)
      have hplen := List.length_pos_iff.2 hne
      have hpend := div_mul_add_mod m
      rw [update, dif_neg hne, dif_neg (by omega)]
      simp only
      split
      · rename_i hge
        have hneed : 64 - s.bufpos = 64 - m.length % 64 := by rw [hpos]
        rw [hneed] at hge ⊢
        have key : Absorbed (m ++ p.take (64 - m.length % 64)) (compressState { s with
            buf := memcpyAt s.buf s.bufpos (p.take (64 - m.length % 64)), bufpos := s.bufpos + (64 - m.length % 64),
            length := (s.length + (64 - m.length % 64) * 8) % 2 ^ 64 }) := by
          have hl : (m ++ p.take (64 - m.length % 64)).length = 64 * (m.length / 64 + 1) := by
            simp only [List.length_append, List.length_take]; omega
          have hbuf : memcpyAt s.buf s.bufpos (p.take (64 - m.length % 64)) = m.drop (m.length / 64 * 64) ++ p.take (64 - m.length % 64) := by
            rw [hs.buf, hpos, ← hpend, memcpyAt_pend (by simp)]
            have : 64 - (m.drop (m.length / 64 * 64)).length - (p.take (64 - (m.drop (m.length / 64 * 64)).length)).length = 0 := by
              simp only [List.length_take]; rw [hpend]; omega
            rw [this]; simp
          refine ⟨?_, ?_, ?_, ?_⟩
          · rw [hl]; simp [compressState]
          · simp only [compressState]
            rw [hbuf, hs.h]
            have e0 : m ++ p.take (64 - m.length % 64) = m.take (m.length / 64 * 64) ++ (m.drop (m.length / 64 * 64) ++ p.take (64 - m.length % 64)) := by
              rw [← List.append_assoc, List.take_append_drop]
            rw [e0, rmdBlocks_append (m.length / 64) (by simp; omega)]
            have hb64 : (m.drop (m.length / 64 * 64) ++ p.take (64 - m.length % 64)).length = 64 := by
              simp only [List.length_append, List.length_take]; rw [hpend]; omega
            have e : rmdBlocks rmdInitial m = rmdBlocks rmdInitial (m.take (m.length / 64 * 64)) := by
              conv_lhs => rw [← List.take_append_drop (m.length / 64 * 64) m]
              rw [rmdBlocks_append (m.length / 64) (by simp; omega), rmdBlocks_short (m := m.drop _) (by rw [hpend]; omega)]
            rw [e]
            have := rmdBlocks_cons (h := rmdBlocks rmdInitial (m.take (m.length / 64 * 64))) (m := []) hb64
            rw [List.append_nil] at this
            rw [this, rmdBlocks_short (m := ([] : Bytes)) (by simp), compress_eq]
          · rw [hl]
            simp only [compressState]
            have e1 : 64 * (m.length / 64 + 1) % 64 = 0 := by omega
            have e2 : 64 * (m.length / 64 + 1) / 64 * 64 = 64 * (m.length / 64 + 1) := by omega
            rw [e1, e2, ← hl]; simp
          · simp only [compressState]
            rw [hs.length, hl]
            omega
        have := ih (p.drop (64 - m.length % 64)) _ _ (by simp; omega) key
        rw [List.append_assoc, List.take_append_drop] at this
        exact this
      · rename_i hlt'
        have e1 : (m ++ p).length / 64 = m.length / 64 := by simp only [List.length_append]; omega
        have e2 : (m ++ p).length % 64 = m.length % 64 + p.length := by simp only [List.length_append]; omega
        refine ⟨?_, ?_, ?_, ?_⟩
        · simp only; rw [e2, hpos]
        · simp only
          rw [hs.h]
          conv_lhs => rw [← List.take_append_drop (m.length / 64 * 64) m]
          conv_rhs => rw [← List.take_append_drop (m.length / 64 * 64) m, List.append_assoc]
          rw [rmdBlocks_append (m.length / 64) (by simp; omega), rmdBlocks_append (m.length / 64) (by simp; omega),
            rmdBlocks_short (m := m.drop _) (by rw [hpend]; omega), rmdBlocks_short (m := m.drop _ ++ p) (by rw [List.length_append, hpend]; omega)]
        · simp only
          rw [e1, e2, hs.buf, hpos, ← hpend, memcpyAt_pend (by rw [hpend]; omega), List.drop_append_of_le_length (by omega)]
          congr 2
          omega
        · simp only
          rw [hs.length, List.length_append]
          omega

theorem absorbed_updates (chunks : List Bytes) (m : Bytes) (s : State) (h : Absorbed m s) : Absorbed (m ++ chunks.flatten) (chunks.foldl update s) := by
  induction chunks generalizing m s with
  | nil => simpa using h
  | cons c l ih =>
    rw [List.foldl_cons, List.flatten_cons, ← List.append_assoc]
    exact ih _ _ (absorbed_update c.length c m s (Nat.le_refl _) h)

theorem memcpy_length_words {z : Bytes} (hz : z.length = 64) (v : Nat) (hv : v < 2 ^ 64) :
    memcpyAt (memcpyAt z 56 (leBytes 4 (v % 2 ^ 32))) 60 (leBytes 4 (v / 2 ^ 32)) = z.take 56 ++ leBytes 8 v := by
  have e8 : leBytes 8 v = leBytes 4 (v % 2 ^ 32) ++ leBytes 4 (v / 2 ^ 32) := by
    rw [show (8:Nat) = 4 + 4 from rfl, leBytes_append, show (2:Nat) ^ 32 = 256 ^ 4 from rfl, leBytes_mod]
  have l4 : ∀ x, (leBytes 4 x).length = 4 := leBytes_length 4
  have l56 : (z.take 56).length = 56 := by simp; omega
  have inner : memcpyAt z 56 (leBytes 4 (v % 2 ^ 32)) = (z.take 56 ++ leBytes 4 (v % 2 ^ 32)) ++ z.drop 60 := by
    unfold memcpyAt; rw [l4]
  rw [inner, e8]
  unfold memcpyAt
  have h60 : (z.take 56 ++ leBytes 4 (v % 2 ^ 32)).length = 60 := by rw [List.length_append, l56, l4]
  have t1 : ((z.take 56 ++ leBytes 4 (v % 2 ^ 32)) ++ z.drop 60).take 60 = z.take 56 ++ leBytes 4 (v % 2 ^ 32) := by
    rw [List.take_append_of_le_length (by omega), List.take_of_length_le (by omega)]
  have t2 : ((z.take 56 ++ leBytes 4 (v % 2 ^ 32)) ++ z.drop 60).drop (60 + (leBytes 4 (v / 2 ^ 32)).length) = [] := by
    apply List.drop_eq_nil_of_le
    simp only [List.length_append, l56, l4, List.length_drop]; omega
  rw [t1, t2, List.append_nil, List.append_assoc]

/-- The state after the message, in terms of whole blocks and the rest. -/
theorem digest_absorbed {m : Bytes} {s : State} (hs : Absorbed m s) : digest s = rmd160 m := by
  have hpend := div_mul_add_mod m
  have hlt : m.length % 64 < 64 := Nat.mod_lt _ (by decide)
  have hv : s.length < 2 ^ 64 := by rw [hs.length]; exact Nat.mod_lt _ (by decide)
  obtain ⟨V, hV⟩ : ∃ V, V = rmdBlocks rmdInitial m := ⟨_, rfl⟩
  have hsh : s.h = rmdList V := by rw [hV]; exact hs.h
  -- the padded message: the whole blocks, then the rest
  have hsplit : rmdBlocks rmdInitial (rmdPad m) = rmdBlocks V (m.drop (m.length / 64 * 64) ++ 0x80 ::
      (List.replicate ((119 - m.length % 64) % 64) 0 ++ leBytes 8 (m.length * 8 % 2 ^ 64))) := by
    unfold rmdPad
    conv_lhs => rw [← List.take_append_drop (m.length / 64 * 64) m, List.append_assoc]
    rw [rmdBlocks_append (m.length / 64) (by simp; omega)]
    have e : rmdBlocks rmdInitial m = rmdBlocks rmdInitial (m.take (m.length / 64 * 64)) := by
      conv_lhs => rw [← List.take_append_drop (m.length / 64 * 64) m]
      rw [rmdBlocks_append (m.length / 64) (by simp; omega), rmdBlocks_short (m := m.drop _) (by rw [hpend]; omega)]
    rw [hV, e, List.take_append_drop]
  unfold rmd160 rmdOutput
  rw [hsplit]
  unfold digest
  simp only
  have hbuf : memcpyAt s.buf s.bufpos [0x80] = m.drop (m.length / 64 * 64) ++ [0x80] ++ List.replicate (63 - m.length % 64) 0 := by
    rw [hs.buf, hs.pos, ← hpend, memcpyAt_pend (by rw [hpend]; simp; omega)]
    congr 2
    simp only [List.length_singleton]; omega
  rw [hbuf, ← hs.length]
  have hfl : ∀ v : RmdVars, ([v.a, v.b, v.c, v.d, v.e] : List UInt32) = rmdList v := fun _ => rfl
  rw [hfl]
  congr 1
  generalize hq : m.drop (m.length / 64 * 64) = q at *
  have l8 : (leBytes 8 s.length).length = 8 := leBytes_length 8 _
  by_cases hbig : s.bufpos + 1 > 56
  · rw [if_pos hbig]
    simp only [compressState]
    rw [memcpy_length_words (by simp) _ hv]
    rw [hs.pos] at hbig
    have hb : (q ++ [0x80] ++ List.replicate (63 - m.length % 64) (0:UInt8)).length = 64 := by simp; omega
    have e : q ++ 0x80 :: (List.replicate ((119 - m.length % 64) % 64) 0 ++ leBytes 8 s.length) =
        (q ++ [0x80] ++ List.replicate (63 - m.length % 64) 0) ++ (List.replicate 56 0 ++ leBytes 8 s.length) := by
      rw [show (119 - m.length % 64) % 64 = (63 - m.length % 64) + 56 by omega, List.replicate_add]
      simp [List.append_assoc]
    rw [e, rmdBlocks_cons hb]
    have hb2 : (List.replicate 56 (0:UInt8) ++ leBytes 8 s.length).length = 64 := by simp [l8]
    have := rmdBlocks_cons (h := rmdCompress V (q ++ [0x80] ++ List.replicate (63 - m.length % 64) 0)) (m := []) hb2
    rw [List.append_nil] at this
    rw [this, rmdBlocks_short (m := ([] : Bytes)) (by simp), hsh, compress_eq, compress_eq]
    congr 1
  · rw [if_neg hbig]
    rw [hs.pos] at hbig
    have hb : (q ++ [0x80] ++ List.replicate (63 - m.length % 64) (0:UInt8)).length = 64 := by simp; omega
    rw [memcpy_length_words hb _ hv]
    have e : q ++ 0x80 :: (List.replicate ((119 - m.length % 64) % 64) 0 ++ leBytes 8 s.length) =
        ((q ++ [0x80] ++ List.replicate (63 - m.length % 64) 0).take 56 ++ leBytes 8 s.length) ++ [] := by
      rw [List.take_append, List.take_of_length_le (by simp; omega), List.take_replicate]
      have : min (56 - (q ++ [0x80]).length) (63 - m.length % 64) = (119 - m.length % 64) % 64 := by simp; omega
      rw [this]
      simp [List.append_assoc]
    rw [e, rmdBlocks_cons (by simp [l8]; omega), rmdBlocks_short (by simp), hsh, compress_eq]

/-- **C44.** Whatever the chunks a message is fed in, the digest is that of the message: RIPEMD-160 as its paper defines it. (A chunk of 2^31 bytes
or more is refused by the code; the theorem is about the loop.) -/
theorem c44_chunks (chunks : List Bytes) : digestOf chunks = rmd160 chunks.flatten := by
  unfold digestOf
  exact digest_absorbed (by simpa using absorbed_updates chunks [] init absorbed_init)

/-- **C44.** Hence two ways to split a message give the same digest. -/
theorem c44_split {c c' : List Bytes} (h : c.flatten = c'.flatten) : digestOf c = digestOf c' := by rw [c44_chunks, c44_chunks, h]

/-- **C44.** The digest has 20 bytes. -/
theorem c44_length (chunks : List Bytes) : (digestOf chunks).length = 20 := by
  rw [c44_chunks, rmd160, rmdOutput]
  simp [leBytes_length]

/-- **C44.** The added constants are what the paper says: the integer parts of 2^30 times the square roots of 2, 3, 5, 7 and of 2^30 times the cube
roots of 2, 3, 5, 7. -/
theorem c44_constants : (∀ k < 4, (rmdKLeft (k + 1)).toNat ^ 2 ≤ [2, 3, 5, 7].getD k 0 * 2 ^ 60 ∧ [2, 3, 5, 7].getD k 0 * 2 ^ 60 < ((rmdKLeft (k + 1)).toNat + 1) ^ 2) ∧
    (∀ k < 4, (rmdKRight k).toNat ^ 3 ≤ [2, 3, 5, 7].getD k 0 * 2 ^ 90 ∧ [2, 3, 5, 7].getD k 0 * 2 ^ 90 < ((rmdKRight k).toNat + 1) ^ 3) := by
  decide +kernel

/-- **C44.** The message order tables are the powers of rho, and those applied to pi, as in the specification of RIPEMD-160. -/
theorem c44_tables : (∀ k < 5, ∀ i < 16, (RL.getD k []).getD i 99 = rho^[k] i) ∧ (∀ k < 5, ∀ i < 16, (RR.getD k []).getD i 99 = rho^[k] (rmdPi i)) := by
  decide +kernel

/-- the digest used for the checksums of keys -/

theorem keyDigest_length (m : Bytes) : (keyDigest m).length = 20 := c44_length [m]

/-- the digest of a payload and a suffix, fed one after the other as `digest_suffix_ripemd160` does -/
theorem c44_suffix (payload suffix : Bytes) : digestOf [payload, suffix] = keyDigest (payload ++ suffix) := c44_split (by simp)

/-- **C14, C15** hold with the digest of the code. -/
theorem c14_public_key_ripemd {v : BVal} {b : Bytes} (h : Layout publicKeyTy v b) :
    ∃ s, publicKeyToString keyDigest v = .ok s ∧ publicKeyFromString keyDigest s = .ok v := c14_public_key keyDigest_length h

/-! Test vectors of the RIPEMD-160 paper. -/
theorem update_single {p : Bytes} (hne : p ≠ []) (hl : p.length < 64) :
    update init p = { init with buf := memcpyAt init.buf 0 p, bufpos := p.length, length := p.length * 8 % 2 ^ 64 } := by
  rw [update, dif_neg hne, dif_neg (by decide), if_neg (by simp only [init]; omega)]
  simp [init]

example : keyDigest [97, 98, 99] = [0x8e, 0xb2, 0x08, 0xf7, 0xe0, 0x5d, 0x98, 0x7a, 0x9b, 0x04, 0x4a, 0x8e, 0x98, 0xc6, 0xb0, 0x87, 0xf1, 0x5a, 0x0b, 0xfc] := by
  unfold keyDigest digestOf
  rw [List.foldl_cons, List.foldl_nil, update_single (by decide) (by decide)]
  decide +kernel

example : digestOf [] = [0x9c, 0x11, 0x85, 0xa5, 0xc5, 0xe9, 0xfc, 0x54, 0x61, 0x28, 0x08, 0x97, 0x7e, 0xe8, 0xf5, 0x48, 0xb2, 0x25, 0x8d, 0x31] := by
  decide +kernel

end Abieos
