import Verif.Proofs.StaticRound
import Verif.Props.AddType
/-!
C57: the binary form of C++ values of any type: structs (also recursive ones), vectors, optionals, variants, extensions and builtin types.
-/
namespace Abieos
open Spec

section
variable {P : Prog}

/-! ## more fuel does not change the value read -/

theorem readElems_mono {f g : Reader SVal} (h : ∀ s x, f s = .ok x → g s = .ok x) : ∀ (n : Nat) (s : Bytes) (x : List SVal × Bytes), readElems f n s = .ok x → readElems g n s = .ok x
  | 0, s, x, e => e
  | n + 1, s, x, e => by
    rw [readElems] at e ⊢
    obtain ⟨⟨v, s1⟩, h1, e⟩ := bind_eq_ok.1 e
    obtain ⟨⟨l', s2⟩, h2, e⟩ := bind_eq_ok.1 e
    rw [h _ _ h1, bind_ok]
    simp only at h2 ⊢
    rw [readElems_mono h n _ _ h2, bind_ok]
    exact e

theorem readMembers_mono {f g : CTy → Reader SVal} (h : ∀ t s x, f t s = .ok x → g t s = .ok x) : ∀ (fs : List (Bytes × CTy)) (s : Bytes) (x : List SVal × Bytes),
    readMembers f fs s = .ok x → readMembers g fs s = .ok x
  | [], s, x, e => e
  | m :: fs, s, x, e => by
    rw [readMembers] at e ⊢
    obtain ⟨⟨v, s1⟩, h1, e⟩ := bind_eq_ok.1 e
    obtain ⟨⟨l', s2⟩, h2, e⟩ := bind_eq_ok.1 e
    rw [h _ _ _ h1, bind_ok]
    simp only at h2 ⊢
    rw [readMembers_mono h fs _ _ h2, bind_ok]
    exact e

theorem fromBinS_succ : ∀ (n : Nat) (t : CTy) (s : Bytes) (x : SVal × Bytes), fromBinS P n t s = .ok x → fromBinS P (n + 1) t s = .ok x
  | 0, t, s, x, h => by simp [fromBinS] at h
  | n + 1, .leaf k, s, x, h => by rw [fromBinS] at h ⊢; exact h
  | n + 1, .vec t, s, x, h => by
    rw [fromBinS] at h ⊢
    cases e : t.bitwise with
    | none =>
      simp only [e] at h ⊢
      obtain ⟨⟨c, s1⟩, h1, h⟩ := bind_eq_ok.1 h
      obtain ⟨⟨l, s2⟩, h2, h⟩ := bind_eq_ok.1 h
      rw [h1, bind_ok]
      simp only at h2 ⊢
      rw [readElems_mono (fromBinS_succ n t) _ _ _ h2, bind_ok]
      exact h
    | some z => simp only [e] at h ⊢; exact h
  | n + 1, .opt t, s, x, h => by
    rw [fromBinS] at h ⊢
    beta_reduce at h ⊢
    obtain ⟨⟨c, s1⟩, h1, h⟩ := bind_eq_ok.1 h
    rw [h1, bind_ok]
    simp only at h ⊢
    split at h
    · rename_i hc; rw [if_pos hc]; exact h
    · rename_i hc; rw [if_neg hc]
      obtain ⟨⟨w, s2⟩, h2, h⟩ := bind_eq_ok.1 h
      rw [fromBinS_succ n t _ _ h2, bind_ok]; exact h
  | n + 1, .variant ts, s, x, h => by
    rw [fromBinS] at h ⊢
    beta_reduce at h ⊢
    obtain ⟨⟨c, s1⟩, h1, h⟩ := bind_eq_ok.1 h
    rw [h1, bind_ok]
    simp only at h ⊢
    cases e : ts[c]? with
    | none => rw [e] at h; cases h
    | some t =>
      rw [e] at h
      simp only at h ⊢
      obtain ⟨⟨w, s2⟩, h2, h⟩ := bind_eq_ok.1 h
      rw [fromBinS_succ n t _ _ h2, bind_ok]; exact h
  | n + 1, .struct m, s, x, h => by
    rw [fromBinS] at h ⊢
    beta_reduce at h ⊢
    obtain ⟨⟨l, s1⟩, h1, h⟩ := bind_eq_ok.1 h
    rw [readMembers_mono (fun t => fromBinS_succ n t) _ _ _ h1, bind_ok]; exact h
  | n + 1, .ext t, s, x, h => by
    rw [fromBinS] at h ⊢
    beta_reduce at h ⊢
    split at h
    · rename_i hc; rw [if_pos hc]; exact h
    · rename_i hc; rw [if_neg hc]; exact fromBinS_succ n t _ _ h

theorem fromBinS_mono {n m : Nat} (hm : n ≤ m) {t : CTy} {s : Bytes} {x : SVal × Bytes} (h : fromBinS P n t s = .ok x) : fromBinS P m t s = .ok x := by
  induction m with
  | zero => rwa [show n = 0 by omega] at h
  | succ m ih =>
    by_cases e : n = m + 1
    · rwa [e] at h
    · exact fromBinS_succ m t s x (ih (by omega))

/-- there is at most one result -/
theorem fromBin_unique {t : CTy} {s r r' : Bytes} {v v' : SVal} (h : FromBin P t s v r) (h' : FromBin P t s v' r') : v = v' ∧ r = r' := by
  obtain ⟨n, h⟩ := h
  obtain ⟨m, h'⟩ := h'
  have h1 := fromBinS_mono (Nat.le_max_left n m) h
  have h2 := fromBinS_mono (Nat.le_max_right n m) h'
  rw [h1] at h2
  simp only [Except.ok.injEq, Prod.mk.injEq] at h2
  exact h2

/-! ## C57 -/

/-- C57: `convert_to_bin` appends the serialization of the value. -/
theorem c57_written {t : CTy} {v : SVal} {b : Bytes} (h : Stored P t v b) (bin : Bytes) : convertToBinS P t v bin = .ok (bin ++ b) := by
  rw [convertToBinS_eq, stored_write h]; rfl

/-- C57: A value that was written is read back, and what follows it is left. -/
theorem c57_roundtrip {t : CTy} {v : SVal} {bin out : Bytes} (hv : ∃ b, Stored P t v b) (h : convertToBinS P t v bin = .ok out) :
    ∃ b, out = bin ++ b ∧ ∀ rest, FromBin P t (b ++ rest) v rest := by
  obtain ⟨b, hb⟩ := hv
  rw [c57_written hb] at h
  injection h with h
  obtain ⟨n, hn⟩ := stored_read hb
  exact ⟨b, h.symm, fun rest => ⟨n, hn n (Nat.le_refl n) rest⟩⟩

/-- C57: Different values have different serializations, and none is the beginning of another: values written one after the other can be told
apart. -/
theorem c57_prefix_free {t : CTy} {v w : SVal} {b c r r' : Bytes} (h : Stored P t v b) (h' : Stored P t w c) (e : b ++ r = c ++ r') : v = w ∧ b = c ∧ r = r' := by
  obtain ⟨n, hn⟩ := stored_read h
  obtain ⟨m, hm⟩ := stored_read h'
  have h1 : FromBin P t (b ++ r) v r := ⟨n, hn n (Nat.le_refl n) r⟩
  have h2 : FromBin P t (b ++ r) w r' := ⟨m, by rw [e]; exact hm m (Nat.le_refl m) r'⟩
  obtain ⟨hv, hr⟩ := fromBin_unique h1 h2
  subst hr
  exact ⟨hv, List.append_cancel_right e, rfl⟩

/-- C57: Of a type without extensions, `from_bin` takes a part of the input from its beginning, and what it reads is a value that can be
written again (if the input is shorter than 2^32). -/
theorem c57_within {t : CTy} {s r : Bytes} {v : SVal} (hx : NoExt P t) (h : FromBin P t s v r) :
    (∃ p, s = p ++ r) ∧ (s.length < 2 ^ 32 → ∃ b, Stored P t v b ∧ convertToBinS P t v [] = .ok b) := by
  obtain ⟨n, h⟩ := h
  obtain ⟨h1, h2⟩ := fromBinS_took n t hx s v r h
  exact ⟨h1, fun hs => (h2 hs).imp fun b hb => ⟨hb, by simpa using c57_written hb []⟩⟩

/-- C57: Reading a value from any input, writing it and reading that gives the value again. -/
theorem c57_rewrite {t : CTy} {s r out : Bytes} {v : SVal} (hx : NoExt P t) (hs : s.length < 2 ^ 32) (h : FromBin P t s v r) (ho : convertToBinS P t v [] = .ok out) :
    FromBin P t out v [] := by
  obtain ⟨b, hb, e⟩ := (c57_within hx h).2 hs
  rw [e] at ho
  injection ho with ho
  subst ho
  obtain ⟨n, hn⟩ := stored_read hb
  exact ⟨n, by simpa using hn n (Nat.le_refl n) []⟩

/-- C57: At the end of the input an extension is not there; it is there if anything follows. -/
theorem c57_extension {t : CTy} {s r : Bytes} {v : SVal} : FromBin P (.ext t) s v r ↔ (s = [] ∧ v = .unset ∧ r = []) ∨ (s ≠ [] ∧ FromBin P t s v r) := by
  constructor
  · rintro ⟨n, h⟩
    match n with
    | 0 => simp [fromBinS] at h
    | n + 1 =>
      rw [fromBinS] at h
      beta_reduce at h
      split at h
      · rename_i hs
        simp only [Except.ok.injEq, Prod.mk.injEq] at h
        exact .inl ⟨hs, h.1.symm, h.2.symm.trans hs⟩
      · rename_i hs; exact .inr ⟨hs, n, h⟩
  · rintro (⟨rfl, rfl, rfl⟩ | ⟨hs, n, h⟩)
    · exact ⟨1, rfl⟩
    · exact ⟨n + 1, by rw [fromBinS]; beta_reduce; rw [if_neg hs]; exact h⟩

end

namespace StaticValueExample
open StaticJsonExample

/-- the bytes of `inner`: tag, no note, no sub-nodes, alternative 0 with `true` -/
theorem stored_inner : Stored prog (.struct (str "node")) inner [7, 0, 0, 0, 1] :=
  .struct (.cons (b := [7]) (c := [0, 0, 0, 1]) (.leaf rfl) (.cons (b := [0]) (c := [0, 0, 1]) .absent (.cons (b := [0]) (c := [0, 1]) (.vec (h := [0]) (b := []) (size_iff.2 (by decide +kernel)) .nil)
    (.cons (b := [0, 1]) (c := []) (.alt (h := [0]) (b := [1]) (t := .leaf .bool) rfl (size_iff.2 (by decide +kernel)) (.leaf (.inr rfl))) .nil))))

/-- the value of the examples in C54 and C55: a node with a note, with a node in its vector and another in its variant -/
theorem stored_outer : Stored prog (.struct (str "node")) outer [200, 1, 254, 255, 1, 7, 0, 0, 0, 1, 1, 7, 0, 0, 0, 1] :=
  .struct (.cons (b := [200]) (c := [1, 254, 255, 1, 7, 0, 0, 0, 1, 1, 7, 0, 0, 0, 1]) (.leaf rfl)
    (.cons (b := [1, 254, 255]) (c := [1, 7, 0, 0, 0, 1, 1, 7, 0, 0, 0, 1]) (.present (b := [254, 255]) (.leaf rfl))
    (.cons (b := [1, 7, 0, 0, 0, 1]) (c := [1, 7, 0, 0, 0, 1])
      (.vec (h := [1]) (b := [7, 0, 0, 0, 1]) (size_iff.2 (by decide +kernel)) (.cons (b := [7, 0, 0, 0, 1]) (c := []) stored_inner .nil))
    (.cons (b := [1, 7, 0, 0, 0, 1]) (c := []) (.alt (h := [1]) (b := [7, 0, 0, 0, 1]) (t := .struct (str "node")) rfl (size_iff.2 (by decide +kernel)) stored_inner) .nil))))

example : convertToBinS prog (.struct (str "node")) outer [9] = .ok [9, 200, 1, 254, 255, 1, 7, 0, 0, 0, 1, 1, 7, 0, 0, 0, 1] := c57_written stored_outer [9]
example (rest : Bytes) : FromBin prog (.struct (str "node")) ([200, 1, 254, 255, 1, 7, 0, 0, 0, 1, 1, 7, 0, 0, 0, 1] ++ rest) outer rest := by
  obtain ⟨b, hb, h⟩ := c57_roundtrip ⟨_, stored_outer⟩ (c57_written stored_outer [])
  simp only [List.nil_append] at hb
  rw [hb]
  exact h rest

theorem noExt : NoExt prog (.struct (str "node")) := fun u hu => by
  have := AddTypeExample.uses_types hu
  simp [AddTypeExample.types] at this

/-- a vector of 16-bit integers, as in `std::vector<int16_t>`, and an extension that holds it -/
example : Stored [] (.ext (.vec (.leaf .int16))) (.vec [.leaf [1, 2], .leaf [3, 4]]) [2, 1, 2, 3, 4] :=
  .ext (.vec (h := [2]) (b := [1, 2, 3, 4]) (size_iff.2 (by decide +kernel)) (.cons (b := [1, 2]) (c := [3, 4]) (.leaf rfl) (.cons (b := [3, 4]) (c := []) (.leaf rfl) .nil))) nofun

end StaticValueExample

end Abieos
