import Verif.Proofs.StaticLeaf
/-! `to_bin` and `from_bin` of C++ values are inverse to each other. -/
namespace Abieos
open Spec

section
variable {P : Prog}

theorem binOf_ext (t : CTy) (v : SVal) : binOf P (.ext t) v = binOf P t v := by
  cases v <;> simp only [binOf, CTy.strip]

mutual
theorem stored_write : ∀ {t : CTy} {v : SVal} {b : Bytes}, Stored P t v b → binOf P t v = .ok b
  | _, _, _, .leaf _ => by simp only [binOf, CTy.strip]
  | _, _, _, .vec h1 h2 => by
    simp only [binOf, CTy.strip]
    rw [size_iff.1 h1, bind_ok, storedAll_write h2, bind_ok]
  | _, _, _, .absent => by simp only [binOf, CTy.strip]
  | _, _, _, .present h => by
    simp only [binOf, CTy.strip]
    rw [stored_write h, bind_ok]
  | _, _, _, .alt h1 h2 h3 => by
    simp only [binOf, CTy.strip, h1]
    rw [size_iff.1 h2, bind_ok, stored_write h3, bind_ok]
  | _, _, _, .struct h => by
    simp only [binOf, CTy.strip]
    exact storedFields_write h
  | _, _, _, .ext h _ => by rw [binOf_ext]; exact stored_write h
theorem storedAll_write : ∀ {t : CTy} {l : List SVal} {b : Bytes}, StoredAll P t l b → binElems P t l = .ok b
  | _, _, _, .nil => by rw [binElems]
  | _, _, _, .cons h1 h2 => by rw [binElems, stored_write h1, bind_ok, storedAll_write h2, bind_ok]
theorem storedFields_write : ∀ {fs : List (Bytes × CTy)} {l : List SVal} {b : Bytes}, StoredFields P fs l b → binMembers P fs l = .ok b
  | _, _, _, .nil => by rw [binMembers]
  | _, _, _, .cons h1 h2 => by rw [binMembers, stored_write h1, bind_ok, storedFields_write h2, bind_ok]
end

/-! ## vectors of numbers -/

theorem bitwise_some {t : CTy} {z : Nat} (h : t.bitwise = some z) : ∃ k, t = .leaf k ∧ IsFixedNumber k ∧ 0 < z ∧ z ≤ 16 ∧ ∀ b, LeafBytes k b ↔ b.length = z := by
  unfold CTy.bitwise at h
  split at h <;> first | (simp at h; done) | (injection h with h; subst h; exact ⟨_, rfl, trivial, by omega, by omega, fun b => Iff.rfl⟩)

theorem bitwise_none {k : Builtin} (h : ¬ IsFixedNumber k) : (CTy.leaf k).bitwise = none := by
  cases k <;> simp [IsFixedNumber] at h <;> rfl

theorem storedAll_cut {k : Builtin} {z : Nat} (hz : ∀ b, LeafBytes k b ↔ b.length = z) : ∀ {l : List SVal} {b : Bytes}, StoredAll P (.leaf k) l b →
    b.length = l.length * z ∧ cutLeaves z l.length b = l
  | [], b, h => by cases h; simp [cutLeaves]
  | v :: l, b, h => by
    cases h with
    | @cons _ _ _ x y h1 h2 =>
    cases h1 with
    | leaf h1 =>
    obtain ⟨h3, h4⟩ := storedAll_cut hz h2
    have h1 := (hz x).1 h1
    refine ⟨by simp [h1, h3, Nat.add_mul, Nat.add_comm], ?_⟩
    simp only [List.length_cons, cutLeaves]
    rw [List.take_append_of_le_length (by omega), List.drop_append_of_le_length (by omega), ← h1, List.take_length, List.drop_length, List.nil_append, h1, h4]

theorem cut_storedAll {k : Builtin} {z : Nat} (hz : ∀ b, LeafBytes k b ↔ b.length = z) : ∀ (n : Nat) (b : Bytes), b.length = n * z → StoredAll P (.leaf k) (cutLeaves z n b) b
  | 0, b, h => by
    have : b = [] := by simpa using h
    subst this; exact .nil
  | n + 1, b, h => by
    rw [Nat.add_mul] at h
    rw [cutLeaves]
    have := cut_storedAll hz n (b.drop z) (by rw [List.length_drop]; omega)
    have h2 : Stored P (.leaf k) (.leaf (b.take z)) (b.take z) := .leaf ((hz _).2 (by rw [List.length_take]; omega))
    have := StoredAll.cons h2 this
    rwa [List.take_append_drop] at this

theorem cutLeaves_length (z : Nat) : ∀ (n : Nat) (b : Bytes), (cutLeaves z n b).length = n
  | 0, _ => rfl
  | n + 1, b => by rw [cutLeaves, List.length_cons, cutLeaves_length z n]

/-! ## reading what was written -/

mutual
theorem stored_read : ∀ {t : CTy} {v : SVal} {b : Bytes}, Stored P t v b → ∃ n, ∀ m, n ≤ m → ∀ rest, fromBinS P m t (b ++ rest) = .ok (v, rest)
  | .leaf k, _, b, .leaf h => ⟨1, fun m hm rest => by
      obtain ⟨m, rfl⟩ : ∃ q, m = q + 1 := ⟨m - 1, by omega⟩
      rw [fromBinS]; exact leafFromBin_stored h rest⟩
  | .vec t, .vec l, _, @Stored.vec _ _ _ x y h1 h2 => by
    obtain ⟨n, hn⟩ := storedAll_read h2
    refine ⟨n + 1, fun m hm rest => ?_⟩
    obtain ⟨m, rfl⟩ : ∃ q, m = q + 1 := ⟨m - 1, by omega⟩
    rw [fromBinS]
    cases e : t.bitwise with
    | none =>
      simp only
      rw [List.append_assoc, size_read h1, bind_ok]
      simp only
      rw [hn m (by omega), bind_ok]
    | some z =>
      simp only
      obtain ⟨k, rfl, -, h3, h4, h5⟩ := bitwise_some e
      obtain ⟨h6, h7⟩ := storedAll_cut h5 h2
      have h8 := h1.1
      have h9 : l.length * z < 2 ^ 63 := by
        have : l.length * z ≤ 2 ^ 32 * 16 := Nat.mul_le_mul (by omega) h4
        omega
      rw [List.append_assoc, size_read64 h1, bind_ok]
      simp only
      have h10 : l.length ≤ vectorMax z := by
        unfold vectorMax
        rw [Nat.le_div_iff_mul_le h3]; omega
      rw [Nat.mod_eq_of_lt (by omega), ← h6]
      simp only [List.length_append, Nat.le_add_right, decide_true, h10, check_true, bind_ok]
      rw [readBytes_append _ y rest rfl, bind_ok]
      simp only [h7]
  | .opt t, _, _, .absent => ⟨1, fun m hm rest => by
      obtain ⟨m, rfl⟩ : ∃ q, m = q + 1 := ⟨m - 1, by omega⟩
      rw [fromBinS]; rfl⟩
  | .opt t, .present v, _, @Stored.present _ _ _ y h => by
    obtain ⟨n, hn⟩ := stored_read h
    refine ⟨n + 1, fun m hm rest => ?_⟩
    obtain ⟨m, rfl⟩ : ∃ q, m = q + 1 := ⟨m - 1, by omega⟩
    rw [fromBinS]
    simp only [readU8, List.cons_append, bind_ok]
    rw [if_neg (by decide), hn m (by omega), bind_ok]
  | .variant ts, .alt i v, _, .alt h1 h2 h3 => by
    obtain ⟨n, hn⟩ := stored_read h3
    refine ⟨n + 1, fun m hm rest => ?_⟩
    obtain ⟨m, rfl⟩ : ∃ q, m = q + 1 := ⟨m - 1, by omega⟩
    rw [fromBinS]
    simp only
    rw [List.append_assoc, size_read h2, bind_ok]
    simp only [h1]
    rw [hn m (by omega), bind_ok]
  | .struct k, .struct l, b, .struct h => by
    obtain ⟨n, hn⟩ := storedFields_read h
    refine ⟨n + 1, fun m hm rest => ?_⟩
    obtain ⟨m, rfl⟩ : ∃ q, m = q + 1 := ⟨m - 1, by omega⟩
    rw [fromBinS]
    simp only
    rw [hn m (by omega), bind_ok]
  | .ext t, v, b, .ext h hb => by
    obtain ⟨n, hn⟩ := stored_read h
    refine ⟨n + 1, fun m hm rest => ?_⟩
    obtain ⟨m, rfl⟩ : ∃ q, m = q + 1 := ⟨m - 1, by omega⟩
    rw [fromBinS]
    simp only
    rw [if_neg (by simp [hb]), hn m (by omega)]
theorem storedAll_read : ∀ {t : CTy} {l : List SVal} {b : Bytes}, StoredAll P t l b → ∃ n, ∀ m, n ≤ m → ∀ rest, readElems (fromBinS P m t) l.length (b ++ rest) = .ok (l, rest)
  | _, _, _, .nil => ⟨0, fun m _ rest => rfl⟩
  | _, _, _, .cons h1 h2 => by
    obtain ⟨n1, e1⟩ := stored_read h1
    obtain ⟨n2, e2⟩ := storedAll_read h2
    refine ⟨max n1 n2, fun m hm rest => ?_⟩
    rw [List.length_cons, readElems, List.append_assoc, e1 m (by omega), bind_ok]
    simp only
    rw [e2 m (by omega), bind_ok]
theorem storedFields_read : ∀ {fs : List (Bytes × CTy)} {l : List SVal} {b : Bytes}, StoredFields P fs l b →
    ∃ n, ∀ m, n ≤ m → ∀ rest, readMembers (fromBinS P m) fs (b ++ rest) = .ok (l, rest)
  | _, _, _, .nil => ⟨0, fun m _ rest => rfl⟩
  | _, _, _, .cons h1 h2 => by
    obtain ⟨n1, e1⟩ := stored_read h1
    obtain ⟨n2, e2⟩ := storedFields_read h2
    refine ⟨max n1 n2, fun m hm rest => ?_⟩
    rw [readMembers, List.append_assoc, e1 m (by omega), bind_ok]
    simp only
    rw [e2 m (by omega), bind_ok]
end

/-! ## what was read can be written -/

/-- the input that was not read is at its end, and the rest was a value -/
def TookS (p : SVal → Bytes → Prop) (s : Bytes) (v : SVal) (r : Bytes) : Prop := (∃ p, s = p ++ r) ∧ (s.length < 2 ^ 32 → ∃ b, p v b)

theorem readElems_took {t : CTy} {f : Reader SVal} (h : ∀ s v r, f s = .ok (v, r) → TookS (Stored P t) s v r) :
    ∀ (n : Nat) (s : Bytes) (l : List SVal) (r : Bytes), readElems f n s = .ok (l, r) →
      l.length = n ∧ (∃ p, s = p ++ r) ∧ (s.length < 2 ^ 32 → ∃ b, StoredAll P t l b)
  | 0, s, l, r, e => by
    simp only [readElems, Except.ok.injEq, Prod.mk.injEq] at e
    obtain ⟨rfl, rfl⟩ := e
    exact ⟨rfl, ⟨[], rfl⟩, fun _ => ⟨[], .nil⟩⟩
  | n + 1, s, l, r, e => by
    rw [readElems] at e
    obtain ⟨⟨v, s1⟩, h1, e⟩ := bind_eq_ok.1 e
    obtain ⟨⟨l', s2⟩, h2, e⟩ := bind_eq_ok.1 e
    simp only [Except.ok.injEq, Prod.mk.injEq] at e
    obtain ⟨rfl, rfl⟩ := e
    obtain ⟨⟨p, rfl⟩, h3⟩ := h _ _ _ h1
    obtain ⟨h4, ⟨q, rfl⟩, h5⟩ := readElems_took h n _ _ _ h2
    refine ⟨by simp [h4], ⟨p ++ q, by simp⟩, fun hs => ?_⟩
    obtain ⟨b, hb⟩ := h3 hs
    obtain ⟨c, hc⟩ := h5 (by simp only [List.length_append] at hs ⊢; omega)
    exact ⟨b ++ c, .cons hb hc⟩

theorem readMembers_took {f : CTy → Reader SVal} : ∀ (fs : List (Bytes × CTy)), (∀ m ∈ fs, ∀ s v r, f m.2 s = .ok (v, r) → TookS (Stored P m.2) s v r) →
    ∀ (s : Bytes) (l : List SVal) (r : Bytes), readMembers f fs s = .ok (l, r) → (∃ p, s = p ++ r) ∧ (s.length < 2 ^ 32 → ∃ b, StoredFields P fs l b)
  | [], _, s, l, r, e => by
    simp only [readMembers, Except.ok.injEq, Prod.mk.injEq] at e
    obtain ⟨rfl, rfl⟩ := e
    exact ⟨⟨[], rfl⟩, fun _ => ⟨[], .nil⟩⟩
  | m :: fs, h, s, l, r, e => by
    rw [readMembers] at e
    obtain ⟨⟨v, s1⟩, h1, e⟩ := bind_eq_ok.1 e
    obtain ⟨⟨l', s2⟩, h2, e⟩ := bind_eq_ok.1 e
    simp only [Except.ok.injEq, Prod.mk.injEq] at e
    obtain ⟨rfl, rfl⟩ := e
    obtain ⟨⟨p, rfl⟩, h3⟩ := h m (by simp) _ _ _ h1
    obtain ⟨⟨q, rfl⟩, h5⟩ := readMembers_took fs (fun x hx => h x (by simp [hx])) _ _ _ h2
    refine ⟨⟨p ++ q, by simp⟩, fun hs => ?_⟩
    obtain ⟨b, hb⟩ := h3 hs
    obtain ⟨c, hc⟩ := h5 (by simp only [List.length_append] at hs ⊢; omega)
    exact ⟨b ++ c, .cons hb hc⟩

theorem fromBinS_took : ∀ (n : Nat) (t : CTy), NoExt P t → ∀ (s : Bytes) (v : SVal) (r : Bytes), fromBinS P n t s = .ok (v, r) → TookS (Stored P t) s v r
  | 0, t, _, s, v, r, h => by simp [fromBinS] at h
  | n + 1, .leaf k, _, s, v, r, h => by
    rw [fromBinS] at h
    obtain ⟨h1, h2⟩ := leafFromBin_took h
    refine ⟨h1, fun hs => ?_⟩
    obtain ⟨b, rfl, hb⟩ := h2 hs
    exact ⟨b, .leaf hb⟩
  | n + 1, .vec t, hx, s, v, r, h => by
    rw [fromBinS] at h
    cases e : t.bitwise with
    | none =>
      simp only [e] at h
      obtain ⟨⟨c, s1⟩, h1, h⟩ := bind_eq_ok.1 h
      obtain ⟨⟨l, s2⟩, h2, h⟩ := bind_eq_ok.1 h
      simp only [Except.ok.injEq, Prod.mk.injEq] at h
      obtain ⟨rfl, rfl⟩ := h
      obtain ⟨⟨p, rfl⟩, x, hx'⟩ := varuint_took h1
      obtain ⟨rfl, ⟨q, rfl⟩, h3⟩ := readElems_took (P := P) (fromBinS_took n t (fun u hu => hx u (.vec hu))) _ _ _ _ h2
      refine ⟨⟨p ++ q, by simp⟩, fun hs => ?_⟩
      obtain ⟨b, hb⟩ := h3 (by simp only [List.length_append] at hs ⊢; omega)
      exact ⟨_, .vec hx' hb⟩
    | some z =>
      obtain ⟨k, rfl, -, h3, h4, h5⟩ := bitwise_some e
      simp only [e] at h
      obtain ⟨⟨c, s1⟩, h1, h⟩ := bind_eq_ok.1 h
      obtain ⟨_, hc, h⟩ := bind_eq_ok.1 h
      obtain ⟨_, hd, h⟩ := bind_eq_ok.1 h
      obtain ⟨⟨b, s2⟩, h2, h⟩ := bind_eq_ok.1 h
      simp only [Except.ok.injEq, Prod.mk.injEq] at h
      obtain ⟨rfl, rfl⟩ := h
      have hd : c ≤ vectorMax z := by simpa using check_eq_ok.1 hd
      unfold vectorMax at hd
      rw [Nat.le_div_iff_mul_le h3] at hd
      replace h2 : readBytes (c * z) s1 = .ok (b, s2) := by
        rw [← h2]; simp only; rw [Nat.mod_eq_of_lt (by omega)]
      obtain ⟨p, rfl⟩ : ∃ q, s = q ++ s1 := (prefix_varuint64 s c s1 h1).imp fun _ h => h.1
      obtain ⟨rfl, h6⟩ := readBytes_ok h2
      refine ⟨⟨p ++ b, by simp⟩, fun hs => ?_⟩
      simp only [List.length_append] at hs
      have : c ≤ c * z := Nat.le_mul_of_pos_right c h3
      obtain ⟨x, hx'⟩ := size_exists (n := c) (by omega)
      exact ⟨_, .vec (by rw [cutLeaves_length]; exact hx') (cut_storedAll h5 c b h6)⟩
  | n + 1, .opt t, hx, s, v, r, h0 => by
    rw [fromBinS] at h0
    obtain ⟨⟨c, s1⟩, h1, h⟩ := bind_eq_ok.1 h0
    clear h0
    obtain rfl := readU8_ok h1
    simp only at h
    split at h
    · simp only [Except.ok.injEq, Prod.mk.injEq] at h
      obtain ⟨rfl, rfl⟩ := h
      exact ⟨⟨[c], rfl⟩, fun _ => ⟨_, .absent⟩⟩
    · obtain ⟨⟨w, s2⟩, h2, h⟩ := bind_eq_ok.1 h
      simp only [Except.ok.injEq, Prod.mk.injEq] at h
      obtain ⟨rfl, rfl⟩ := h
      obtain ⟨⟨p, rfl⟩, h3⟩ := fromBinS_took n t (fun u hu => hx u (.opt hu)) _ _ _ h2
      refine ⟨⟨c :: p, rfl⟩, fun hs => ?_⟩
      obtain ⟨b, hb⟩ := h3 (by simp only [List.length_cons] at hs; omega)
      exact ⟨_, .present hb⟩
  | n + 1, .variant ts, hx, s, v, r, h0 => by
    rw [fromBinS] at h0
    obtain ⟨⟨c, s1⟩, h1, h⟩ := bind_eq_ok.1 h0
    clear h0
    obtain ⟨⟨p, rfl⟩, x, hx'⟩ := varuint_took h1
    simp only at h
    split at h
    · simp at h
    · rename_i t ht
      obtain ⟨⟨w, s2⟩, h2, h⟩ := bind_eq_ok.1 h
      simp only [Except.ok.injEq, Prod.mk.injEq] at h
      obtain ⟨rfl, rfl⟩ := h
      obtain ⟨⟨q, rfl⟩, h3⟩ := fromBinS_took n t (fun u hu => hx u (.alt (List.mem_of_getElem? ht) hu)) _ _ _ h2
      refine ⟨⟨p ++ q, by simp⟩, fun hs => ?_⟩
      obtain ⟨b, hb⟩ := h3 (by simp only [List.length_append] at hs ⊢; omega)
      exact ⟨_, .alt ht hx' hb⟩
  | n + 1, .struct m, hx, s, v, r, h => by
    rw [fromBinS] at h
    obtain ⟨⟨l, s1⟩, h1, h⟩ := bind_eq_ok.1 h
    simp only [Except.ok.injEq, Prod.mk.injEq] at h
    obtain ⟨rfl, rfl⟩ := h
    obtain ⟨h2, h3⟩ := readMembers_took (P := P) (P.fields m) (fun f hf => fromBinS_took n f.2 (fun u hu => hx u (.field (m := f.1) hf hu))) _ _ _ h1
    refine ⟨h2, fun hs => ?_⟩
    obtain ⟨b, hb⟩ := h3 hs
    exact ⟨b, .struct hb⟩
  | n + 1, .ext t, hx, _, _, _, _ => (hx t .self).elim
end

end Abieos
