import Verif.Proofs.StaticBin
/-! # C21, C22, C23: native binary serialization -/
namespace Abieos
open Spec

/-! ## Lemmas -/

theorem elems_ne_nil {R : BVal → Bytes → Prop} (h : ∀ v b, R v b → b ≠ []) {l : List BVal} {e : Bytes} (he : Elems R l e) (hl : 0 < l.length) : e ≠ [] := by
  cases l with
  | nil => simp at hl
  | cons v l =>
    obtain ⟨x, y, h1, -, rfl⟩ := he
    have := h v x h1
    simp [this]

mutual
theorem layout_ne_nil : ∀ t v b, NonEmpty t → Layout t v b → b ≠ []
  | .raw n, v, b, hn, h => by
    obtain ⟨-, h⟩ := h
    rintro rfl
    have : 0 < n := hn
    simp at h; omega
  | .bool, v, b, _, h => by obtain ⟨-, rfl | rfl⟩ := h <;> simp
  | .varuint32, v, b, _, h => by obtain ⟨n, rfl, h⟩ := h; exact size_ne_nil h
  | .varint32, v, b, _, h => by obtain ⟨n, rfl, hn, h⟩ := h; exact size_ne_nil ⟨zz_lt hn, h⟩
  | .str, v, b, _, h => by obtain ⟨hd, s, rfl, h, rfl⟩ := h; have := size_ne_nil h; simp [this]
  | .rawVec n, v, b, _, h => by obtain ⟨hd, s, k, rfl, h, hk, hk', rfl⟩ := h; have := size_ne_nil h; simp [this]
  | .vec t, v, b, _, h => by obtain ⟨hd, l, e, rfl, h, he, rfl⟩ := h; have := size_ne_nil h; simp [this]
  | .set _ t, v, b, _, h => by obtain ⟨hd, l, e, rfl, -, h, he, rfl⟩ := h; have := size_ne_nil h; simp [this]
  | .map _ k u, v, b, _, h => by obtain ⟨hd, l, e, rfl, -, h, he, rfl⟩ := h; have := size_ne_nil h; simp [this]
  | .stream, v, b, _, h => by obtain ⟨hd, s, rfl, h, rfl⟩ := h; have := size_ne_nil h; simp [this]
  | .carr n t, v, b, _, h => by obtain ⟨hd, l, e, rfl, -, h, he, rfl⟩ := h; have := size_ne_nil h; simp [this]
  | .arr n t, v, b, hn, h => by
    obtain ⟨l, rfl, hl, h⟩ := h
    exact elems_ne_nil (fun v b => layout_ne_nil t v b hn.2) h (by have : 0 < n := hn.1; omega)
  | .opt t, v, b, _, h => by rcases h with ⟨rfl, rfl⟩ | ⟨x, e, rfl, h, rfl⟩ <;> simp
  | .variant ts, v, b, _, h => by obtain ⟨i, x, hd, e, rfl, h, h2, rfl⟩ := h; have := size_ne_nil h; simp [this]
  | .struct ts, v, b, hn, h => by obtain ⟨l, rfl, h⟩ := h; exact layoutFields_ne_nil ts l b hn h
  | .maybe _ t, v, b, hn, h => layout_ne_nil t v b hn h
theorem layoutFields_ne_nil : ∀ ts l b, NonEmptySome ts → LayoutFields ts l b → b ≠ []
  | [], _, _, hn, _ => hn.elim
  | t :: ts, l, b, hn, h => by
    obtain ⟨v, l', x, y, rfl, h1, h2, rfl⟩ := h
    rcases hn with hn | hn
    · have := layout_ne_nil t v x hn h1; simp [this]
    · have := layoutFields_ne_nil ts l' y hn h2; simp [this]
end

theorem readN_elems {R : BVal → Bytes → Prop} {f : Reader BVal} (hf : ∀ v b, R v b → ∀ rest, f (b ++ rest) = .ok (v, rest)) :
    ∀ l e, Elems R l e → ∀ rest, readN f l.length (e ++ rest) = .ok (l, rest)
  | [], e, h, rest => by rw [show e = [] from h]; rfl
  | v :: l, e, h, rest => by
    obtain ⟨x, y, h1, h2, rfl⟩ := h
    rw [List.length_cons, readN, List.append_assoc, hf v x h1]
    simp only [bind_ok]
    rw [readN_elems hf l y h2]; rfl

theorem emplace_last {lt : BVal → BVal → Bool} {x : BVal} : ∀ acc, (∀ y ∈ acc, lt y x = true) → emplaceSorted lt x acc = acc ++ [x]
  | [], _ => rfl
  | y :: l, h => by
    rw [emplaceSorted, if_pos (h y (by simp)), emplace_last l (fun z hz => h z (by simp [hz]))]; rfl

theorem readAssoc_elems {lt : BVal → BVal → Bool} {R : BVal → Bytes → Prop} {f : Reader BVal}
    (hf : ∀ v b, R v b → ∀ rest, f (b ++ rest) = .ok (v, rest)) :
    ∀ l e acc, (acc ++ l).Pairwise (fun x y => lt x y = true) → Elems R l e → ∀ rest, readAssoc lt f l.length acc (e ++ rest) = .ok (acc ++ l, rest)
  | [], e, acc, _, h, rest => by rw [show e = [] from h]; simp [readAssoc]
  | v :: l, e, acc, hp, h, rest => by
    obtain ⟨x, y, h1, h2, rfl⟩ := h
    rw [List.length_cons, readAssoc, List.append_assoc, hf v x h1]
    simp only [bind_ok]
    rw [emplace_last acc (fun y hy => (List.pairwise_append.1 hp).2.2 y hy v (by simp)),
      readAssoc_elems hf l y (acc ++ [v]) (by rw [List.append_assoc]; exact hp) h2, List.append_assoc]; rfl

mutual
theorem layout_read : ∀ t v b, WfType t → Layout t v b → ∀ rest, fromBin t (b ++ rest) = .ok (v, rest)
  | .raw n, v, b, _, h, rest => by
    obtain ⟨rfl, h⟩ := h
    rw [fromBin]; beta_reduce; rw [readBytes_append n b rest h]; rfl
  | .bool, v, b, _, h, rest => by obtain ⟨rfl, rfl | rfl⟩ := h <;> rfl
  | .varuint32, v, b, _, h, rest => by
    obtain ⟨n, rfl, h⟩ := h
    rw [fromBin]; beta_reduce; rw [size_read h]; rfl
  | .varint32, v, b, _, h, rest => by
    obtain ⟨n, rfl, hn, h⟩ := h
    have h1 : varint32FromBin (b ++ rest) = .ok (BitVec.ofNat 32 n, rest) := by
      unfold varint32FromBin
      rw [size_read ⟨zz_lt hn, h⟩, bind_ok, ← zz_eq hn]
      simp [unzigzag_zigzag, pure, Except.pure]
    rw [fromBin]; beta_reduce; rw [h1, bind_ok]
    simp only [BitVec.toNat_ofNat]
    rw [Nat.mod_eq_of_lt hn]
  | .str, v, b, _, h, rest => by
    obtain ⟨hd, s, rfl, h, rfl⟩ := h
    rw [fromBin]; beta_reduce; rw [List.append_assoc, size_read h, bind_ok]
    simp only
    rw [readBytes_append _ s rest rfl]; rfl
  | .rawVec n, v, b, hw, h, rest => by
    obtain ⟨hd, s, k, rfl, h, hk, hk', rfl⟩ := h
    have hn : 0 < n := hw
    have hmax : k ≤ vectorMax n := by
      unfold vectorMax
      rw [Nat.le_div_iff_mul_le hn]; omega
    have hmod : k * n % 2 ^ 64 = k * n := Nat.mod_eq_of_lt (by omega)
    rw [fromBin]; beta_reduce; rw [List.append_assoc, size_read64 h, bind_ok]
    simp only [hmod]
    rw [decide_eq_true (show k * n ≤ (s ++ rest).length by rw [List.length_append, hk]; omega), decide_eq_true hmax]
    simp only [check_true, bind_ok]
    rw [readBytes_append _ s rest hk]; rfl
  | .vec t, v, b, hw, h, rest => by
    obtain ⟨hd, l, e, rfl, h, he, rfl⟩ := h
    rw [fromBin]; beta_reduce; rw [List.append_assoc, size_read h, bind_ok]
    simp only
    rw [readN_elems (fun v b hv => layout_read t v b hw hv) l e he]; rfl
  | .set lt t, v, b, hw, h, rest => by
    obtain ⟨hd, l, e, rfl, hp, h, he, rfl⟩ := h
    rw [fromBin]; beta_reduce; rw [List.append_assoc, size_read h, bind_ok]
    simp only
    rw [readAssoc_elems (fun v b hv => layout_read t v b hw.1 hv) l e [] hp he]; rfl
  | .map lt k u, v, b, hw, h, rest => by
    obtain ⟨hd, l, e, rfl, hp, h, he, rfl⟩ := h
    rw [fromBin]; beta_reduce; rw [List.append_assoc, size_read h, bind_ok]
    simp only
    rw [readAssoc_elems (R := fun p b => ∃ x y bx b', p = .list [x, y] ∧ Layout k x bx ∧ Layout u y b' ∧ b = bx ++ b') ?_ l e [] ?_ he]
    · rfl
    · rintro v b ⟨x, y, bx, b', rfl, h1, h2, rfl⟩ rest
      rw [List.append_assoc, layout_read k x bx hw.1 h1]
      simp only [bind_ok]
      rw [layout_read u y b' hw.2.1 h2]; rfl
    · refine hp.imp ?_
      rintro p q ⟨x, y, x', y', rfl, rfl, h⟩
      exact h
  | .stream, v, b, _, h, rest => by
    obtain ⟨hd, s, rfl, h, rfl⟩ := h
    rw [fromBin]; beta_reduce; rw [List.append_assoc, size_read64 h, bind_ok]
    simp only
    rw [decide_eq_true (show s.length ≤ (s ++ rest).length by rw [List.length_append]; omega)]
    simp only [check_true, bind_ok]
    rw [readBytes_append _ s rest rfl]; rfl
  | .carr n t, v, b, hw, h, rest => by
    obtain ⟨hd, l, e, rfl, rfl, h, he, rfl⟩ := h
    rw [fromBin]; beta_reduce; rw [List.append_assoc, size_read h, bind_ok]
    simp only [beq_self_eq_true, check_true, bind_ok]
    rw [readN_elems (fun v b hv => layout_read t v b hw.2 hv) l e he]; rfl
  | .arr n t, v, b, hw, h, rest => by
    obtain ⟨l, rfl, rfl, h⟩ := h
    rw [fromBin]; beta_reduce; rw [readN_elems (fun v b hv => layout_read t v b hw hv) l b h]; rfl
  | .opt t, v, b, hw, h, rest => by
    rcases h with ⟨rfl, rfl⟩ | ⟨x, e, rfl, h, rfl⟩
    · rfl
    · rw [fromBin]; beta_reduce; rw [List.cons_append, readU8, bind_ok]
      simp only
      rw [if_neg (by decide), layout_read t x e hw h]; rfl
  | .variant ts, v, b, hw, h, rest => by
    obtain ⟨i, x, hd, e, rfl, h, h2, rfl⟩ := h
    rw [fromBin]; beta_reduce; rw [List.append_assoc, size_read h, bind_ok]
    simp only
    rw [layoutAlt_read ts i x e hw.2 h2]; rfl
  | .struct ts, v, b, hw, h, rest => by
    obtain ⟨l, rfl, h⟩ := h
    rw [fromBin]; beta_reduce; rw [layoutFields_read ts l b hw h]; rfl
  | .maybe _ t, v, b, hw, h, rest => by
    have := layout_ne_nil t v b hw.2.1 h
    rw [fromBin]; beta_reduce; rw [if_neg (by simp [this])]
    exact layout_read t v b hw.1 h rest
theorem layoutAlt_read : ∀ ts i v b, WfTypes ts → LayoutAlt ts i v b → ∀ rest, variantFromBin ts i (b ++ rest) = .ok (v, rest)
  | [], _, _, _, _, h, _ => h.elim
  | t :: ts, i, v, b, hw, h, rest => by
    rcases h with ⟨rfl, h⟩ | ⟨j, rfl, h⟩
    · rw [variantFromBin]; exact layout_read t v b hw.1 h rest
    · rw [variantFromBin]; exact layoutAlt_read ts j v b hw.2 h rest
theorem layoutFields_read : ∀ ts l b, WfTypes ts → LayoutFields ts l b → ∀ rest, fromBinFields ts (b ++ rest) = .ok (l, rest)
  | [], l, b, _, h, rest => by obtain ⟨rfl, rfl⟩ := h; rfl
  | t :: ts, l, b, hw, h, rest => by
    obtain ⟨v, l', x, y, rfl, h1, h2, rfl⟩ := h
    rw [fromBinFields]; beta_reduce; rw [List.append_assoc, layout_read t v x hw.1 h1]
    simp only [bind_ok]
    rw [layoutFields_read ts l' y hw.2 h2]; rfl
end

/-! ### reading arbitrary bytes -/

/-- what a successful read gives -/
def Took (R : BVal → Bytes → Prop) (s : Bytes) (v : BVal) (r : Bytes) : Prop :=
  (∃ p, s = p ++ r) ∧ (s.length < 2 ^ 32 → ∃ b, R v b)

theorem readN_took {R : BVal → Bytes → Prop} {f : Reader BVal} (hf : ∀ s v r, f s = .ok (v, r) → Took R s v r) :
    ∀ n s l r, readN f n s = .ok (l, r) → (∃ p, s = p ++ r) ∧ l.length = n ∧ (s.length < 2 ^ 32 → ∃ e, Elems R l e)
  | 0, s, l, r, h => by
    simp only [readN, Except.ok.injEq, Prod.mk.injEq] at h
    obtain ⟨rfl, rfl⟩ := h
    exact ⟨⟨[], rfl⟩, rfl, fun _ => ⟨[], rfl⟩⟩
  | n + 1, s, l, r, h => by
    rw [readN] at h
    obtain ⟨⟨v, s1⟩, h1, h⟩ := bind_eq_ok.1 h
    obtain ⟨⟨l', s2⟩, h2, h⟩ := bind_eq_ok.1 h
    simp only [Except.ok.injEq, Prod.mk.injEq] at h
    obtain ⟨rfl, rfl⟩ := h
    obtain ⟨⟨p, rfl⟩, hb⟩ := hf s v s1 h1
    obtain ⟨⟨q, rfl⟩, hl, he⟩ := readN_took hf n s1 l' s2 h2
    refine ⟨⟨p ++ q, by simp⟩, by simp [hl], fun hs => ?_⟩
    obtain ⟨b, hb⟩ := hb hs
    obtain ⟨e, he⟩ := he (by simp at hs ⊢; omega)
    exact ⟨b ++ e, b, e, hb, he, rfl⟩

theorem emplace_mem {lt : BVal → BVal → Bool} {x y : BVal} : ∀ {l}, y ∈ emplaceSorted lt x l → y = x ∨ y ∈ l
  | [], h => by simpa [emplaceSorted] using h
  | z :: l, h => by
    rw [emplaceSorted] at h
    split at h
    · rcases List.mem_cons.1 h with rfl | h
      · simp
      · rcases emplace_mem h with h | h <;> simp [h]
    · split at h
      · simpa using h
      · exact .inr h

theorem emplace_sorted {lt : BVal → BVal → Bool} (tr : ∀ x y z, lt x y = true → lt y z = true → lt x z = true) {x : BVal} :
    ∀ l : List BVal, l.Pairwise (fun x y => lt x y = true) → (emplaceSorted lt x l).Pairwise (fun x y => lt x y = true)
  | [], _ => by simp [emplaceSorted]
  | y :: l, h => by
    rw [emplaceSorted]
    obtain ⟨h1, h2⟩ := List.pairwise_cons.1 h
    split
    · rename_i hy
      refine List.pairwise_cons.2 ⟨fun z hz => ?_, emplace_sorted tr l h2⟩
      rcases emplace_mem hz with rfl | hz
      · exact hy
      · exact h1 z hz
    · split
      · rename_i hx
        refine List.pairwise_cons.2 ⟨fun z hz => ?_, h⟩
        rcases List.mem_cons.1 hz with rfl | hz
        · exact hx
        · exact tr _ _ _ hx (h1 z hz)
      · exact h

theorem elems_of_forall {R : BVal → Bytes → Prop} : ∀ {l : List BVal}, (∀ v ∈ l, ∃ b, R v b) → ∃ e, Elems R l e
  | [], _ => ⟨[], rfl⟩
  | v :: l, h => by
    obtain ⟨b, hb⟩ := h v (by simp)
    obtain ⟨e, he⟩ := elems_of_forall (l := l) (fun v hv => h v (by simp [hv]))
    exact ⟨b ++ e, b, e, hb, he, rfl⟩

theorem emplace_length {lt : BVal → BVal → Bool} {x : BVal} : ∀ l, (emplaceSorted lt x l).length ≤ l.length + 1
  | [] => by simp [emplaceSorted]
  | y :: l => by
    rw [emplaceSorted]
    have := emplace_length (lt := lt) (x := x) l
    split
    · simp; omega
    · split <;> simp

theorem readAssoc_took {lt : BVal → BVal → Bool} (tr : ∀ x y z, lt x y = true → lt y z = true → lt x z = true)
    {R : BVal → Bytes → Prop} {f : Reader BVal} (hf : ∀ s v r, f s = .ok (v, r) → Took R s v r) :
    ∀ n acc s l r, readAssoc lt f n acc s = .ok (l, r) → acc.Pairwise (fun x y => lt x y = true) →
      (∃ p, s = p ++ r) ∧ l.Pairwise (fun x y => lt x y = true) ∧ l.length ≤ acc.length + n ∧
        (s.length < 2 ^ 32 → ∀ v ∈ l, v ∈ acc ∨ ∃ b, R v b)
  | 0, acc, s, l, r, h, hp => by
    simp only [readAssoc, Except.ok.injEq, Prod.mk.injEq] at h
    obtain ⟨rfl, rfl⟩ := h
    exact ⟨⟨[], rfl⟩, hp, by simp, fun _ v hv => .inl hv⟩
  | n + 1, acc, s, l, r, h, hp => by
    rw [readAssoc] at h
    obtain ⟨⟨v, s1⟩, h1, h'⟩ := bind_eq_ok.1 h
    clear h
    have h : readAssoc lt f n (emplaceSorted lt v acc) s1 = .ok (l, r) := h'
    clear h'
    obtain ⟨⟨p, rfl⟩, hb⟩ := hf s v s1 h1
    obtain ⟨⟨q, rfl⟩, hl, hlen, he⟩ := readAssoc_took tr hf n _ s1 l r h (emplace_sorted tr acc hp)
    have := emplace_length (lt := lt) (x := v) acc
    refine ⟨⟨p ++ q, by simp⟩, hl, by omega, fun hs x hx => ?_⟩
    rcases he (by simp at hs ⊢; omega) x hx with h | h
    · rcases emplace_mem h with rfl | h
      · exact .inr (hb hs)
      · exact .inl h
    · exact .inr h

theorem ltKey_trans {lt : BVal → BVal → Bool} (tr : ∀ x y z, lt x y = true → lt y z = true → lt x z = true) :
    ∀ x y z, ltKey lt x y = true → ltKey lt y z = true → ltKey lt x z = true := by
  intro x y z h1 h2
  unfold ltKey at *
  split at h1
  · split at h2
    · rename_i e
      injection e with e; injection e with e1 e2
      subst e1
      exact tr _ _ _ h1 h2
    · simp at h2
  · simp at h1

theorem varuint_took {s r : Bytes} {n : Nat} (h : varuint32FromBin s = .ok (n, r)) : (∃ p, s = p ++ r) ∧ ∃ b, Size n b := by
  obtain ⟨h1, a, b, h2, h3, h4, h5, h6⟩ := c01_varuint32_read s r n h
  exact ⟨⟨a, h2⟩, b, size_iff.2 h5⟩

mutual
theorem fromBin_took : ∀ t s v r, WfType t → fromBin t s = .ok (v, r) → Took (Layout t) s v r
  | .raw n, s, v, r, _, h => by
    rw [fromBin] at h
    obtain ⟨⟨b, s1⟩, h1, h⟩ := bind_eq_ok.1 h
    simp only [Except.ok.injEq, Prod.mk.injEq] at h
    obtain ⟨rfl, rfl⟩ := h
    obtain ⟨h2, h3⟩ := readBytes_ok h1
    exact ⟨⟨b, h2⟩, fun _ => ⟨b, rfl, h3⟩⟩
  | .bool, s, v, r, _, h => by
    rw [fromBin] at h
    obtain ⟨⟨b, s1⟩, h1, h⟩ := bind_eq_ok.1 h
    simp only [Except.ok.injEq, Prod.mk.injEq] at h
    obtain ⟨rfl, rfl⟩ := h
    refine ⟨⟨[b], readU8_ok h1⟩, fun _ => ⟨_, rfl, ?_⟩⟩
    by_cases hb : b = 0 <;> simp [hb]
  | .varuint32, s, v, r, _, h => by
    rw [fromBin] at h
    obtain ⟨⟨n, s1⟩, h1, h⟩ := bind_eq_ok.1 h
    simp only [Except.ok.injEq, Prod.mk.injEq] at h
    obtain ⟨rfl, rfl⟩ := h
    obtain ⟨hp, b, hb⟩ := varuint_took h1
    exact ⟨hp, fun _ => ⟨b, n, rfl, hb⟩⟩
  | .varint32, s, v, r, _, h => by
    rw [fromBin] at h
    obtain ⟨⟨n, s1⟩, h1, h⟩ := bind_eq_ok.1 h
    simp only [Except.ok.injEq, Prod.mk.injEq] at h
    obtain ⟨rfl, rfl⟩ := h
    unfold varint32FromBin at h1
    obtain ⟨⟨m, s2⟩, h2, h3⟩ := bind_eq_ok.1 h1
    simp only [pure, Except.pure, Except.ok.injEq, Prod.mk.injEq] at h3
    obtain ⟨-, rfl⟩ := h3
    obtain ⟨hp, -⟩ := varuint_took h2
    exact ⟨hp, fun _ => ⟨varuintLoop (zz n.toNat), n.toNat, rfl, n.isLt, leb_iff.2 rfl⟩⟩
  | .str, s, v, r, _, h => by
    rw [fromBin] at h
    obtain ⟨⟨n, s1⟩, h1, h⟩ := bind_eq_ok.1 h
    obtain ⟨⟨b, s2⟩, h2, h⟩ := bind_eq_ok.1 h
    simp only [Except.ok.injEq, Prod.mk.injEq] at h
    obtain ⟨rfl, rfl⟩ := h
    obtain ⟨⟨p, rfl⟩, hd, hs⟩ := varuint_took h1
    obtain ⟨rfl, rfl⟩ := readBytes_ok h2
    exact ⟨⟨p ++ b, by simp⟩, fun _ => ⟨hd ++ b, hd, b, rfl, hs, rfl⟩⟩
  | .rawVec n, s, v, r, hw, h => by
    rw [fromBin] at h
    obtain ⟨⟨k, s1⟩, h1, h⟩ := bind_eq_ok.1 h
    obtain ⟨_, h2, h⟩ := bind_eq_ok.1 h
    obtain ⟨_, h3, h⟩ := bind_eq_ok.1 h
    obtain ⟨⟨b, s2⟩, h4, h⟩ := bind_eq_ok.1 h
    simp only [Except.ok.injEq, Prod.mk.injEq] at h
    obtain ⟨rfl, rfl⟩ := h
    obtain ⟨-, p, rfl, -⟩ := c01_varuint64_read _ _ _ h1
    have hn : 0 < n := hw
    have hmax : k * n < 2 ^ 63 := by
      have := of_decide_eq_true (check_eq_ok.1 h3)
      unfold vectorMax at this
      rw [Nat.le_div_iff_mul_le hn] at this
      omega
    simp only [Nat.mod_eq_of_lt (show k * n < 2 ^ 64 by omega)] at h2 h4
    obtain ⟨rfl, hb⟩ := readBytes_ok h4
    refine ⟨⟨p ++ b, by simp⟩, fun hs => ?_⟩
    have hk : k < 2 ^ 32 := by
      simp at hs
      have : k * 1 ≤ k * n := Nat.mul_le_mul_left _ hn
      omega
    obtain ⟨hd, hhd⟩ := size_exists hk
    exact ⟨hd ++ b, hd, b, k, rfl, hhd, hb, hmax, rfl⟩
  | .vec t, s, v, r, hw, h => by
    rw [fromBin] at h
    obtain ⟨⟨n, s1⟩, h1, h⟩ := bind_eq_ok.1 h
    obtain ⟨⟨l, s2⟩, h2, h⟩ := bind_eq_ok.1 h
    simp only [Except.ok.injEq, Prod.mk.injEq] at h
    obtain ⟨rfl, rfl⟩ := h
    obtain ⟨⟨p, rfl⟩, hd, hs⟩ := varuint_took h1
    obtain ⟨⟨q, rfl⟩, hl, he⟩ := readN_took (R := Layout t) (fun s v r => fromBin_took t s v r hw) _ _ _ _ h2
    refine ⟨⟨p ++ q, by simp⟩, fun hlen => ?_⟩
    obtain ⟨e, he⟩ := he (by simp at hlen ⊢; omega)
    exact ⟨hd ++ e, hd, l, e, rfl, hl ▸ hs, he, rfl⟩
  | .set lt t, s, v, r, hw, h => by
    rw [fromBin] at h
    obtain ⟨⟨n, s1⟩, h1, h⟩ := bind_eq_ok.1 h
    obtain ⟨⟨l, s2⟩, h2, h⟩ := bind_eq_ok.1 h
    simp only [Except.ok.injEq, Prod.mk.injEq] at h
    obtain ⟨rfl, rfl⟩ := h
    obtain ⟨⟨p, rfl⟩, hd, hs⟩ := varuint_took h1
    obtain ⟨⟨q, rfl⟩, hl, hlen, he⟩ := readAssoc_took hw.2 (R := Layout t) (fun s v r => fromBin_took t s v r hw.1) _ _ _ _ _ h2 (by simp)
    refine ⟨⟨p ++ q, by simp⟩, fun hlen' => ?_⟩
    have he := he (by simp at hlen' ⊢; omega)
    obtain ⟨e, he⟩ := elems_of_forall (R := Layout t) (l := l) (fun v hv => (he v hv).resolve_left (by simp))
    obtain ⟨hd', hs'⟩ := size_exists (n := l.length) (by have := hs.1; simp at hlen; omega)
    exact ⟨hd' ++ e, hd', l, e, rfl, hl, hs', he, rfl⟩
  | .map lt k u, s, v, r, hw, h => by
    rw [fromBin] at h
    obtain ⟨⟨n, s1⟩, h1, h⟩ := bind_eq_ok.1 h
    obtain ⟨⟨l, s2⟩, h2, h⟩ := bind_eq_ok.1 h
    simp only [Except.ok.injEq, Prod.mk.injEq] at h
    obtain ⟨rfl, rfl⟩ := h
    obtain ⟨⟨p, rfl⟩, hd, hs⟩ := varuint_took h1
    obtain ⟨⟨q, rfl⟩, hl, hlen, he⟩ := readAssoc_took (ltKey_trans hw.2.2)
      (R := fun p b => ∃ x y bx b', p = .list [x, y] ∧ Layout k x bx ∧ Layout u y b' ∧ b = bx ++ b') (by
        intro s v r h
        obtain ⟨⟨a, s1⟩, h1, h⟩ := bind_eq_ok.1 h
        obtain ⟨⟨b, s2⟩, h2, h⟩ := bind_eq_ok.1 h
        simp only [Except.ok.injEq, Prod.mk.injEq] at h
        obtain ⟨rfl, rfl⟩ := h
        obtain ⟨⟨p, rfl⟩, ha⟩ := fromBin_took k _ _ _ hw.1 h1
        obtain ⟨⟨q, rfl⟩, hb⟩ := fromBin_took u _ _ _ hw.2.1 h2
        refine ⟨⟨p ++ q, by simp⟩, fun hs => ?_⟩
        obtain ⟨ba, ha⟩ := ha hs
        obtain ⟨bb, hb⟩ := hb (by simp at hs ⊢; omega)
        exact ⟨_, a, b, ba, bb, rfl, ha, hb, rfl⟩) _ _ _ _ _ h2 (by simp)
    refine ⟨⟨p ++ q, by simp⟩, fun hlen' => ?_⟩
    have he := he (by simp at hlen' ⊢; omega)
    obtain ⟨e, he'⟩ := elems_of_forall (R := fun p b => ∃ x y bx b', p = .list [x, y] ∧ Layout k x bx ∧ Layout u y b' ∧ b = bx ++ b')
      (l := l) (fun v hv => (he v hv).resolve_left (by simp))
    obtain ⟨hd', hs'⟩ := size_exists (n := l.length) (by have := hs.1; simp at hlen; omega)
    refine ⟨hd' ++ e, hd', l, e, rfl, ?_, hs', he', rfl⟩
    refine List.Pairwise.imp_of_mem ?_ hl
    intro p q hp hq hlt
    obtain ⟨_, x, y, _, _, rfl, -⟩ := (he p hp).resolve_left (by simp)
    obtain ⟨_, x', y', _, _, rfl, -⟩ := (he q hq).resolve_left (by simp)
    exact ⟨x, y, x', y', rfl, rfl, hlt⟩
  | .stream, s, v, r, _, h => by
    rw [fromBin] at h
    obtain ⟨⟨k, s1⟩, h1, h⟩ := bind_eq_ok.1 h
    obtain ⟨_, h2, h⟩ := bind_eq_ok.1 h
    obtain ⟨⟨b, s2⟩, h4, h⟩ := bind_eq_ok.1 h
    simp only [Except.ok.injEq, Prod.mk.injEq] at h
    obtain ⟨rfl, rfl⟩ := h
    obtain ⟨-, p, rfl, -⟩ := c01_varuint64_read _ _ _ h1
    obtain ⟨rfl, rfl⟩ := readBytes_ok h4
    refine ⟨⟨p ++ b, by simp⟩, fun hs => ?_⟩
    obtain ⟨hd, hhd⟩ := size_exists (n := b.length) (by simp at hs; omega)
    exact ⟨hd ++ b, hd, b, rfl, hhd, rfl⟩
  | .carr n t, s, v, r, hw, h => by
    rw [fromBin] at h
    obtain ⟨⟨k, s1⟩, h1, h⟩ := bind_eq_ok.1 h
    obtain ⟨_, h3, h⟩ := bind_eq_ok.1 h
    obtain ⟨⟨l, s2⟩, h2, h⟩ := bind_eq_ok.1 h
    simp only [Except.ok.injEq, Prod.mk.injEq] at h
    obtain ⟨rfl, rfl⟩ := h
    obtain rfl : k = n := by simpa using check_eq_ok.1 h3
    obtain ⟨⟨p, rfl⟩, hd, hs⟩ := varuint_took h1
    obtain ⟨⟨q, rfl⟩, hl, he⟩ := readN_took (R := Layout t) (fun s v r => fromBin_took t s v r hw.2) _ _ _ _ h2
    refine ⟨⟨p ++ q, by simp⟩, fun hlen => ?_⟩
    obtain ⟨e, he⟩ := he (by simp at hlen ⊢; omega)
    exact ⟨hd ++ e, hd, l, e, rfl, hl, hs, he, rfl⟩
  | .arr n t, s, v, r, hw, h => by
    rw [fromBin] at h
    obtain ⟨⟨l, s2⟩, h2, h⟩ := bind_eq_ok.1 h
    simp only [Except.ok.injEq, Prod.mk.injEq] at h
    obtain ⟨rfl, rfl⟩ := h
    obtain ⟨hp, hl, he⟩ := readN_took (R := Layout t) (fun s v r => fromBin_took t s v r hw) _ _ _ _ h2
    refine ⟨hp, fun hlen => ?_⟩
    obtain ⟨e, he⟩ := he hlen
    exact ⟨e, l, rfl, hl, he⟩
  | .opt t, s, v, r, hw, h => by
    rw [fromBin] at h
    obtain ⟨⟨b, s1⟩, h1, h'⟩ := bind_eq_ok.1 h
    clear h
    have h := h'
    clear h'
    have := readU8_ok h1
    subst this
    simp only at h
    split at h
    · simp only [Except.ok.injEq, Prod.mk.injEq] at h
      obtain ⟨rfl, rfl⟩ := h
      exact ⟨⟨[b], rfl⟩, fun _ => ⟨[0], .inl ⟨rfl, rfl⟩⟩⟩
    · obtain ⟨⟨x, s2⟩, h2, h⟩ := bind_eq_ok.1 h
      simp only [Except.ok.injEq, Prod.mk.injEq] at h
      obtain ⟨rfl, rfl⟩ := h
      obtain ⟨⟨p, rfl⟩, hb⟩ := fromBin_took t _ _ _ hw h2
      refine ⟨⟨b :: p, rfl⟩, fun hs => ?_⟩
      obtain ⟨e, he⟩ := hb (by simp at hs ⊢; omega)
      exact ⟨1 :: e, .inr ⟨x, e, rfl, he, rfl⟩⟩
  | .variant ts, s, v, r, hw, h => by
    rw [fromBin] at h
    obtain ⟨⟨n, s1⟩, h1, h⟩ := bind_eq_ok.1 h
    obtain ⟨⟨x, s2⟩, h2, h⟩ := bind_eq_ok.1 h
    simp only [Except.ok.injEq, Prod.mk.injEq] at h
    obtain ⟨rfl, rfl⟩ := h
    obtain ⟨⟨p, rfl⟩, hd, hs⟩ := varuint_took h1
    obtain ⟨⟨q, rfl⟩, he⟩ := variantFromBin_took ts n s1 x s2 hw.2 h2
    refine ⟨⟨p ++ q, by simp⟩, fun hlen => ?_⟩
    obtain ⟨e, he⟩ := he (by simp at hlen ⊢; omega)
    exact ⟨hd ++ e, n, x, hd, e, rfl, hs, he, rfl⟩
  | .struct ts, s, v, r, hw, h => by
    rw [fromBin] at h
    obtain ⟨⟨l, s1⟩, h1, h⟩ := bind_eq_ok.1 h
    simp only [Except.ok.injEq, Prod.mk.injEq] at h
    obtain ⟨rfl, rfl⟩ := h
    obtain ⟨hp, he⟩ := fromBinFields_took ts s l s1 hw h1
    refine ⟨hp, fun hs => ?_⟩
    obtain ⟨e, he⟩ := he hs
    exact ⟨e, l, rfl, he⟩
  | .maybe d t, s, v, r, hw, h => by
    rw [fromBin] at h
    beta_reduce at h
    split at h
    · rename_i hs
      simp only [Except.ok.injEq, Prod.mk.injEq] at h
      obtain ⟨rfl, rfl⟩ := h
      exact ⟨⟨[], rfl⟩, fun _ => hw.2.2⟩
    · exact fromBin_took t s v r hw.1 h
theorem variantFromBin_took : ∀ ts i s v r, WfTypes ts → variantFromBin ts i s = .ok (v, r) → Took (LayoutAlt ts i) s v r
  | [], _, _, _, _, _, h => by simp [variantFromBin] at h
  | t :: ts, 0, s, v, r, hw, h => by
    rw [variantFromBin] at h
    obtain ⟨hp, hb⟩ := fromBin_took t s v r hw.1 h
    exact ⟨hp, fun hs => (hb hs).imp fun b hb => .inl ⟨rfl, hb⟩⟩
  | t :: ts, i + 1, s, v, r, hw, h => by
    rw [variantFromBin] at h
    obtain ⟨hp, hb⟩ := variantFromBin_took ts i s v r hw.2 h
    exact ⟨hp, fun hs => (hb hs).imp fun b hb => .inr ⟨i, rfl, hb⟩⟩
theorem fromBinFields_took : ∀ ts s l r, WfTypes ts → fromBinFields ts s = .ok (l, r) →
    (∃ p, s = p ++ r) ∧ (s.length < 2 ^ 32 → ∃ b, LayoutFields ts l b)
  | [], s, l, r, _, h => by
    simp only [fromBinFields, Except.ok.injEq, Prod.mk.injEq] at h
    obtain ⟨rfl, rfl⟩ := h
    exact ⟨⟨[], rfl⟩, fun _ => ⟨[], rfl, rfl⟩⟩
  | t :: ts, s, l, r, hw, h => by
    rw [fromBinFields] at h
    obtain ⟨⟨v, s1⟩, h1, h⟩ := bind_eq_ok.1 h
    obtain ⟨⟨l', s2⟩, h2, h⟩ := bind_eq_ok.1 h
    simp only [Except.ok.injEq, Prod.mk.injEq] at h
    obtain ⟨rfl, rfl⟩ := h
    obtain ⟨⟨p, rfl⟩, hb⟩ := fromBin_took t _ _ _ hw.1 h1
    obtain ⟨⟨q, rfl⟩, he⟩ := fromBinFields_took ts s1 l' s2 hw.2 h2
    refine ⟨⟨p ++ q, by simp⟩, fun hs => ?_⟩
    obtain ⟨b, hb⟩ := hb hs
    obtain ⟨e, he⟩ := he (by simp at hs ⊢; omega)
    exact ⟨b ++ e, v, l', b, e, rfl, hb, he, rfl⟩
end

/-! ## Theorems -/

/-- **C21.** A value of a supported type whose format is `b` is written as `b` (appended to what the buffer held), and reading from `b`
followed by anything gives back the value and leaves what followed. -/
theorem c21_roundtrip {t : BTy} {v : BVal} {b : Bytes} (hw : WfType t) (h : Layout t v b) :
    (∀ bin, convertToBin t v bin = .ok (bin ++ b)) ∧ ∀ rest, fromBin t (b ++ rest) = .ok (v, rest) :=
  ⟨fun bin => by rw [convertToBin_eq, layout_write t v b hw h], layout_read t v b hw h⟩

/-- Two values of a type with the same serialization are equal, and no serialization is a proper prefix of another. -/
theorem c21_injective {t : BTy} {v v' : BVal} {b b' r r' : Bytes} (hw : WfType t) (h : Layout t v b) (h' : Layout t v' b')
    (e : b ++ r = b' ++ r') : v = v' ∧ b = b' ∧ r = r' := by
  have h1 := layout_read t v b hw h r
  have h2 := layout_read t v' b' hw h' r'
  rw [e, h2] at h1
  simp only [Except.ok.injEq, Prod.mk.injEq] at h1
  obtain ⟨rfl, rfl⟩ := h1
  exact ⟨rfl, List.append_cancel_right e, rfl⟩

/-- **C22.** `convert_to_bin` (size pass, allocation, write pass into the fixed buffer, completeness check) gives, for every value and
whether or not it can be serialized, exactly the result of writing to a growing vector: the second pass never overruns the buffer and
always fills it. -/
theorem c22_two_passes (t : BTy) (v : BVal) (bin : Bytes) : convertToBin t v bin = toBinG vectorWrite t v bin :=
  convertToBin_eq t v bin

theorem varuint_err {n : Nat} {e : Err} (h : varuint32ToBin n = .error e) : e = .varuint_too_big := by
  unfold varuint32ToBin at h
  split at h
  · injection h with h; exact h.symm
  · simp at h

/-- **C22.** In particular the errors of `convert_to_bin` are never `overrun` or `underrun`: a container with 2^32 elements or more is
refused with `varuint_too_big` in the size pass (`ub` stands for a value that is not of the type). -/
theorem c22_errors {t : BTy} {v : BVal} {bin : Bytes} {e : Err} (h : convertToBin t v bin = .error e) : e = .varuint_too_big ∨ e = .ub := by
  rw [convertToBin_eq] at h
  have hall : ∀ {f : BVal → Bytes → Res Bytes}, (∀ v s e, f v s = .error e → e = .varuint_too_big ∨ e = .ub) →
      ∀ l s e, writeAll f l s = .error e → e = .varuint_too_big ∨ e = .ub := by
    intro f hf l
    induction l with
    | nil => intro s e h; simp [writeAll] at h
    | cons v l ih =>
      intro s e h
      rw [writeAll] at h
      cases h1 : f v s with
      | error e' => rw [h1] at h; simp at h; exact h ▸ hf v s e' h1
      | ok s' => rw [h1] at h; exact ih _ _ h
  have hvar : ∀ n s e, varuint32Write vectorWrite n s = .error e → e = .varuint_too_big ∨ e = .ub := by
    intro n s e h
    unfold varuint32Write at h
    cases h1 : varuint32ToBin n with
    | error e' => rw [h1] at h; simp at h; exact .inl (h ▸ varuint_err h1)
    | ok b => rw [h1, bind_ok, writeEach_vector] at h; simp at h
  have hbind : ∀ {f g : Bytes → Res Bytes}, (∀ s e, f s = .error e → e = .varuint_too_big ∨ e = .ub) →
      (∀ s e, g s = .error e → e = .varuint_too_big ∨ e = .ub) → ∀ s e, (f s >>= g) = .error e → e = .varuint_too_big ∨ e = .ub := by
    intro f g hf hg s e h
    cases h1 : f s with
    | error e' => rw [h1] at h; simp at h; exact h ▸ hf s e' h1
    | ok s' => rw [h1] at h; exact hg _ _ h
  have hw : ∀ b s e, vectorWrite b s = .error e → e = .varuint_too_big ∨ e = .ub := by intro b s e h; simp [vectorWrite] at h
  have hub : ∀ (s : Bytes) e, (Except.error Err.ub : Res Bytes) = .error e → e = .varuint_too_big ∨ e = .ub := by
    intro s e h; injection h with h; exact .inr h.symm
  let P (f : Bytes → Res Bytes) : Prop := ∀ s e, f s = .error e → e = .varuint_too_big ∨ e = .ub
  have main : (∀ t v, P (toBinG vectorWrite t v)) := by
    intro t
    refine BTy.rec (motive_1 := fun t => ∀ v, P (toBinG vectorWrite t v))
      (motive_2 := fun ts => (∀ i v, P (toBinAlt vectorWrite ts i v)) ∧ ∀ l, P (toBinFields vectorWrite ts l))
      ?_ ?_ ?_ ?_ ?_ ?_ ?_ ?_ ?_ ?_ ?_ ?_ ?_ ?_ ?_ ?_ ?_ ?_ t
    · intro n v; cases v <;> first | exact hub | exact hw _
    · intro v; cases v <;> first | exact hub | exact hw _
    · intro v; cases v <;> first | exact hub | exact hvar _
    · intro v; cases v <;> first | exact hub | exact hvar _
    · intro v; cases v <;> first | exact hub | exact hbind (hvar _) (hw _)
    · intro n v; cases v <;> first | exact hub | exact hbind (hvar _) (hw _)
    · intro t ih v; cases v <;> first | exact hub | exact hbind (hvar _) (hall ih _)
    · intro _ t ih v; cases v <;> first | exact hub | exact hbind (hvar _) (hall ih _)
    · intro _ k u ihk ihu v
      cases v <;> first | exact hub | skip
      refine hbind (hvar _) (hall (fun p => ?_) _)
      split
      · exact hbind (ihk _) (ihu _)
      · exact hub
    · intro v; cases v <;> first | exact hub | exact hbind (hvar _) (hw _)
    · intro n t ih v; cases v <;> first | exact hub | exact hbind (hvar _) (hall ih _)
    · intro n t ih v; cases v <;> first | exact hub | exact hall ih _
    · intro t ih v; cases v <;> first | exact hub | exact hw _ | exact hbind (hw [1]) (ih _)
    · intro ts ih v; cases v <;> first | exact hub | exact hbind (hvar _) (ih.1 _ _)
    · intro ts ih v; cases v <;> first | exact hub | exact ih.2 _
    · intro d t ih v; have := ih v; cases v <;> exact this
    · refine ⟨fun i v => hub, fun l => ?_⟩
      cases l with
      | nil => intro s e h; simp [toBinFields] at h
      | cons => exact hub
    · intro t ts ih ihs
      refine ⟨fun i v => ?_, fun l => ?_⟩
      · cases i with
        | zero => exact ih v
        | succ i => exact ihs.1 i v
      · cases l with
        | nil => exact hub
        | cons v l => exact hbind (ih v) (ihs.2 l)
  exact main t v bin e h

/-- **C23.** Reading a value of any supported type from any bytes either fails or consumes a prefix of them. What it returns is a value of
the type; it can be written, and reading that gives the value again (the input is taken to be shorter than 4 GiB). -/
theorem c23_within_input {t : BTy} {s r : Bytes} {v : BVal} (hw : WfType t) (h : fromBin t s = .ok (v, r)) :
    (∃ p, s = p ++ r) ∧ (s.length < 2 ^ 32 → ∃ b, Layout t v b) :=
  fromBin_took t s v r hw h

/-- **C21.** Hence what was read can be written again, and is then read back as the same value. -/
theorem c21_rewrite {t : BTy} {s r : Bytes} {v : BVal} (hw : WfType t) (h : fromBin t s = .ok (v, r)) (hs : s.length < 2 ^ 32) :
    ∃ b, convertToBin t v [] = .ok b ∧ ∀ rest, fromBin t (b ++ rest) = .ok (v, rest) := by
  obtain ⟨b, hb⟩ := (c23_within_input hw h).2 hs
  have := c21_roundtrip hw hb
  exact ⟨b, this.1 [], this.2⟩

/-- **C01.** The bytes of a varuint32 are its LEB128 encoding. -/
theorem c01_leb128 (n : Nat) (b : Bytes) : varuint32ToBin n = .ok b ↔ n < 2 ^ 32 ∧ Leb n b := size_iff.symm

/-! ## Examples -/

/-- `std::tuple<std::string, std::optional<std::vector<uint16_t>>, std::variant<bool, varint32>>` -/
def exampleType : BTy := .struct [.str, .opt (.rawVec 2), .variant [.bool, .varint32]]

example : WfType exampleType := by simp [exampleType, WfType, WfTypes]

theorem exampleLayout : Layout exampleType (.list [.raw [104, 105], .some (.raw [1, 0, 255, 255]), .alt 1 (.num 4294967295)])
    [2, 104, 105, 1, 2, 1, 0, 255, 255, 1, 1] := by
  have h1 : Size 1 [1] := ⟨by decide, .last (by decide)⟩
  have h2 : Size 2 [2] := ⟨by decide, .last (by decide)⟩
  refine ⟨_, rfl, _, _, [2, 104, 105], _, rfl, ⟨[2], _, rfl, h2, rfl⟩, ⟨_, _, [1, 2, 1, 0, 255, 255], _, rfl, ?_, ?_, rfl⟩, rfl⟩
  · exact .inr ⟨_, _, rfl, ⟨[2], _, 2, rfl, h2, rfl, by decide, rfl⟩, rfl⟩
  · refine ⟨_, _, [1, 1], [], rfl, ⟨1, _, [1], [1], rfl, h1, ?_, rfl⟩, ⟨rfl, rfl⟩, rfl⟩
    exact .inr ⟨0, rfl, .inl ⟨rfl, _, rfl, by decide, .last (by decide)⟩⟩

example : fromBin exampleType [2, 104, 105, 1, 2, 1, 0, 255, 255, 1, 1, 99] =
    .ok (.list [.raw [104, 105], .some (.raw [1, 0, 255, 255]), .alt 1 (.num 4294967295)], [99]) :=
  (c21_roundtrip (by simp [exampleType, WfType, WfTypes]) exampleLayout).2 [99]

end Abieos
