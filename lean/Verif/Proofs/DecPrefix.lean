import Verif.Proofs.SerDec
/-
The decoder reads a prefix of its input and does not look further.
-/
namespace Abieos

open Spec

/-- A reader looks only at the bytes it consumes. -/
def PrefixReader {α : Type} (f : Bytes → Res (α × Bytes)) : Prop :=
  ∀ s v r, f s = .ok (v, r) → ∃ p, s = p ++ r ∧ ∀ r', f (p ++ r') = .ok (v, r')

theorem prefix_varuintLoop (w lim : Nat) : ∀ (s : Bytes) (sh dest v : Nat) (r : Bytes),
    varuintFromBinLoop w lim sh dest s = .ok (v, r) →
    ∃ p, s = p ++ r ∧ ∀ r', varuintFromBinLoop w lim sh dest (p ++ r') = .ok (v, r') := by
  intro s
  induction s with
  | nil =>
    intro sh dest v r h
    rw [varuintFromBinLoop] at h
    split at h <;> simp at h
  | cons b s ih =>
    intro sh dest v r h
    rw [varuintFromBinLoop] at h
    split at h
    · rename_i hs
      simp only at h
      split at h
      · rename_i hb
        obtain ⟨p, rfl, hp⟩ := ih _ _ _ _ h
        refine ⟨b :: p, rfl, fun r' => ?_⟩
        rw [List.cons_append, varuintFromBinLoop, dif_pos hs]
        simp only
        rw [if_pos hb]; exact hp r'
      · rename_i hb
        simp only [Except.ok.injEq, Prod.mk.injEq] at h
        obtain ⟨rfl, rfl⟩ := h
        refine ⟨[b], rfl, fun r' => ?_⟩
        rw [List.cons_append, varuintFromBinLoop, dif_pos hs]
        simp only
        rw [if_neg hb]; rfl
    · simp at h

theorem prefix_varuint32 : PrefixReader varuint32FromBin := fun s v r h => prefix_varuintLoop _ _ s 0 0 v r h

theorem prefix_readU8 : PrefixReader readU8 := by
  intro s v r h
  obtain rfl := readU8_ok h
  exact ⟨[v], rfl, fun r' => rfl⟩

/-- The leaf decoders look only at the bytes they consume, and consume some. -/
def LeafPrefix (L : Leaves) : Prop :=
  ∀ k s t r, L.fromBin k s = .ok (t, r) → ∃ p, p ≠ [] ∧ s = p ++ r ∧ ∀ r', L.fromBin k (p ++ r') = .ok (t, r')

/-- What follows may be replaced: arbitrarily if the table has no extensions, otherwise by bytes if there were bytes. -/
def Alike (T : Table) (r r' : Bytes) : Prop := (∀ p, ¬ IsExt T p) ∨ (r = [] ↔ r' = [])

theorem Alike.append {T : Table} {r r' : Bytes} (h : Alike T r r') (p : Bytes) : Alike T (p ++ r) (p ++ r') := by
  rcases h with h | h
  · exact .inl h
  · right; simp [h]

theorem prefix_decFields {T : Table} {E : Bool → Ptr → Bytes → Res (Bytes × Bytes)}
    (hE : ∀ a f s t r, E a f s = .ok (t, r) → ∃ p, s = p ++ r ∧ ∀ r', Alike T r r' → E a f (p ++ r') = .ok (t, r'))
    {allow : Bool} : ∀ (fs : List Field) (pos : Int) (s t r : Bytes), decFields T E allow fs pos s = .ok (t, r) →
      ∃ p, s = p ++ r ∧ ∀ r', Alike T r r' → decFields T E allow fs pos (p ++ r') = .ok (t, r') := by
  intro fs
  induction fs with
  | nil =>
    intro pos s t r h
    simp only [decFields, bind_eq_ok] at h
    obtain ⟨q, hq, h⟩ := h
    simp only [Except.ok.injEq, Prod.mk.injEq] at h
    obtain ⟨rfl, rfl⟩ := h
    exact ⟨[], rfl, fun r' _ => by simp [decFields, hq]⟩
  | cons f fs ih =>
    intro pos s t r h
    simp only [decFields, bind_eq_ok] at h
    obtain ⟨q, hq, h⟩ := h
    split at h
    · simp at h
    · rename_i d hd
      split at h
      · rename_i hc
        obtain ⟨p, hp, hp'⟩ := ih _ _ _ _ h
        have hp0 : p = [] ∧ r = [] := by rw [hc.1] at hp; simpa using hp.symm
        obtain ⟨rfl, rfl⟩ := hp0
        refine ⟨[], hp, fun r' hr => ?_⟩
        rcases hr with hr | hr
        · exact absurd ((isExt_iff hd).2 hc.2.1) (hr _)
        · have hr' : r' = [] := hr.1 rfl
          subst hr'
          simp only [decFields, hq, bind_ok, hd]
          rw [if_pos ⟨rfl, hc.2⟩]
          exact hp' [] (.inr (by simp))
      · rename_i hc
        simp only [bind_eq_ok] at h
        obtain ⟨⟨t1, r1⟩, h1, ⟨t2, r2⟩, h2, h3⟩ := h
        simp only [Except.ok.injEq, Prod.mk.injEq] at h3
        obtain ⟨rfl, rfl⟩ := h3
        obtain ⟨p1, rfl, hp1⟩ := hE _ _ _ _ _ h1
        obtain ⟨p2, rfl, hp2⟩ := ih _ _ _ _ h2
        refine ⟨p1 ++ p2, by simp, fun r' hr => ?_⟩
        have e1 := hp1 (p2 ++ r') (hr.append p2)
        have e2 := hp2 r' hr
        simp only [decFields, hq, bind_ok, hd]
        rw [if_neg]
        · rw [List.append_assoc, e1, bind_ok]
          simp only
          rw [e2]; rfl
        · rintro ⟨h0, hx, ha⟩
          rcases hr with hr | hr
          · exact hr _ ((isExt_iff hd).2 hx)
          · apply hc
            refine ⟨?_, hx, ha⟩
            simp at h0 ⊢
            exact ⟨h0.1, h0.2.1, hr.2 h0.2.2⟩

theorem prefix_decElems {T : Table} {E : Bytes → Res (Bytes × Bytes)}
    (hE : ∀ s t r, E s = .ok (t, r) → ∃ p, s = p ++ r ∧ ∀ r', Alike T r r' → E (p ++ r') = .ok (t, r')) :
    ∀ (k : Nat) (pos : Int) (s t r : Bytes), decElems E k pos s = .ok (t, r) →
      ∃ p, s = p ++ r ∧ ∀ r', Alike T r r' → decElems E k pos (p ++ r') = .ok (t, r') := by
  intro k
  induction k with
  | zero =>
    intro pos s t r h
    simp only [decElems, bind_eq_ok] at h
    obtain ⟨q, hq, h⟩ := h
    simp only [Except.ok.injEq, Prod.mk.injEq] at h
    obtain ⟨rfl, rfl⟩ := h
    exact ⟨[], rfl, fun r' _ => by simp [decElems, hq]⟩
  | succ k ih =>
    intro pos s t r h
    simp only [decElems, bind_eq_ok] at h
    obtain ⟨q, hq, ⟨t1, r1⟩, h1, ⟨t2, r2⟩, h2, h3⟩ := h
    simp only [Except.ok.injEq, Prod.mk.injEq] at h3
    obtain ⟨rfl, rfl⟩ := h3
    obtain ⟨p1, rfl, hp1⟩ := hE _ _ _ h1
    obtain ⟨p2, rfl, hp2⟩ := ih _ _ _ _ h2
    refine ⟨p1 ++ p2, by simp, fun r' hr => ?_⟩
    have e1 := hp1 (p2 ++ r') (hr.append p2)
    have e2 := hp2 r' hr
    simp only [decElems, hq, bind_ok]
    rw [List.append_assoc, e1, bind_ok]
    simp only
    rw [e2]; rfl

/-- The decoder reads a prefix and does not look further. -/
theorem prefix_dec {T : Table} {L : Leaves} (hL : LeafPrefix L) : ∀ (n lvl : Nat) (allow : Bool) (ty : Ptr) (s t r : Bytes),
    dec T L n lvl allow ty s = .ok (t, r) →
    ∃ p, s = p ++ r ∧ ∀ r', Alike T r r' → dec T L n lvl allow ty (p ++ r') = .ok (t, r') := by
  intro n
  induction n with
  | zero => intro lvl allow ty s t r h; simp [dec] at h
  | succ n ih =>
    intro lvl allow ty s t r h
    simp only [dec] at h ⊢
    split at h
    · rename_i k hk
      obtain ⟨p, -, h1, h2⟩ := hL _ _ _ _ h
      exact ⟨p, h1, fun r' _ => h2 r'⟩
    · rename_i q hk
      simp only [bind_eq_ok] at h
      obtain ⟨⟨c, r1⟩, h1, h⟩ := h
      obtain rfl := readU8_ok h1
      split at h
      · rename_i hc
        obtain ⟨p, rfl, hp⟩ := ih _ _ _ _ _ _ h
        refine ⟨c :: p, rfl, fun r' hr => ?_⟩
        simp only [List.cons_append, readU8, bind_ok]
        rw [if_pos hc]; exact hp r' hr
      · rename_i hc
        simp only [Except.ok.injEq, Prod.mk.injEq] at h
        obtain ⟨rfl, rfl⟩ := h
        refine ⟨[c], rfl, fun r' hr => ?_⟩
        simp only [List.cons_append, readU8, bind_ok]
        rw [if_neg hc]; rfl
    · rename_i q hk
      exact ih _ _ _ _ _ _ h
    · rename_i fs hk
      split at h
      · rename_i hl
        simp only [bind_eq_ok] at h
        obtain ⟨⟨t', r'⟩, h1, h2⟩ := h
        simp only [Except.ok.injEq, Prod.mk.injEq] at h2
        obtain ⟨rfl, rfl⟩ := h2
        obtain ⟨p, rfl, hp⟩ := prefix_decFields (fun a f s t r h => ih _ _ _ _ _ _ h) _ _ _ _ _ h1
        refine ⟨p, rfl, fun r' hr => ?_⟩
        rw [if_pos hl, hp r' hr]; rfl
      · simp at h
    · rename_i q hk
      simp only [bind_eq_ok] at h
      obtain ⟨⟨c, r0⟩, h0, h⟩ := h
      split at h
      · rename_i hl
        simp only [bind_eq_ok] at h
        obtain ⟨⟨t', r'⟩, h1, h2⟩ := h
        simp only [Except.ok.injEq, Prod.mk.injEq] at h2
        obtain ⟨rfl, rfl⟩ := h2
        obtain ⟨p0, rfl, hp0⟩ := prefix_varuint32 _ _ _ h0
        obtain ⟨p, rfl, hp⟩ := prefix_decElems (T := T) (fun s t r h => ih _ _ _ _ _ _ h) _ _ _ _ _ h1
        refine ⟨p0 ++ p, by simp, fun r' hr => ?_⟩
        rw [List.append_assoc, hp0, bind_ok, if_pos hl]
        simp only
        rw [hp r' hr]; rfl
      · simp at h
    · rename_i alts hk
      split at h
      · rename_i hl
        simp only [bind_eq_ok] at h
        obtain ⟨⟨i, r0⟩, h0, h⟩ := h
        split at h
        · simp at h
        · rename_i f hf
          simp only [bind_eq_ok] at h
          obtain ⟨⟨t', r'⟩, h1, h2⟩ := h
          simp only [Except.ok.injEq, Prod.mk.injEq] at h2
          obtain ⟨rfl, rfl⟩ := h2
          obtain ⟨p0, rfl, hp0⟩ := prefix_varuint32 _ _ _ h0
          obtain ⟨p, rfl, hp⟩ := ih _ _ _ _ _ _ h1
          refine ⟨p0 ++ p, by simp, fun r' hr => ?_⟩
          rw [if_pos hl, List.append_assoc, hp0, bind_ok]
          simp only at hf ⊢
          simp only [hf]
          rw [hp r' hr]; rfl
      · simp at h
    · simp at h

end Abieos
