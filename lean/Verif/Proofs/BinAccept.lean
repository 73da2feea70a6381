import Verif.Spec.BinAccept
import Verif.Proofs.Shown
import Verif.Proofs.ShownKey
import Verif.Props.Opaque
/-!
The readers of C++ values are the relation of Spec/BinAccept.
-/
namespace Abieos
open Spec

theorem scanAll_congr {R R' : BVal → Bytes → Bytes → Prop} (h : ∀ v s r, R v s r ↔ R' v s r) : ∀ l s r, ScanAll R l s r ↔ ScanAll R' l s r
  | [], _, _ => Iff.rfl
  | v :: l, s, r => by simp only [ScanAll, h, scanAll_congr h l]

theorem readN_iff {f : Reader BVal} {R : BVal → Bytes → Bytes → Prop} (hf : ∀ v s r, f s = .ok (v, r) ↔ R v s r) :
    ∀ n l s r, readN f n s = .ok (l, r) ↔ l.length = n ∧ ScanAll R l s r
  | 0, l, s, r => by
    simp only [readN, Except.ok.injEq, Prod.mk.injEq]
    cases l with
    | nil => simp [ScanAll]
    | cons x l => simp
  | n + 1, l, s, r => by
    rw [readN]
    constructor
    · intro h
      obtain ⟨⟨v, s1⟩, h1, h⟩ := bind_eq_ok.1 h
      obtain ⟨⟨l2, s2⟩, h2, h⟩ := bind_eq_ok.1 h
      simp only [Except.ok.injEq, Prod.mk.injEq] at h
      obtain ⟨rfl, rfl⟩ := h
      obtain ⟨h3, h4⟩ := (readN_iff hf n l2 s1 s2).1 h2
      exact ⟨by simp [h3], s1, (hf _ _ _).1 h1, h4⟩
    · rintro ⟨hl, h⟩
      cases l with
      | nil => simp at hl
      | cons v l =>
        obtain ⟨m, h1, h2⟩ := h
        exact bind_eq_ok.2 ⟨(v, m), (hf _ _ _).2 h1, bind_eq_ok.2 ⟨(l, r), (readN_iff hf n l m r).2 ⟨by simpa using hl, h2⟩, rfl⟩⟩

theorem readAssoc_iff {lt : BVal → BVal → Bool} {f : Reader BVal} : ∀ n acc s m r,
    readAssoc lt f n acc s = .ok (m, r) ↔ ∃ l, readN f n s = .ok (l, r) ∧ m = l.foldl (fun a x => emplaceSorted lt x a) acc
  | 0, acc, s, m, r => by
    simp only [readAssoc, readN, Except.ok.injEq, Prod.mk.injEq]
    constructor
    · rintro ⟨rfl, rfl⟩; exact ⟨[], ⟨rfl, rfl⟩, rfl⟩
    · rintro ⟨l, ⟨rfl, rfl⟩, rfl⟩; exact ⟨rfl, rfl⟩
  | n + 1, acc, s, m, r => by
    rw [readAssoc, readN]
    constructor
    · intro h
      obtain ⟨⟨v, s1⟩, h1, h⟩ := bind_eq_ok.1 h
      obtain ⟨l, h2, rfl⟩ := (readAssoc_iff n _ s1 m r).1 h
      exact ⟨v :: l, bind_eq_ok.2 ⟨(v, s1), h1, bind_eq_ok.2 ⟨(l, r), h2, rfl⟩⟩, rfl⟩
    · rintro ⟨l, h, rfl⟩
      obtain ⟨⟨v, s1⟩, h1, h⟩ := bind_eq_ok.1 h
      obtain ⟨⟨l2, s2⟩, h2, h⟩ := bind_eq_ok.1 h
      simp only [Except.ok.injEq, Prod.mk.injEq] at h
      obtain ⟨rfl, rfl⟩ := h
      exact bind_eq_ok.2 ⟨(v, s1), h1, (readAssoc_iff n _ s1 _ s2).2 ⟨l2, h2, rfl⟩⟩

theorem mem_emplace {lt : BVal → BVal → Bool} (ht : ∀ x y z, lt x y = true → lt y z = true → lt x z = true) (x y : BVal) :
    ∀ acc : List BVal, acc.Pairwise (fun a b => lt a b = true) →
      (y ∈ emplaceSorted lt x acc ↔ y ∈ acc ∨ (y = x ∧ ∀ z ∈ acc, ¬ Tied lt z x))
  | [], _ => by simp [emplaceSorted]
  | a :: l, hp => by
    obtain ⟨h1, h2⟩ := List.pairwise_cons.1 hp
    rw [emplaceSorted]
    by_cases ha : lt a x = true
    · rw [if_pos ha, List.mem_cons, List.mem_cons, mem_emplace ht x y l h2]
      have : ¬ Tied lt a x := by rintro ⟨h, -⟩; rw [ha] at h; cases h
      simp only [List.forall_mem_cons, this, not_false_eq_true, true_and]
      exact or_assoc.symm
    · rw [if_neg ha]
      by_cases hx : lt x a = true
      · rw [if_pos hx, List.mem_cons]
        have : ∀ z ∈ a :: l, ¬ Tied lt z x := by
          intro z hz
          rintro ⟨-, h⟩
          rcases List.mem_cons.1 hz with rfl | hz
          · rw [hx] at h; cases h
          · rw [ht _ _ _ hx (h1 z hz)] at h; cases h
        constructor
        · rintro (h | h)
          · exact .inr ⟨h, this⟩
          · exact .inl h
        · rintro (h | ⟨h, -⟩)
          · exact .inr h
          · exact .inl h
      · rw [if_neg hx]
        have : Tied lt a x := ⟨by simpa using ha, by simpa using hx⟩
        constructor
        · exact .inl
        · rintro (h | ⟨-, h⟩)
          · exact h
          · exact absurd this (h a List.mem_cons_self)

theorem sorted_emplace {lt : BVal → BVal → Bool} (ht : ∀ x y z, lt x y = true → lt y z = true → lt x z = true) (x : BVal) :
    ∀ acc : List BVal, acc.Pairwise (fun a b => lt a b = true) → (emplaceSorted lt x acc).Pairwise (fun a b => lt a b = true)
  | [], _ => by simp [emplaceSorted]
  | a :: l, hp => by
    obtain ⟨h1, h2⟩ := List.pairwise_cons.1 hp
    rw [emplaceSorted]
    by_cases ha : lt a x = true
    · rw [if_pos ha]
      refine List.pairwise_cons.2 ⟨fun y hy => ?_, sorted_emplace ht x l h2⟩
      rcases (mem_emplace ht x y l h2).1 hy with h | ⟨rfl, -⟩
      · exact h1 y h
      · exact ha
    · rw [if_neg ha]
      by_cases hx : lt x a = true
      · rw [if_pos hx]
        refine List.pairwise_cons.2 ⟨fun y hy => ?_, hp⟩
        rcases List.mem_cons.1 hy with rfl | h
        · exact hx
        · exact ht _ _ _ hx (h1 y h)
      · rw [if_neg hx]; exact hp

theorem sorted_unique {lt : BVal → BVal → Bool} (hi : ∀ x, lt x x = false) (ht : ∀ x y z, lt x y = true → lt y z = true → lt x z = true) :
    ∀ m m' : List BVal, m.Pairwise (fun a b => lt a b = true) → m'.Pairwise (fun a b => lt a b = true) → (∀ y, y ∈ m ↔ y ∈ m') → m = m'
  | [], [], _, _, _ => rfl
  | [], b :: l', _, _, h => by simpa using (h b).2 List.mem_cons_self
  | a :: l, [], _, _, h => by simpa using (h a).1 List.mem_cons_self
  | a :: l, b :: l', h1, h2, h => by
    obtain ⟨h3, h4⟩ := List.pairwise_cons.1 h1
    obtain ⟨h5, h6⟩ := List.pairwise_cons.1 h2
    have e : a = b := by
      rcases List.mem_cons.1 ((h a).1 List.mem_cons_self) with e | ha
      · exact e
      · rcases List.mem_cons.1 ((h b).2 List.mem_cons_self) with e | hb
        · exact e.symm
        · have := ht _ _ _ (h3 b hb) (h5 a ha)
          rw [hi] at this; cases this
    subst e
    refine congrArg _ (sorted_unique hi ht l l' h4 h6 fun y => ⟨fun hy => ?_, fun hy => ?_⟩)
    · rcases List.mem_cons.1 ((h y).1 (List.mem_cons_of_mem _ hy)) with rfl | h'
      · have := h3 y hy; rw [hi] at this; cases this
      · exact h'
    · rcases List.mem_cons.1 ((h y).2 (List.mem_cons_of_mem _ hy)) with rfl | h'
      · have := h5 y hy; rw [hi] at this; cases this
      · exact h'

theorem firstOf_snoc {lt : BVal → BVal → Bool} {l : List BVal} {x y : BVal} :
    FirstOf lt (l ++ [x]) y ↔ FirstOf lt l y ∨ (y = x ∧ ∀ z ∈ l, ¬ Tied lt z x) := by
  constructor
  · rintro ⟨a, b, e, h⟩
    rcases List.eq_nil_or_concat b with rfl | ⟨b', w, rfl⟩
    · obtain ⟨rfl, e1⟩ := List.append_inj' e rfl
      injection e1 with e1
      subst e1
      exact .inr ⟨rfl, h⟩
    · left
      refine ⟨a, b', ?_, h⟩
      have e' : l ++ [x] = (a ++ y :: b') ++ [w] := by rw [e]; simp
      exact (List.append_inj' e' rfl).1
  · rintro (⟨a, b, rfl, h⟩ | ⟨rfl, h⟩)
    · exact ⟨a, b ++ [x], by simp, h⟩
    · exact ⟨l, [], rfl, h⟩

theorem first_same {lt : BVal → BVal → Bool} (hi : ∀ x, lt x x = false) {z : BVal} : ∀ {l : List BVal}, z ∈ l →
    ∃ c w d, l = c ++ w :: d ∧ Tied lt w z ∧ ∀ x ∈ c, ¬ Tied lt x z
  | [], h => by simp at h
  | b :: l, h => by
    by_cases hb : Tied lt b z
    · exact ⟨[], b, l, rfl, hb, by simp⟩
    · rcases List.mem_cons.1 h with rfl | h
      · exact absurd ⟨hi z, hi z⟩ hb
      · obtain ⟨c, w, d, rfl, h1, h2⟩ := first_same hi h
        exact ⟨b :: c, w, d, rfl, h1, List.forall_mem_cons.2 ⟨hb, h2⟩⟩

/-- What is left after putting all elements of `l` into the empty set. -/
theorem fold_setOf {lt : BVal → BVal → Bool} (hi : ∀ x, lt x x = false) (ht : ∀ x y z, lt x y = true → lt y z = true → lt x z = true)
    {p : BVal → Prop} (hs : ∀ x y z, p x → p y → p z → Tied lt x y → Tied lt y z → Tied lt x z) (l : List BVal) :
    (∀ x ∈ l, p x) → SetOf lt l (l.foldl (fun a x => emplaceSorted lt x a) []) := by
  induction h : l.length generalizing l with
  | zero =>
    intro _
    have : l = [] := List.length_eq_zero_iff.1 h
    subst this
    refine ⟨.nil, fun y => ⟨by simp, ?_⟩⟩
    rintro ⟨a, b, e, -⟩
    cases a <;> simp at e
  | succ n ih =>
    intro hp
    rcases List.eq_nil_or_concat l with rfl | ⟨l', x, rfl⟩
    · simp at h
    · rw [List.concat_eq_append] at h hp ⊢
      have hp' : ∀ z ∈ l', p z := fun z hz => hp z (by simp [hz])
      obtain ⟨h1, h2⟩ := ih l' (by simpa using h) hp'
      rw [List.foldl_append, List.foldl_cons, List.foldl_nil]
      refine ⟨sorted_emplace ht x _ h1, fun y => ?_⟩
      rw [mem_emplace ht x y _ h1, h2, firstOf_snoc]
      have : (∀ z ∈ l'.foldl (fun a x => emplaceSorted lt x a) [], ¬ Tied lt z x) ↔ ∀ z ∈ l', ¬ Tied lt z x := by
        constructor
        · intro h z hz hzx
          obtain ⟨c, w, d, rfl, h3, h4⟩ := first_same hi hz
          have hw : p w := hp' w (by simp)
          have hc : ∀ x ∈ c, p x := fun x hx => hp' x (by simp [hx])
          have hf : FirstOf lt (c ++ w :: d) w := ⟨c, d, rfl, fun u hu huw => h4 u hu (hs u w z (hc u hu) hw (hp' z hz) huw h3)⟩
          exact h w ((h2 w).2 hf) (hs w z x hw (hp' z hz) (hp x (by simp)) h3 hzx)
        · intro h z hz
          obtain ⟨a, b, e, -⟩ := (h2 z).1 hz
          exact h z (by rw [e]; simp)
      rw [this]

theorem setOf_iff {lt : BVal → BVal → Bool} (hi : ∀ x, lt x x = false) (ht : ∀ x y z, lt x y = true → lt y z = true → lt x z = true)
    {p : BVal → Prop} (hs : ∀ x y z, p x → p y → p z → Tied lt x y → Tied lt y z → Tied lt x z) {l m : List BVal} (hp : ∀ x ∈ l, p x) :
    m = l.foldl (fun a x => emplaceSorted lt x a) [] ↔ SetOf lt l m := by
  have h := fold_setOf hi ht hs l hp
  constructor
  · rintro rfl; exact h
  · intro h'
    exact sorted_unique hi ht _ _ h'.1 h.1 fun y => by rw [h'.2, h.2]

theorem ltKey_eq (lt : BVal → BVal → Bool) : ltKey lt = byKey lt := by
  funext a b
  unfold ltKey byKey
  split <;> simp_all

def IsPair (v : BVal) : Prop := ∃ x y, v = .list [x, y]

theorem byKey_irrefl {lt : BVal → BVal → Bool} (h : WeakOrder lt) (x : BVal) : byKey lt x x = false := by
  unfold byKey
  split
  · exact h.irrefl _
  · rfl

theorem byKey_true {lt : BVal → BVal → Bool} {x y : BVal} (h : byKey lt x y = true) :
    ∃ a l b m, x = .list (a :: l) ∧ y = .list (b :: m) ∧ lt a b = true := by
  unfold byKey at h
  split at h
  · exact ⟨_, _, _, _, rfl, rfl, h⟩
  · cases h

theorem byKey_trans {lt : BVal → BVal → Bool} (h : WeakOrder lt) (x y z : BVal) (h1 : byKey lt x y = true) (h2 : byKey lt y z = true) :
    byKey lt x z = true := by
  obtain ⟨a, l, b, m, rfl, rfl, h3⟩ := byKey_true h1
  obtain ⟨b', l', c, n, e, rfl, h4⟩ := byKey_true h2
  injection e with e
  injection e with e
  subst e
  exact h.trans _ _ _ h3 h4

theorem byKey_same {lt : BVal → BVal → Bool} (h : WeakOrder lt) (x y z : BVal) (hx : IsPair x) (hy : IsPair y) (hz : IsPair z) :
    Tied (byKey lt) x y → Tied (byKey lt) y z → Tied (byKey lt) x z := by
  obtain ⟨a, a', rfl⟩ := hx
  obtain ⟨b, b', rfl⟩ := hy
  obtain ⟨c, c', rfl⟩ := hz
  exact h.same a b c

theorem scanAll_mem {R : BVal → Bytes → Bytes → Prop} {p : BVal → Prop} (h : ∀ v s r, R v s r → p v) :
    ∀ {l : List BVal} {s r : Bytes}, ScanAll R l s r → ∀ x ∈ l, p x
  | [], _, _, _ => by simp
  | v :: l, s, r, ⟨m, h1, h2⟩ => List.forall_mem_cons.2 ⟨h _ _ _ h1, scanAll_mem h h2⟩

theorem scan_varint32 {s r : Bytes} {v : BVal} : fromBin .varint32 s = .ok (v, r) ↔ Scan .varint32 v s r := by
  rw [fromBin, Scan]
  unfold varint32FromBin
  constructor
  · intro h
    obtain ⟨⟨n, s1⟩, h1, h⟩ := bind_eq_ok.1 h
    obtain ⟨⟨k, s2⟩, h2, h1⟩ := bind_eq_ok.1 h1
    simp only [pure, Except.pure, Except.ok.injEq, Prod.mk.injEq] at h h1
    obtain ⟨rfl, rfl⟩ := h1
    obtain ⟨rfl, rfl⟩ := h
    obtain ⟨b, rfl, h3⟩ := varuint32_iff.1 h2
    have hk : k < 2 ^ 32 := varRead_lt h3
    refine ⟨b, _, rfl, (unzigzag (BitVec.ofNat 32 k)).isLt, ?_, rfl⟩
    rw [← zz_eq (unzigzag (BitVec.ofNat 32 k)).isLt, BitVec.ofNat_toNat, BitVec.setWidth_eq, zigzag_unzigzag]
    rwa [BitVec.toNat_ofNat, Nat.mod_eq_of_lt hk]
  · rintro ⟨h, n, rfl, hn, h1, rfl⟩
    refine bind_eq_ok.2 ⟨(BitVec.ofNat 32 n, r), bind_eq_ok.2 ⟨(zz n, r), varuint32_iff.2 ⟨h, rfl, h1⟩, ?_⟩, ?_⟩
    · rw [← zz_eq hn]
      simp [pure, Except.pure, unzigzag_zigzag]
    · simp; omega

theorem scan_rawVec {n : Nat} {s r : Bytes} {v : BVal} : fromBin (.rawVec n) s = .ok (v, r) ↔ Scan (.rawVec n) v s r := by
  rw [fromBin, Scan]
  have hm : ∀ {k}, k ≤ vectorMax n → k * n % 2 ^ 64 = k * n := by
    intro k h
    refine Nat.mod_eq_of_lt ?_
    have := Nat.mul_le_mul_right n h
    have h2 : vectorMax n * n ≤ 2 ^ 63 - 1 := by unfold vectorMax; exact Nat.div_mul_le_self _ _
    omega
  constructor
  · intro h
    obtain ⟨⟨k, s1⟩, h1, h⟩ := bind_eq_ok.1 h
    obtain ⟨u, h2, h⟩ := bind_eq_ok.1 h
    obtain ⟨u', h3, h⟩ := bind_eq_ok.1 h
    obtain ⟨⟨b, s2⟩, h4, h⟩ := bind_eq_ok.1 h
    simp only [Except.ok.injEq, Prod.mk.injEq] at h
    obtain ⟨rfl, rfl⟩ := h
    obtain ⟨hd, rfl, h6⟩ := varuint64_iff.1 h1
    have h7 := check_eq_ok.1 h3
    simp only [decide_eq_true_eq] at h7
    rw [hm h7] at h4
    obtain ⟨rfl, h5⟩ := readBytes_ok h4
    exact ⟨hd, k, b, rfl, h6, h5, h7, rfl⟩
  · rintro ⟨h, k, b, rfl, h1, h2, h3, rfl⟩
    refine bind_eq_ok.2 ⟨(k, b ++ r), varuint64_iff.2 ⟨h, rfl, h1⟩, ?_⟩
    refine bind_eq_ok.2 ⟨(), (check_eq_ok (u := ())).2 ?_, bind_eq_ok.2 ⟨(), (check_eq_ok (u := ())).2 ?_, bind_eq_ok.2 ⟨(b, r), ?_, rfl⟩⟩⟩
    · rw [hm h3]; simp; omega
    · exact decide_eq_true h3
    · rw [hm h3]; exact readBytes_append _ _ _ h2

theorem sized_iff {α : Type} {f : Nat → Reader α} {g : α → BVal} {s r : Bytes} {v : BVal} :
    (do let (n, s) ← varuint32FromBin s
        let (l, s) ← f n s
        (.ok (g l, s) : Res (BVal × Bytes))) = .ok (v, r) ↔
      ∃ h n m l, s = h ++ m ∧ SizeRead n h ∧ f n m = .ok (l, r) ∧ v = g l := by
  constructor
  · intro h
    obtain ⟨⟨n, s1⟩, h1, h⟩ := bind_eq_ok.1 h
    obtain ⟨⟨l, s2⟩, h2, h⟩ := bind_eq_ok.1 h
    simp only [Except.ok.injEq, Prod.mk.injEq] at h
    obtain ⟨rfl, rfl⟩ := h
    obtain ⟨hd, rfl, h6⟩ := varuint32_iff.1 h1
    exact ⟨hd, n, s1, l, rfl, h6, h2, rfl⟩
  · rintro ⟨h, n, m, l, rfl, h1, h2, rfl⟩
    exact bind_eq_ok.2 ⟨(n, m), varuint32_iff.2 ⟨h, rfl, h1⟩, bind_eq_ok.2 ⟨(l, r), h2, rfl⟩⟩

theorem assoc_iff {lt : BVal → BVal → Bool} {f : Reader BVal} {R : BVal → Bytes → Bytes → Prop} {p : BVal → Prop} (hi : ∀ x, lt x x = false)
    (ht : ∀ x y z, lt x y = true → lt y z = true → lt x z = true)
    (hs : ∀ x y z, p x → p y → p z → Tied lt x y → Tied lt y z → Tied lt x z) (hp : ∀ v s r, R v s r → p v)
    (hf : ∀ v s r, f s = .ok (v, r) ↔ R v s r) {s r : Bytes} {v : BVal} :
    (∃ h n m l, s = h ++ m ∧ SizeRead n h ∧ readAssoc lt f n [] m = .ok (l, r) ∧ v = .list l) ↔
      ∃ h l m e, s = h ++ m ∧ SizeRead l.length h ∧ ScanAll R l m r ∧ SetOf lt l e ∧ v = .list e := by
  constructor
  · rintro ⟨h, n, m, e, rfl, h1, h2, rfl⟩
    obtain ⟨l, h3, h4⟩ := (readAssoc_iff n [] m e r).1 h2
    obtain ⟨rfl, h5⟩ := (readN_iff hf n l m r).1 h3
    exact ⟨h, l, m, e, rfl, h1, h5, (setOf_iff hi ht hs (scanAll_mem hp h5)).1 h4, rfl⟩
  · rintro ⟨h, l, m, e, rfl, h1, h2, h3, rfl⟩
    exact ⟨h, l.length, m, e, rfl, h1, (readAssoc_iff _ [] m e r).2 ⟨l, (readN_iff hf _ l m r).2 ⟨rfl, h2⟩,
      (setOf_iff hi ht hs (scanAll_mem hp h2)).2 h3⟩, rfl⟩

mutual
theorem scan_iff : ∀ (t : BTy), Orders t → ∀ v s r, fromBin t s = .ok (v, r) ↔ Scan t v s r
  | .raw n, _, v, s, r => by
    rw [fromBin, Scan]
    constructor
    · intro h
      obtain ⟨⟨b, s1⟩, h1, h⟩ := bind_eq_ok.1 h
      simp only [Except.ok.injEq, Prod.mk.injEq] at h
      obtain ⟨rfl, rfl⟩ := h
      obtain ⟨h2, h3⟩ := readBytes_ok h1
      exact ⟨b, h2, h3, rfl⟩
    · rintro ⟨b, rfl, h, rfl⟩
      exact bind_eq_ok.2 ⟨(b, r), readBytes_append _ _ _ h, rfl⟩
  | .bool, _, v, s, r => by
    rw [fromBin, Scan]
    constructor
    · intro h
      obtain ⟨⟨b, s1⟩, h1, h⟩ := bind_eq_ok.1 h
      simp only [Except.ok.injEq, Prod.mk.injEq] at h
      obtain ⟨rfl, rfl⟩ := h
      exact ⟨b, readU8_ok h1, rfl⟩
    · rintro ⟨b, rfl, rfl⟩
      exact bind_eq_ok.2 ⟨(b, r), rfl, rfl⟩
  | .varuint32, _, v, s, r => by
    rw [fromBin, Scan]
    constructor
    · intro h
      obtain ⟨⟨n, s1⟩, h1, h⟩ := bind_eq_ok.1 h
      simp only [Except.ok.injEq, Prod.mk.injEq] at h
      obtain ⟨rfl, rfl⟩ := h
      obtain ⟨b, rfl, h2⟩ := varuint32_iff.1 h1
      exact ⟨b, n, rfl, h2, rfl⟩
    · rintro ⟨h, n, rfl, h1, rfl⟩
      exact bind_eq_ok.2 ⟨(n, r), varuint32_iff.2 ⟨h, rfl, h1⟩, rfl⟩
  | .varint32, _, v, s, r => scan_varint32
  | .str, _, v, s, r => str_read_iff
  | .rawVec n, _, v, s, r => scan_rawVec
  | .vec t, ho, v, s, r => by
    rw [fromBin, Scan, sized_iff]
    constructor
    · rintro ⟨h, n, m, l, rfl, h1, h2, rfl⟩
      obtain ⟨rfl, h3⟩ := (readN_iff (scan_iff t ho) n l m r).1 h2
      exact ⟨h, l, m, rfl, h1, h3, rfl⟩
    · rintro ⟨h, l, m, rfl, h1, h2, rfl⟩
      exact ⟨h, l.length, m, l, rfl, h1, (readN_iff (scan_iff t ho) _ l m r).2 ⟨rfl, h2⟩, rfl⟩
  | .set lt t, ⟨ho, hw⟩, v, s, r => by
    rw [fromBin, Scan]
    refine Iff.trans (sized_iff (f := fun n => readAssoc lt (fromBin t) n []) (g := .list)) ?_
    exact assoc_iff (p := fun _ => True) hw.irrefl hw.trans (fun x y z _ _ _ => hw.same x y z) (fun _ _ _ _ => trivial) (scan_iff t ho)
  | .map lt k u, ⟨hk, hu, hw⟩, v, s, r => by
    rw [fromBin, Scan, ltKey_eq]
    refine Iff.trans (sized_iff (f := fun n => readAssoc (byKey lt) (fun s => do
      let (a, s) ← fromBin k s
      let (b, s) ← fromBin u s
      .ok (.list [a, b], s)) n []) (g := .list)) ?_
    refine assoc_iff (p := IsPair) (byKey_irrefl hw) (byKey_trans hw) (byKey_same hw) ?_ ?_
    · rintro v s r ⟨x, y, m, -, -, rfl⟩
      exact ⟨x, y, rfl⟩
    · intro v s r
      constructor
      · intro h
        obtain ⟨⟨x, s1⟩, h1, h⟩ := bind_eq_ok.1 h
        obtain ⟨⟨y, s2⟩, h2, h⟩ := bind_eq_ok.1 h
        simp only [Except.ok.injEq, Prod.mk.injEq] at h
        obtain ⟨rfl, rfl⟩ := h
        exact ⟨x, y, s1, (scan_iff k hk _ _ _).1 h1, (scan_iff u hu _ _ _).1 h2, rfl⟩
      · rintro ⟨x, y, m, h1, h2, rfl⟩
        exact bind_eq_ok.2 ⟨(x, m), (scan_iff k hk _ _ _).2 h1, bind_eq_ok.2 ⟨(y, r), (scan_iff u hu _ _ _).2 h2, rfl⟩⟩
  | .stream, _, v, s, r => by
    rw [stream_iff, Scan]
    constructor
    · rintro ⟨h, a, h1, h2, h3⟩; exact ⟨h, a, h2, h1, h3⟩
    · rintro ⟨h, a, h1, h2, h3⟩; exact ⟨h, a, h2, h1, h3⟩
  | .carr n t, ho, v, s, r => by
    rw [fromBin, Scan]
    constructor
    · intro h
      obtain ⟨⟨k, s1⟩, h1, h⟩ := bind_eq_ok.1 h
      obtain ⟨u, h2, h⟩ := bind_eq_ok.1 h
      obtain ⟨⟨l, s2⟩, h3, h⟩ := bind_eq_ok.1 h
      simp only [Except.ok.injEq, Prod.mk.injEq] at h
      obtain ⟨rfl, rfl⟩ := h
      obtain ⟨b, rfl, h4⟩ := varuint32_iff.1 h1
      have h5 : k = n := by simpa using check_eq_ok.1 h2
      obtain ⟨h6, h7⟩ := (readN_iff (scan_iff t ho) k l s1 s2).1 h3
      exact ⟨b, l, s1, rfl, h5 ▸ h4, h5 ▸ h6, h7, rfl⟩
    · rintro ⟨h, l, m, rfl, h1, h2, h3, rfl⟩
      exact bind_eq_ok.2 ⟨(n, m), varuint32_iff.2 ⟨h, rfl, h1⟩, bind_eq_ok.2 ⟨(), (check_eq_ok (u := ())).2 (by simp),
        bind_eq_ok.2 ⟨(l, r), (readN_iff (scan_iff t ho) n l m r).2 ⟨h2, h3⟩, rfl⟩⟩⟩
  | .arr n t, ho, v, s, r => by
    rw [fromBin, Scan]
    constructor
    · intro h
      obtain ⟨⟨l, s2⟩, h3, h⟩ := bind_eq_ok.1 h
      simp only [Except.ok.injEq, Prod.mk.injEq] at h
      obtain ⟨rfl, rfl⟩ := h
      obtain ⟨h6, h7⟩ := (readN_iff (scan_iff t ho) n l s s2).1 h3
      exact ⟨l, h6, h7, rfl⟩
    · rintro ⟨l, h2, h3, rfl⟩
      exact bind_eq_ok.2 ⟨(l, r), (readN_iff (scan_iff t ho) n l s r).2 ⟨h2, h3⟩, rfl⟩
  | .opt t, ho, v, s, r => by
    rw [fromBin, Scan]
    constructor
    · intro h
      obtain ⟨⟨b, s1⟩, h1, h⟩ := bind_eq_ok.1 h
      have h1 := readU8_ok h1
      simp only at h h1
      by_cases hb : b = 0
      · rw [if_pos hb] at h
        simp only [Except.ok.injEq, Prod.mk.injEq] at h
        obtain ⟨rfl, rfl⟩ := h
        exact .inl ⟨by rw [h1, hb], rfl⟩
      · rw [if_neg hb] at h
        obtain ⟨⟨x, s2⟩, h2, h⟩ := bind_eq_ok.1 h
        simp only [Except.ok.injEq, Prod.mk.injEq] at h
        obtain ⟨rfl, rfl⟩ := h
        exact .inr ⟨b, s1, x, h1, hb, (scan_iff t ho _ _ _).1 h2, rfl⟩
    · rintro (⟨rfl, rfl⟩ | ⟨b, m, x, rfl, hb, h, rfl⟩)
      · rfl
      · refine bind_eq_ok.2 ⟨(b, m), rfl, ?_⟩
        simp only
        rw [if_neg hb]
        exact bind_eq_ok.2 ⟨(x, r), (scan_iff t ho _ _ _).2 h, rfl⟩
  | .variant ts, ho, v, s, r => by
    rw [variant_read_iff, Scan]
    constructor
    · rintro ⟨h, m, i, x, rfl, h1, h2, rfl⟩
      exact ⟨h, i, m, x, rfl, h1, (scanAlt_iff ts ho _ _ _ _).1 h2, rfl⟩
    · rintro ⟨h, i, m, x, rfl, h1, h2, rfl⟩
      exact ⟨h, m, i, x, rfl, h1, (scanAlt_iff ts ho _ _ _ _).2 h2, rfl⟩
  | .struct ts, ho, v, s, r => by
    rw [struct_read_iff, Scan]
    simp only [scanFields_iff ts ho]
  | .maybe d t, ho, v, s, r => by
    rw [fromBin, Scan]
    beta_reduce
    by_cases hs : s = []
    · rw [if_pos hs]
      simp only [Except.ok.injEq, Prod.mk.injEq]
      subst hs
      constructor
      · rintro ⟨rfl, rfl⟩; exact .inl ⟨rfl, rfl, rfl⟩
      · rintro (⟨-, rfl, rfl⟩ | ⟨h, -⟩)
        · exact ⟨rfl, rfl⟩
        · exact absurd rfl h
    · rw [if_neg hs, scan_iff t ho]
      constructor
      · exact fun h => .inr ⟨hs, h⟩
      · rintro (⟨h, -⟩ | ⟨-, h⟩)
        · exact absurd h hs
        · exact h
theorem scanAlt_iff : ∀ (ts : List BTy), OrdersAll ts → ∀ i v s r, variantFromBin ts i s = .ok (v, r) ↔ ScanAlt ts i v s r
  | [], _, i, v, s, r => by rw [variantFromBin, ScanAlt]; simp
  | t :: ts, ⟨h1, h2⟩, 0, v, s, r => by
    rw [variantFromBin, ScanAlt, scan_iff t h1]
    simp
  | t :: ts, ⟨h1, h2⟩, i + 1, v, s, r => by
    rw [variantFromBin, ScanAlt, scanAlt_iff ts h2]
    simp
theorem scanFields_iff : ∀ (ts : List BTy), OrdersAll ts → ∀ l s r, fromBinFields ts s = .ok (l, r) ↔ ScanFields ts l s r
  | [], _, l, s, r => by
    rw [fromBinFields, ScanFields]
    simp only [Except.ok.injEq, Prod.mk.injEq]
    constructor
    · rintro ⟨rfl, rfl⟩; exact ⟨rfl, rfl⟩
    · rintro ⟨rfl, rfl⟩; exact ⟨rfl, rfl⟩
  | t :: ts, ⟨h1, h2⟩, l, s, r => by
    rw [fromBinFields, ScanFields]
    constructor
    · intro h
      obtain ⟨⟨v, s1⟩, h3, h⟩ := bind_eq_ok.1 h
      obtain ⟨⟨l', s2⟩, h4, h⟩ := bind_eq_ok.1 h
      simp only [Except.ok.injEq, Prod.mk.injEq] at h
      obtain ⟨rfl, rfl⟩ := h
      exact ⟨v, l', s1, rfl, (scan_iff t h1 _ _ _).1 h3, (scanFields_iff ts h2 _ _ _).1 h4⟩
    · rintro ⟨v, l', m, rfl, h3, h4⟩
      exact bind_eq_ok.2 ⟨(v, m), (scan_iff t h1 _ _ _).2 h3, bind_eq_ok.2 ⟨(l', r), (scanFields_iff ts h2 _ _ _).2 h4, rfl⟩⟩
end

end Abieos
