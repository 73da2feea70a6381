import Verif.Spec.Decoding
import Verif.Proofs.SerDec
/-
The decoder computes `Decodes`, up to the depth limit.
-/
namespace Abieos

open Spec

section
variable {T : Table} {L : Leaves}

/-- Member texts as the decoder writes them from position `i` on, with the closing bracket `c`. -/
def tailText (c : Bytes) : Bool → List Bytes → Bytes
  | _, [] => c
  | b, t :: l => (if b then str "," else []) ++ t ++ tailText c true l

theorem tailText_true (c : Bytes) (t : Bytes) (l : List Bytes) : tailText c true (t :: l) = str "," ++ tailText c false (t :: l) := by
  simp [tailText]

theorem tailText_join (c : Bytes) : ∀ l, tailText c false l = joinComma l ++ c := by
  intro l
  induction l with
  | nil => simp [tailText, joinComma]
  | cons t l ih =>
    cases l with
    | nil => simp [tailText, joinComma]
    | cons u l =>
      rw [joinComma, List.append_assoc, List.append_assoc, ← ih, ← tailText_true]
      · simp [tailText]
      · simp

/-- the result with the depth limit -/
def limited (lvl d : Nat) (r : Bytes × Bytes) : Res (Bytes × Bytes) :=
  if lvl + d ≤ maxStack ∨ d = 0 then .ok r else .error .recursion_limit_reached

theorem decFields_of_dec {D : Bool → Ptr → Bytes → Bytes → Bytes → Nat → Prop} {E : Bool → Ptr → Bytes → Res (Bytes × Bytes)}
    {lvl : Nat} (hE : ∀ a p bin t rest d, D a p bin t rest d → E a p bin = limited lvl d (t, rest)) {allow : Bool} :
    ∀ (fs : List Field) (i : Nat) (bin : Bytes) (ms : List Bytes) (rest : Bytes) (d : Nat), (∀ f ∈ fs, T.Valid f.type) →
      i + fs.length < 2147483648 → DecFields T D allow fs bin ms rest d →
      decFields T E allow fs ((i : Int) - 1) bin = limited lvl d (tailText (str "}") (decide (i ≠ 0)) ms, rest) := by
  have skip : ∀ (fs : List Field) (i : Nat), (∀ f ∈ fs, IsExt T f.type) → i + fs.length < 2147483648 → allow = true →
      decFields T E allow fs ((i : Int) - 1) [] = .ok (str "}", []) := by
    intro fs
    induction fs with
    | nil => intro i _ hi _; rw [decFields, incInt_of (by simp at hi; omega)]; rfl
    | cons f fs ih =>
      intro i hx hi ha
      obtain ⟨q, hq⟩ := hx f (by simp)
      simp at hi
      rw [decFields, incInt_of (by omega)]
      simp only [bind_ok, hq, TData.isExt, ha, and_self, if_true]
      have := ih (i + 1) (fun g hg => hx g (by simp [hg])) (by omega) ha
      rw [show ((i + 1 : Nat) : Int) - 1 = (i : Int) - 1 + 1 by omega] at this
      rw [ha] at this
      exact this
  intro fs
  induction fs with
  | nil =>
    rintro i bin ms rest d - hi ⟨rfl, rfl, rfl⟩
    rw [decFields, incInt_of (by simp at hi; omega)]
    simp [limited, tailText]
  | cons f fs ih =>
    rintro i bin ms rest d hv hi (⟨ha, rfl, hx, rfl, rfl, rfl⟩ | ⟨hn, t, mid, d1, ms', d2, h1, h2, rfl, rfl⟩)
    · rw [skip _ i hx hi ha]
      simp [limited, tailText]
    · simp at hi
      obtain ⟨dd, hk, -⟩ := hv f (by simp)
      rw [decFields, incInt_of (by omega)]
      simp only [bind_ok, hk]
      have hcond : ¬ (bin = [] ∧ dd.isExt = true ∧ allow = true) := by
        rintro ⟨g1, g2, g3⟩
        exact hn ⟨g3, g1, (isExt_iff hk).2 g2⟩
      rw [if_neg hcond, hE _ _ _ _ _ _ h1]
      have ih' := ih (i + 1) mid ms' rest d2 (fun g hg => hv g (by simp [hg])) (by omega) h2
      rw [show ((i + 1 : Nat) : Int) - 1 = (i : Int) - 1 + 1 by omega] at ih'
      by_cases l1 : lvl + d1 ≤ maxStack ∨ d1 = 0
      · rw [limited, if_pos l1]
        simp only [bind_ok, ih']
        by_cases l2 : lvl + d2 ≤ maxStack ∨ d2 = 0
        · have l3 : lvl + max d1 d2 ≤ maxStack ∨ max d1 d2 = 0 := by omega
          simp only [limited, if_pos l2, if_pos l3, bind_ok]
          have e : (decide (i + 1 ≠ 0)) = true := by simp
          have e' : ((i : Int) - 1 + 1 ≠ 0) ↔ i ≠ 0 := by omega
          simp only [tailText, e, e', List.append_assoc]
          by_cases hi0 : i = 0 <;> simp [hi0]
        · have l3 : ¬ (lvl + max d1 d2 ≤ maxStack ∨ max d1 d2 = 0) := by omega
          simp only [limited, if_neg l2, if_neg l3, bind_error]
      · have l3 : ¬ (lvl + max d1 d2 ≤ maxStack ∨ max d1 d2 = 0) := by omega
        simp only [limited, if_neg l1, if_neg l3, bind_error]

theorem decElems_of_dec {D : Bytes → Bytes → Bytes → Nat → Prop} {E : Bytes → Res (Bytes × Bytes)}
    {lvl : Nat} (hE : ∀ bin t rest d, D bin t rest d → E bin = limited lvl d (t, rest)) :
    ∀ (k i : Nat) (bin : Bytes) (ts : List Bytes) (rest : Bytes) (d : Nat), i + k < 2147483648 → DecElems D k bin ts rest d →
      decElems E k ((i : Int) - 1) bin = limited lvl d (tailText (str "]") (decide (i ≠ 0)) ts, rest) := by
  intro k
  induction k with
  | zero =>
    rintro i bin ts rest d hi ⟨rfl, rfl, rfl⟩
    rw [decElems, incInt_of (by omega)]
    simp [limited, tailText]
  | succ k ih =>
    rintro i bin ts rest d hi ⟨t, mid, d1, ts', d2, h1, h2, rfl, rfl⟩
    rw [decElems, incInt_of (by omega), bind_ok, hE _ _ _ _ h1]
    have ih' := ih (i + 1) mid ts' rest d2 (by omega) h2
    rw [show ((i + 1 : Nat) : Int) - 1 = (i : Int) - 1 + 1 by omega] at ih'
    by_cases l1 : lvl + d1 ≤ maxStack ∨ d1 = 0
    · rw [limited, if_pos l1]
      simp only [bind_ok, ih']
      by_cases l2 : lvl + d2 ≤ maxStack ∨ d2 = 0
      · have l3 : lvl + max d1 d2 ≤ maxStack ∨ max d1 d2 = 0 := by omega
        simp only [limited, if_pos l2, if_pos l3, bind_ok]
        have e : (decide (i + 1 ≠ 0)) = true := by simp
        have e' : ((i : Int) - 1 + 1 ≠ 0) ↔ i ≠ 0 := by omega
        simp only [tailText, e, e', List.append_assoc]
        by_cases hi0 : i = 0 <;> simp [hi0]
      · have l3 : ¬ (lvl + max d1 d2 ≤ maxStack ∨ max d1 d2 = 0) := by omega
        simp only [limited, if_neg l2, if_neg l3, bind_error]
    · have l3 : ¬ (lvl + max d1 d2 ≤ maxStack ∨ max d1 d2 = 0) := by omega
      simp only [limited, if_neg l1, if_neg l3, bind_error]

/-- What `Dec` describes, the decoder yields - unless it is nested too deeply, and then it says so. -/
theorem dec_of_dec (wf : T.WF) (hsm : Small T) : ∀ (n lvl : Nat) (allow : Bool) (ty : Ptr) (bin t rest : Bytes) (d : Nat),
    Dec T L n allow ty bin t rest d → dec T L n lvl allow ty bin = limited lvl d (t, rest) := by
  intro n
  induction n with
  | zero => intro lvl allow ty bin t rest d h; exact h.elim
  | succ n ih =>
    intro lvl allow ty bin t rest d h
    unfold Dec at h
    unfold dec
    split at h
    · rename_i k hk
      obtain ⟨h, rfl⟩ := h
      simp only [hk, h]
      simp [limited]
    · rename_i p hk
      simp only [hk]
      rcases h with ⟨rfl, rfl, rfl⟩ | ⟨c, bin', rfl, hc, h⟩
      · simp [readU8, limited]
      · simp only [readU8, bind_ok, hc, ne_eq, not_false_eq_true, if_true]
        exact ih _ _ _ _ _ _ _ h
    · rename_i p hk
      simp only [hk]
      exact ih _ _ _ _ _ _ _ h
    · rename_i fs hk
      obtain ⟨ms, d', h, rfl, rfl⟩ := h
      simp only [hk]
      have := decFields_of_dec (E := dec T L n (lvl + 1)) (lvl := lvl + 1) (fun a p bin t rest d => ih (lvl + 1) a p bin t rest d)
        fs 0 bin ms rest d' (wf.struct hk) (by simpa using hsm _ _ hk) h
      simp only [Int.ofNat_zero, Int.zero_sub] at this
      by_cases l1 : lvl + 1 ≤ maxStack
      · rw [if_pos l1]
        have this' : decFields T (dec T L n (lvl + 1)) allow fs (-1) bin = _ := this
        rw [this']
        by_cases l2 : lvl + 1 + d' ≤ maxStack ∨ d' = 0
        · have l3 : lvl + (d' + 1) ≤ maxStack ∨ d' + 1 = 0 := by omega
          simp only [limited, if_pos l2, if_pos l3, bind_ok]
          simp [tailText_join]
        · have l3 : ¬ (lvl + (d' + 1) ≤ maxStack ∨ d' + 1 = 0) := by omega
          simp only [limited, if_neg l2, if_neg l3, bind_error]
      · have l3 : ¬ (lvl + (d' + 1) ≤ maxStack ∨ d' + 1 = 0) := by omega
        simp only [if_neg l1, limited, if_neg l3]
    · rename_i p hk
      obtain ⟨c, mid, ts, d', h0, hc, h, rfl, rfl⟩ := h
      simp only [hk, h0, bind_ok]
      have := decElems_of_dec (E := dec T L n (lvl + 1) false p) (lvl := lvl + 1) (fun bin t rest d => ih (lvl + 1) false p bin t rest d)
        c 0 mid ts rest d' (by simpa using hc) h
      have this' : decElems (dec T L n (lvl + 1) false p) c (-1) mid = _ := this
      by_cases l1 : lvl + 1 ≤ maxStack
      · rw [if_pos l1, this']
        by_cases l2 : lvl + 1 + d' ≤ maxStack ∨ d' = 0
        · have l3 : lvl + (d' + 1) ≤ maxStack ∨ d' + 1 = 0 := by omega
          simp only [limited, if_pos l2, if_pos l3, bind_ok]
          simp [tailText_join]
        · have l3 : ¬ (lvl + (d' + 1) ≤ maxStack ∨ d' + 1 = 0) := by omega
          simp only [limited, if_neg l2, if_neg l3, bind_error]
      · have l3 : ¬ (lvl + (d' + 1) ≤ maxStack ∨ d' + 1 = 0) := by omega
        simp only [if_neg l1, limited, if_neg l3]
    · rename_i alts hk
      obtain ⟨i, mid, f, t', d', h0, hf, h, rfl, rfl⟩ := h
      simp only [hk, h0, bind_ok, hf]
      by_cases l1 : lvl + 1 ≤ maxStack
      · rw [if_pos l1, ih (lvl + 1) _ _ _ _ _ _ h]
        by_cases l2 : lvl + 1 + d' ≤ maxStack ∨ d' = 0
        · have l3 : lvl + (d' + 1) ≤ maxStack ∨ d' + 1 = 0 := by omega
          simp only [limited, if_pos l2, if_pos l3, bind_ok]
        · have l3 : ¬ (lvl + (d' + 1) ≤ maxStack ∨ d' + 1 = 0) := by omega
          simp only [limited, if_neg l2, if_neg l3, bind_error]
      · have l3 : ¬ (lvl + (d' + 1) ≤ maxStack ∨ d' + 1 = 0) := by omega
        simp only [if_neg l1, limited, if_neg l3]
    · exact h.elim

theorem dec_of_decFields {D : Bool → Ptr → Bytes → Bytes → Bytes → Nat → Prop} {E : Bool → Ptr → Bytes → Res (Bytes × Bytes)}
    {lvl : Nat} (hE : ∀ a p bin t rest, T.Valid p → E a p bin = .ok (t, rest) → ∃ d, D a p bin t rest d ∧ (lvl + d ≤ maxStack ∨ d = 0))
    {allow : Bool} :
    ∀ (fs : List Field) (i : Nat) (bin t rest : Bytes), (∀ f ∈ fs, T.Valid f.type) → ExtLast T fs →
      decFields T E allow fs ((i : Int) - 1) bin = .ok (t, rest) →
      ∃ ms d, DecFields T D allow fs bin ms rest d ∧ t = tailText (str "}") (decide (i ≠ 0)) ms ∧ (lvl + d ≤ maxStack ∨ d = 0) := by
  have skip : ∀ (fs : List Field) (pos : Int) (t rest : Bytes), (∀ f ∈ fs, IsExt T f.type) → allow = true →
      decFields T E allow fs pos [] = .ok (t, rest) → t = str "}" ∧ rest = [] := by
    intro fs
    induction fs with
    | nil =>
      intro pos t rest _ _ h
      simp [decFields, bind_eq_ok] at h
      exact ⟨h.2.1.symm, h.2.2⟩
    | cons f fs ih =>
      intro pos t rest hx ha h
      obtain ⟨q, hq⟩ := hx f (by simp)
      simp only [decFields, bind_eq_ok, hq] at h
      obtain ⟨p, -, h⟩ := h
      rw [if_pos ⟨trivial, rfl, ha⟩] at h
      exact ih _ _ _ (fun g hg => hx g (by simp [hg])) ha h
  intro fs
  induction fs with
  | nil =>
    intro i bin t rest _ _ h
    simp [decFields, bind_eq_ok] at h
    obtain ⟨-, rfl, rfl⟩ := h
    exact ⟨[], 0, ⟨rfl, rfl, rfl⟩, rfl, .inr rfl⟩
  | cons f fs ih =>
    intro i bin t rest hv hx h
    simp only [decFields, bind_eq_ok, incInt_ok] at h
    obtain ⟨p, ⟨-, rfl⟩, h⟩ := h
    split at h
    · simp at h
    · rename_i d hd
      split at h
      · rename_i hc
        obtain ⟨rfl, hc, ha⟩ := hc
        have hx' := hx.head ((isExt_iff hd).2 hc)
        obtain ⟨rfl, rfl⟩ := skip _ _ _ _ (fun g hg => hx' g (by simp [hg])) ha h
        exact ⟨[], 0, .inl ⟨ha, rfl, hx', rfl, rfl, rfl⟩, rfl, .inr rfl⟩
      · rename_i hc
        simp only [bind_eq_ok] at h
        obtain ⟨⟨t1, r1⟩, h1, ⟨t2, r2⟩, h2, h3⟩ := h
        simp only [Except.ok.injEq, Prod.mk.injEq] at h3
        obtain ⟨rfl, rfl⟩ := h3
        have ei : ((i : Int) - 1 + 1) = ((i + 1 : Nat) : Int) - 1 := by omega
        rw [ei] at h2
        obtain ⟨ms', d2, g1, g2, g3⟩ := ih (i + 1) r1 t2 r2 (fun g hg => hv g (by simp [hg])) hx.cons h2
        obtain ⟨d1, g4, g5⟩ := hE _ _ _ _ _ (hv f (by simp)) h1
        refine ⟨_, _, .inr ⟨?_, t1, r1, d1, ms', d2, g4, g1, rfl, rfl⟩, ?_, by omega⟩
        · rintro ⟨ha, h0, hxf⟩
          exact hc ⟨h0, (isExt_iff hd).1 hxf, ha⟩
        · subst g2
          have e : (decide (i + 1 ≠ 0)) = true := by simp
          have e' : ((i : Int) - 1 + 1 ≠ 0) ↔ i ≠ 0 := by omega
          simp only [tailText, e, e', List.append_assoc]
          by_cases hi0 : i = 0 <;> simp [hi0]

theorem dec_of_decElems {D : Bytes → Bytes → Bytes → Nat → Prop} {E : Bytes → Res (Bytes × Bytes)}
    {lvl : Nat} (hE : ∀ bin t rest, E bin = .ok (t, rest) → ∃ d, D bin t rest d ∧ (lvl + d ≤ maxStack ∨ d = 0)) :
    ∀ (k i : Nat) (bin t rest : Bytes), i ≤ 2147483648 → decElems E k ((i : Int) - 1) bin = .ok (t, rest) →
      i + k < 2147483648 ∧
      ∃ ts d, DecElems D k bin ts rest d ∧ t = tailText (str "]") (decide (i ≠ 0)) ts ∧ (lvl + d ≤ maxStack ∨ d = 0) := by
  intro k
  induction k with
  | zero =>
    intro i bin t rest hi h
    simp [decElems, bind_eq_ok, incInt_ok] at h
    obtain ⟨h0, rfl, rfl⟩ := h
    exact ⟨by omega, [], 0, ⟨rfl, rfl, rfl⟩, rfl, .inr rfl⟩
  | succ k ih =>
    intro i bin t rest hi h
    simp only [decElems, bind_eq_ok, incInt_ok] at h
    obtain ⟨p, ⟨h0, rfl⟩, ⟨t1, r1⟩, h1, ⟨t2, r2⟩, h2, h3⟩ := h
    simp only [Except.ok.injEq, Prod.mk.injEq] at h3
    obtain ⟨rfl, rfl⟩ := h3
    have ei : ((i : Int) - 1 + 1) = ((i + 1 : Nat) : Int) - 1 := by omega
    rw [ei] at h2
    obtain ⟨hlt, ts', d2, g1, g2, g3⟩ := ih (i + 1) r1 t2 r2 (by omega) h2
    obtain ⟨d1, g4, g5⟩ := hE _ _ _ h1
    refine ⟨by omega, _, _, ⟨t1, r1, d1, ts', d2, g4, g1, rfl, rfl⟩, ?_, by omega⟩
    subst g2
    have e : (decide (i + 1 ≠ 0)) = true := by simp
    have e' : ((i : Int) - 1 + 1 ≠ 0) ↔ i ≠ 0 := by omega
    simp only [tailText, e, e', List.append_assoc]
    by_cases hi0 : i = 0 <;> simp [hi0]

/-- What the decoder yields is described by `Dec`, and is not nested too deeply. -/
theorem dec_of_ok (wf : T.WF) (hx : ExtTail T) : ∀ (n lvl : Nat) (allow : Bool) (ty : Ptr) (bin t rest : Bytes), T.Valid ty →
    dec T L n lvl allow ty bin = .ok (t, rest) → ∃ d, Dec T L n allow ty bin t rest d ∧ (lvl + d ≤ maxStack ∨ d = 0) := by
  intro n
  induction n with
  | zero => intro lvl allow ty bin t rest _ h; simp [dec] at h
  | succ n ih =>
    intro lvl allow ty bin t rest hty h
    unfold dec at h
    unfold Dec
    split at h
    · rename_i k hk
      simp only [hk]
      exact ⟨0, ⟨h, rfl⟩, .inr rfl⟩
    · rename_i p hk
      simp only [hk]
      simp only [bind_eq_ok] at h
      obtain ⟨⟨c, r⟩, h1, h⟩ := h
      have := readU8_ok h1
      subst this
      simp only at h
      split at h
      · rename_i hc
        obtain ⟨d, g1, g2⟩ := ih _ _ _ _ _ _ (wf.optional hk).1 h
        exact ⟨d, .inr ⟨c, r, rfl, hc, g1⟩, g2⟩
      · rename_i hc
        simp at h hc
        obtain ⟨rfl, rfl⟩ := h
        subst hc
        exact ⟨0, .inl ⟨rfl, rfl, rfl⟩, .inr rfl⟩
    · rename_i p hk
      simp only [hk]
      exact ih _ _ _ _ _ _ (wf.extension hk).1 h
    · rename_i fs hk
      simp only [hk]
      split at h
      · rename_i hl
        simp only [bind_eq_ok] at h
        obtain ⟨⟨t', r⟩, h, h'⟩ := h
        simp only [Except.ok.injEq, Prod.mk.injEq] at h'
        obtain ⟨rfl, rfl⟩ := h'
        obtain ⟨ms, d, g1, g2, g3⟩ := dec_of_decFields (D := Dec T L n) (lvl := lvl + 1)
          (fun a p bin t rest hp => ih (lvl + 1) a p bin t rest hp) fs 0 bin t' r (wf.struct hk) (hx _ _ hk) h
        refine ⟨d + 1, ⟨ms, d, g1, ?_, rfl⟩, by omega⟩
        rw [g2]; simp [tailText_join]
      · simp at h
    · rename_i p hk
      simp only [hk]
      simp only [bind_eq_ok] at h
      obtain ⟨⟨c, mid⟩, h0, h⟩ := h
      simp only at h
      split at h
      · rename_i hl
        simp only [bind_eq_ok] at h
        obtain ⟨⟨t', r⟩, h, h'⟩ := h
        simp only [Except.ok.injEq, Prod.mk.injEq] at h'
        obtain ⟨rfl, rfl⟩ := h'
        obtain ⟨hlt, ts, d, g1, g2, g3⟩ := dec_of_decElems (D := Dec T L n false p) (lvl := lvl + 1)
          (fun bin t rest => ih (lvl + 1) false p bin t rest (wf.array hk).1) c 0 mid t' r (by omega) h
        refine ⟨d + 1, ⟨c, mid, ts, d, h0, by omega, g1, ?_, rfl⟩, by omega⟩
        rw [g2]; simp [tailText_join]
      · simp at h
    · rename_i alts hk
      simp only [hk]
      split at h
      · rename_i hl
        simp only [bind_eq_ok] at h
        obtain ⟨⟨i, mid⟩, h0, h⟩ := h
        split at h
        · simp at h
        · rename_i f hf
          simp only [bind_eq_ok] at h
          obtain ⟨⟨t', r⟩, h, h'⟩ := h
          simp only [Except.ok.injEq, Prod.mk.injEq] at h'
          obtain ⟨rfl, rfl⟩ := h'
          obtain ⟨d, g1, g2⟩ := ih _ _ _ _ _ _ (wf.variant hk f (List.mem_of_getElem? hf)) h
          exact ⟨d + 1, ⟨i, mid, f, t', d, h0, hf, g1, rfl, rfl⟩, by omega⟩
      · simp at h
    · simp at h

theorem decFields_mono {D D' : Bool → Ptr → Bytes → Bytes → Bytes → Nat → Prop} (h : ∀ a p b t r d, D a p b t r d → D' a p b t r d)
    {allow : Bool} : ∀ (fs : List Field) (b : Bytes) (ms : List Bytes) (r : Bytes) (d : Nat),
      DecFields T D allow fs b ms r d → DecFields T D' allow fs b ms r d := by
  intro fs
  induction fs with
  | nil => intro b ms r d h; exact h
  | cons f fs ih =>
    rintro b ms r d (h1 | ⟨h0, t, mid, d1, ms', d2, h1, h2, h3⟩)
    · exact .inl h1
    · exact .inr ⟨h0, t, mid, d1, ms', d2, h _ _ _ _ _ _ h1, ih _ _ _ _ h2, h3⟩

theorem decElems_mono {D D' : Bytes → Bytes → Bytes → Nat → Prop} (h : ∀ b t r d, D b t r d → D' b t r d) :
    ∀ (k : Nat) (b : Bytes) (ms : List Bytes) (r : Bytes) (d : Nat), DecElems D k b ms r d → DecElems D' k b ms r d := by
  intro k
  induction k with
  | zero => intro b ms r d h; exact h
  | succ k ih =>
    rintro b ms r d ⟨t, mid, d1, ms', d2, h1, h2, h3⟩
    exact ⟨t, mid, d1, ms', d2, h _ _ _ _ h1, ih _ _ _ _ h2, h3⟩

theorem decR_succ : ∀ (n : Nat) (allow : Bool) (ty : Ptr) (b t r : Bytes) (d : Nat), Dec T L n allow ty b t r d →
    Dec T L (n + 1) allow ty b t r d := by
  intro n
  induction n with
  | zero => intro allow ty b t r d h; exact h.elim
  | succ n ih =>
    intro allow ty b t r d h
    unfold Dec at h ⊢
    split at h
    · exact h
    · exact h.imp id fun ⟨c, b', h1, h2, h3⟩ => ⟨c, b', h1, h2, ih _ _ _ _ _ _ h3⟩
    · exact ih _ _ _ _ _ _ h
    · obtain ⟨ms, d', h1, h2⟩ := h
      exact ⟨ms, d', decFields_mono ih _ _ _ _ _ h1, h2⟩
    · obtain ⟨c, mid, ts, d', h1, h2, h3, h4⟩ := h
      exact ⟨c, mid, ts, d', h1, h2, decElems_mono (ih _ _) _ _ _ _ _ h3, h4⟩
    · obtain ⟨i, mid, f, t', d', h1, h2, h3, h4⟩ := h
      exact ⟨i, mid, f, t', d', h1, h2, ih _ _ _ _ _ _ h3, h4⟩
    · exact h

theorem decR_mono {n m : Nat} (hnm : n ≤ m) {allow : Bool} {ty : Ptr} {b t r : Bytes} {d : Nat} (h : Dec T L n allow ty b t r d) :
    Dec T L m allow ty b t r d := by
  induction hnm with
  | refl => exact h
  | step _ ih => exact decR_succ _ _ _ _ _ _ _ ih

end

end Abieos
