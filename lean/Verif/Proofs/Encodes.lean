import Verif.Proofs.SerDec
import Verif.Spec.Encoding
/-
The conversions against the specification of the encoding.
-/
namespace Abieos

open Spec

section
variable {T : Table}

theorem norm_obj (ms : List (Bytes × JVal)) : norm (.obj ms) = .obj (norm.goM [] ms) := by rw [norm]
theorem norm_arr (l : List JVal) : norm (.arr l) = .arr (l.map norm) := by rw [norm, norm_go]

theorem encRFields_skip_inv {E : Bool → Ptr → JVal → Res (Bytes × Bool)} {allow : Bool} {ms : List (Bytes × JVal)} :
    ∀ (fs : List Field) (pos : Int) (b : Bytes) (sk' : Bool),
      encRFields T E allow (norm.goM [] ms) fs true pos = .ok (b, sk') →
      b = [] ∧ ∀ g ∈ fs, allow = true ∧ IsExt T g.type ∧ lastValue g.name ms = none := by
  intro fs
  induction fs with
  | nil => intro pos b sk' h; simp [encRFields, bind_eq_ok] at h; simp [h]
  | cons f fs ih =>
    intro pos b sk' h
    simp only [encRFields, bind_eq_ok] at h
    obtain ⟨q, hq, h⟩ := h
    rw [norm_lookup] at h
    cases hl : lastValue f.name ms with
    | some x => simp [hl] at h
    | none =>
      simp only [hl, Option.map_none] at h
      split at h
      · simp at h
      · rename_i d hd
        split at h
        · rename_i hc
          simp only [Bool.and_eq_true] at hc
          obtain ⟨h1, h2⟩ := ih _ _ _ h
          refine ⟨h1, ?_⟩
          intro g hg
          rcases List.mem_cons.1 hg with rfl | hg
          · exact ⟨hc.2, (isExt_iff hd).2 hc.1, hl⟩
          · exact h2 g hg
        · simp at h

theorem encFields_of_encR {E : Bool → Ptr → JVal → Res (Bytes × Bool)} {E' : Bool → Ptr → JVal → Bytes → Prop}
    {allow : Bool} {ms : List (Bytes × JVal)}
    (hE : ∀ a f v b sk, E a f (norm v) = .ok (b, sk) → E' a f v b) :
    ∀ (fs : List Field) (sk : Bool) (pos : Int) (b : Bytes) (sk' : Bool),
      encRFields T E allow (norm.goM [] ms) fs sk pos = .ok (b, sk') → EncFields T E' allow ms fs b := by
  intro fs
  induction fs with
  | nil => intro sk pos b sk' h; simp [encRFields, bind_eq_ok] at h; exact h.2.1
  | cons f fs ih =>
    intro sk pos b sk' h
    cases sk with
    | true =>
      obtain ⟨h1, h2⟩ := encRFields_skip_inv _ _ _ _ h
      exact .inl ⟨(h2 f (by simp)).1, fun g hg => (h2 g hg).2, h1⟩
    | false =>
      simp only [encRFields, bind_eq_ok] at h
      obtain ⟨q, hq, h⟩ := h
      rw [norm_lookup] at h
      cases hl : lastValue f.name ms with
      | some x =>
        simp only [hl, Option.map_some] at h
        rw [if_neg (by simp)] at h
        simp only [bind_eq_ok] at h
        obtain ⟨⟨b1, sk1⟩, h1, ⟨b2, sk2⟩, h2, h3⟩ := h
        simp only [Except.ok.injEq, Prod.mk.injEq] at h3
        exact .inr ⟨x, b1, b2, hl, hE _ _ _ _ _ h1, ih _ _ _ _ h2, h3.1.symm⟩
      | none =>
        simp only [hl, Option.map_none] at h
        split at h
        · simp at h
        · rename_i d hd
          split at h
          · rename_i hc
            simp only [Bool.and_eq_true] at hc
            obtain ⟨h1, h2⟩ := encRFields_skip_inv _ _ _ _ h
            refine .inl ⟨hc.2, ?_, h1⟩
            intro g hg
            rcases List.mem_cons.1 hg with rfl | hg
            · exact ⟨(isExt_iff hd).2 hc.1, hl⟩
            · exact (h2 g hg).2
          · simp at h

theorem encRFields_of_enc {E : Bool → Ptr → JVal → Res (Bytes × Bool)} {E' : Bool → Ptr → JVal → Bytes → Prop}
    {allow : Bool} {ms : List (Bytes × JVal)}
    (hE : ∀ a f v b, E' a f v b → ∃ sk, E a f (norm v) = .ok (b, sk) ∧ (a = false → sk = false)) :
    ∀ (fs : List Field) (i : Nat) (sk : Bool) (b : Bytes), i + fs.length < 2147483648 → (fs ≠ [] → sk = false) →
      EncFields T E' allow ms fs b →
      ∃ sk', encRFields T E allow (norm.goM [] ms) fs sk ((i : Int) - 1) = .ok (b, sk') := by
  have skip : ∀ (fs : List Field) (i : Nat) (sk : Bool), (∀ f ∈ fs, IsExt T f.type ∧ lastValue f.name ms = none) →
      i + fs.length < 2147483648 → allow = true →
      ∃ sk', encRFields T E allow (norm.goM [] ms) fs sk ((i : Int) - 1) = .ok ([], sk') := by
    intro fs
    induction fs with
    | nil => intro i sk _ hi _; simp at hi; rw [encRFields, incInt, if_neg (by omega)]; exact ⟨sk, rfl⟩
    | cons f fs ih =>
      intro i sk hx hi ha
      simp at hi
      obtain ⟨⟨q, hq⟩, hl⟩ := hx f (by simp)
      obtain ⟨sk', e⟩ := ih (i + 1) true (fun g hg => hx g (by simp [hg])) (by omega) ha
      refine ⟨sk', ?_⟩
      have ei : ((i : Int) - 1 + 1) = ((i + 1 : Nat) : Int) - 1 := by omega
      rw [encRFields, incInt, if_neg (by omega), bind_ok, norm_lookup, hl, hq, ei]
      simp [TData.isExt, ha, ← e]
  intro fs
  induction fs with
  | nil =>
    rintro i sk b hi - rfl
    simp at hi
    rw [encRFields, incInt, if_neg (by omega)]
    exact ⟨sk, rfl⟩
  | cons f fs ih =>
    intro i sk b hi hsk h
    obtain rfl := hsk (by simp)
    rcases h with ⟨ha, hx, rfl⟩ | ⟨x, b1, b2, hl, h1, h2, rfl⟩
    · exact skip (f :: fs) i false hx hi ha
    · simp at hi
      obtain ⟨sk1, e1, hs1⟩ := hE _ _ _ _ h1
      obtain ⟨sk2, e2⟩ := ih (i + 1) sk1 b2 (by omega) (by
        intro hne
        apply hs1
        cases fs with
        | nil => exact absurd rfl hne
        | cons => simp) h2
      refine ⟨sk2, ?_⟩
      have ei : ((i : Int) - 1 + 1) = ((i + 1 : Nat) : Int) - 1 := by omega
      rw [encRFields, incInt, if_neg (by omega), bind_ok, norm_lookup, hl, ei]
      simp only [Option.map_some]
      rw [if_neg (by simp), e1, bind_ok, e2]
      rfl

theorem encElems_of_encR {E : JVal → Res (Bytes × Bool)} {E' : JVal → Bytes → Prop}
    (hE : ∀ v b sk, E (norm v) = .ok (b, sk) → E' v b) :
    ∀ (l : List JVal) (i : Nat) (b : Bytes), i ≤ 2147483648 → encRElems E (l.map norm) ((i : Int) - 1) = .ok b →
      EncElems E' l b ∧ i + l.length < 2147483648 := by
  intro l
  induction l with
  | nil =>
    intro i b hi h
    simp only [List.map_nil, encRElems, bind_eq_ok] at h
    obtain ⟨q, hq, h⟩ := h
    rw [incInt_ok] at hq
    simp only [Except.ok.injEq] at h
    exact ⟨h.symm, by simp; omega⟩
  | cons v l ih =>
    intro i b hi h
    simp only [List.map_cons, encRElems, bind_eq_ok] at h
    obtain ⟨q, hq, ⟨b1, sk⟩, h1, b2, h2, h3⟩ := h
    rw [incInt_ok] at hq
    have ei : q = ((i + 1 : Nat) : Int) - 1 := by omega
    subst ei
    obtain ⟨h4, h5⟩ := ih (i + 1) b2 (by omega) h2
    simp only [Except.ok.injEq] at h3
    exact ⟨⟨b1, b2, hE _ _ _ h1, h4, h3.symm⟩, by simp; omega⟩

theorem encRElems_of_enc {E : JVal → Res (Bytes × Bool)} {E' : JVal → Bytes → Prop}
    (hE : ∀ v b, E' v b → ∃ sk, E (norm v) = .ok (b, sk)) :
    ∀ (l : List JVal) (i : Nat) (b : Bytes), i + l.length < 2147483648 → EncElems E' l b →
      encRElems E (l.map norm) ((i : Int) - 1) = .ok b := by
  intro l
  induction l with
  | nil =>
    rintro i b hi rfl
    simp at hi
    rw [List.map_nil, encRElems, incInt, if_neg (by omega)]
    rfl
  | cons v l ih =>
    rintro i b hi ⟨b1, b2, h1, h2, rfl⟩
    simp at hi
    obtain ⟨sk1, e1⟩ := hE _ _ h1
    have e2 := ih (i + 1) b2 (by omega) h2
    have ei : ((i : Int) - 1 + 1) = ((i + 1 : Nat) : Int) - 1 := by omega
    rw [List.map_cons, encRElems, incInt, if_neg (by omega), bind_ok, e1, bind_ok, ei, e2]
    rfl

theorem isNull_iff {v : JVal} : v.isNull = true ↔ v = .null := by cases v <;> simp [JVal.isNull]

theorem norm_eq_str {v : JVal} {s : Bytes} : norm v = .str s ↔ v = .str s := by
  cases v <;> simp [norm]

/-- The reorderable conversion computes the encoding. -/
theorem encR_iff_enc {L : Leaves} (hsm : Small T) : ∀ (n : Nat) (allow : Bool) (ty : Ptr) (v : JVal) (b : Bytes),
    (∃ sk, encR T L n allow ty (norm v) = .ok (b, sk)) ↔ Enc T L n allow ty v b := by
  intro n
  induction n with
  | zero => intro allow ty v b; simp [encR, Enc]
  | succ n ih =>
    intro allow ty v b
    unfold encR Enc
    split
    · rename_i k hk
      simp only [hk]
      constructor
      · rintro ⟨sk, h⟩
        simp only [bind_eq_ok] at h
        obtain ⟨x, h1, h2⟩ := h
        simp only [Except.ok.injEq, Prod.mk.injEq] at h2
        obtain ⟨rfl, -⟩ := h2
        cases v with
        | bool x => exact ⟨.bool x, rfl, h1⟩
        | str s => exact ⟨.str s, rfl, h1⟩
        | null => simp [norm, leafEnc] at h1
        | arr l => simp [norm, leafEnc] at h1
        | obj l => simp [norm, leafEnc] at h1
      · rintro ⟨s, rfl, h⟩
        refine ⟨false, ?_⟩
        have : norm (ofScalar s) = ofScalar s := by cases s <;> rfl
        rw [this, leafEnc_ofScalar, h]; rfl
    · rename_i p hk
      simp only [hk]
      rw [norm_isNull]
      constructor
      · rintro ⟨sk, h⟩
        split at h
        · rename_i hv
          simp only [Except.ok.injEq, Prod.mk.injEq] at h
          exact .inl ⟨isNull_iff.1 hv, h.1.symm⟩
        · rename_i hv
          simp only [bind_eq_ok] at h
          obtain ⟨⟨b1, sk1⟩, h1, h2⟩ := h
          simp only [Except.ok.injEq, Prod.mk.injEq] at h2
          exact .inr ⟨fun e => hv (isNull_iff.2 e), b1, h2.1.symm, (ih _ _ _ _).1 ⟨_, h1⟩⟩
      · rintro (⟨rfl, rfl⟩ | ⟨hv, b', rfl, h⟩)
        · exact ⟨false, rfl⟩
        · obtain ⟨sk, e⟩ := (ih _ _ _ _).2 h
          refine ⟨sk, ?_⟩
          rw [if_neg (fun e => hv (isNull_iff.1 e)), e]; rfl
    · rename_i p hk
      simp only [hk]
      exact ih _ _ _ _
    · rename_i fs hk
      simp only [hk]
      have hfs := hsm _ _ hk
      constructor
      · rintro ⟨sk, h⟩
        cases v with
        | obj ms =>
          rw [norm_obj] at h
          exact ⟨ms, rfl, encFields_of_encR (fun a f v b sk h => (ih a f v b).1 ⟨sk, h⟩) _ _ _ _ _ h⟩
        | null => simp [norm] at h
        | bool => simp [norm] at h
        | str => simp [norm] at h
        | arr => simp [norm] at h
      · rintro ⟨ms, rfl, h⟩
        rw [norm_obj]
        exact encRFields_of_enc (fun a f v b h => by
          obtain ⟨sk, e⟩ := (ih _ _ _ _).2 h
          exact ⟨sk, e, by rintro rfl; exact encR_skip _ _ _ _ _ e⟩) fs 0 false b (by omega) (by simp) h
    · rename_i p hk
      simp only [hk]
      constructor
      · rintro ⟨sk, h⟩
        cases v with
        | arr l =>
          rw [norm_arr] at h
          simp only [bind_eq_ok] at h
          obtain ⟨c, hc, b', hb, h⟩ := h
          simp only [Except.ok.injEq, Prod.mk.injEq] at h
          obtain ⟨h1, h2⟩ := encElems_of_encR (fun v b sk h => (ih _ _ _ _).1 ⟨_, h⟩) l 0 b' (by omega) hb
          rw [List.length_map] at hc
          exact ⟨l, c, b', rfl, by omega, hc, h1, h.1.symm⟩
        | null => simp [norm] at h
        | bool => simp [norm] at h
        | str => simp [norm] at h
        | obj => simp [norm] at h
      · rintro ⟨l, c, b', rfl, hlen, hc, h, rfl⟩
        refine ⟨false, ?_⟩
        have e := encRElems_of_enc (fun v b h => (ih _ _ _ _).2 h) l 0 b' (by omega) h
        rw [norm_arr]
        simp only
        rw [List.length_map, hc, bind_ok, show (-1 : Int) = ((0 : Nat) : Int) - 1 by rfl, e]
        rfl
    · rename_i alts hk
      simp only [hk]
      constructor
      · rintro ⟨sk, h⟩
        split at h
        · rename_i name x hv
          have : ∃ y, v = .arr [.str name, y] ∧ norm y = x := by
            cases v with
            | arr l =>
              rw [norm_arr] at hv
              simp only [JVal.arr.injEq] at hv
              match l, hv with
              | [], hv => simp at hv
              | [_], hv => simp at hv
              | _ :: _ :: _ :: _, hv => simp at hv
              | [a, y], hv =>
                simp only [List.map_cons, List.map_nil, List.cons.injEq, and_true] at hv
                exact ⟨y, by rw [norm_eq_str.1 hv.1], hv.2⟩
            | _ => simp [norm] at hv
          obtain ⟨y, rfl, rfl⟩ := this
          split at h
          · simp at h
          · rename_i i f hf
            simp only [bind_eq_ok] at h
            obtain ⟨c, hc, ⟨b1, sk1⟩, h1, h2⟩ := h
            simp only [Except.ok.injEq, Prod.mk.injEq] at h2
            exact ⟨name, y, i, f, c, b1, rfl, hf, hc, (ih _ _ _ _).1 ⟨_, h1⟩, h2.1.symm⟩
        · simp at h
      · rintro ⟨name, x, i, f, c, b', rfl, hf, hc, h, rfl⟩
        obtain ⟨sk, e⟩ := (ih _ _ _ _).2 h
        refine ⟨sk, ?_⟩
        rw [norm_arr]
        simp only [List.map_cons, List.map_nil, norm]
        rw [hf]
        simp only [hc, bind_ok, e]
    · split <;> simp_all

theorem openDepth_obj {ms : List (Bytes × JVal)} (h : ms ≠ []) : openDepth (.obj ms) = openDepth.goM ms + 1 := by
  cases ms with
  | nil => exact absurd rfl h
  | cons m l => obtain ⟨k, v⟩ := m; rfl

theorem openDepth_le_go {l : List JVal} {k : Nat} : openDepth.go l ≤ k ↔ ∀ v ∈ l, openDepth v ≤ k := by
  induction l with
  | nil => simp [openDepth.go]
  | cons v l ih => simp [openDepth.go, Nat.max_le, ih]

theorem openDepth_le_goM {l : List (Bytes × JVal)} {k : Nat} : openDepth.goM l ≤ k ↔ ∀ x ∈ l, openDepth x.2 ≤ k := by
  induction l with
  | nil => simp [openDepth.goM]
  | cons v l ih => obtain ⟨a, b⟩ := v; simp [openDepth.goM, Nat.max_le, ih]

theorem lastValue_none_iff {k : Bytes} {ms : List (Bytes × JVal)} : lastValue k ms = none ↔ k ∉ ms.map (·.1) := by
  induction ms with
  | nil => simp [lastValue]
  | cons p l ih =>
    obtain ⟨a, b⟩ := p
    simp only [lastValue, List.map_cons, List.mem_cons, not_or]
    cases h : lastValue k l with
    | some x => simp; rw [h] at ih; simp at ih; intro _; simpa using ih
    | none => simp; rw [h] at ih; simp at ih; constructor
              · intro e; exact ⟨fun e' => e e'.symm, by simpa using ih⟩
              · intro e e'; exact e.1 e'.symm

theorem lastValue_append_new {k : Bytes} {v : JVal} {pre l : List (Bytes × JVal)} (h : k ∉ l.map (·.1)) :
    lastValue k (pre ++ (k, v) :: l) = some v := by
  induction pre with
  | nil => simp [lastValue, lastValue_none_iff.2 h]
  | cons p pre ih => obtain ⟨a, b⟩ := p; simp [lastValue, ih]

/-- members, ordered conversion to specification -/
theorem encFields_of_encO {E : Bool → Ptr → JVal → Res (List Piece × Bool)} {E' : Bool → Ptr → JVal → Bytes → Prop}
    {O : Ptr → JVal → Prop} {allow : Bool} {lvl : Nat} {D : JVal → Prop}
    (hE : ∀ a f v b sk, E a f v = .ok (b, sk) → E' a f v (flat b) ∧ O f v ∧ D v) :
    ∀ (ms : List (Bytes × JVal)) (fs : List Field) (pre : List (Bytes × JVal)) (pos : Int) (b : List Piece) (sk' : Bool),
      ExtLast T fs → (fs.map (·.name)).Nodup → (∀ f ∈ fs, f.name ∉ pre.map (·.1)) →
      encOMembers T E lvl allow fs ms pos = .ok (b, sk') →
      EncFields T E' allow (pre ++ ms) fs (flat b) ∧ (ms.map (·.1)).Sublist (fs.map (·.name)) ∧
        (∀ f ∈ fs, ∀ x, (f.name, x) ∈ ms → O f.type x) ∧ (∀ x ∈ ms, D x.2) ∧ (ms ≠ [] → lvl + 1 ≤ maxStack) := by
  intro ms
  induction ms with
  | nil =>
    intro fs pre pos b sk' hx hd hp h
    rw [encOMembers.eq_def] at h
    simp only [bind_eq_ok] at h
    obtain ⟨q, hq, h⟩ := h
    refine ⟨?_, by simp, by simp, by simp, by simp⟩
    cases fs with
    | nil => simp at h; rw [h.1]; rfl
    | cons f fs =>
      simp only at h
      split at h
      · simp at h
      · rename_i d hdd
        split at h
        · rename_i hc
          simp only [Bool.and_eq_true] at hc
          simp only [Except.ok.injEq, Prod.mk.injEq] at h
          rw [← h.1]
          refine .inl ⟨hc.2, ?_, rfl⟩
          intro g hg
          refine ⟨hx.head ((isExt_iff hdd).2 hc.1) g hg, ?_⟩
          rw [List.append_nil, lastValue_none_iff]
          exact hp g hg
        · simp at h
  | cons m ms ih =>
    intro fs pre pos b sk' hx hd hp h
    obtain ⟨k, v⟩ := m
    rw [encOMembers.eq_def] at h
    simp only [bind_eq_ok] at h
    obtain ⟨q, hq, h⟩ := h
    cases fs with
    | nil => simp at h
    | cons f fs =>
      simp only at h
      split at h
      · rename_i hkf
        split at h
        · rename_i hl
          simp only [bind_eq_ok] at h
          obtain ⟨⟨b1, sk1⟩, h1, ⟨b2, sk2⟩, h2, h3⟩ := h
          simp only [Except.ok.injEq, Prod.mk.injEq] at h3
          subst hkf
          simp only [List.map_cons, List.nodup_cons] at hd
          obtain ⟨e1, e2, e3, e4, e5⟩ := ih fs (pre ++ [(f.name, v)]) q b2 sk2 hx.cons hd.2 (by
            intro g hg
            have h1 := hp g (by simp [hg])
            have h2 : g.name ≠ f.name := fun e => hd.1 (e ▸ List.mem_map.2 ⟨g, hg, rfl⟩)
            simp at h1 ⊢
            exact ⟨h1, h2⟩) h2
          have hnot : f.name ∉ ms.map (·.1) := fun hm => hd.1 (e2.subset hm)
          rw [List.append_assoc, List.singleton_append] at e1
          obtain ⟨g1, g2, g3⟩ := hE _ _ _ _ _ h1
          refine ⟨?_, ?_, ?_, ?_, fun _ => hl⟩
          · rw [← h3.1, flat_append]
            exact .inr ⟨v, flat b1, flat b2, lastValue_append_new hnot, g1, e1, rfl⟩
          · simpa using e2.cons_cons f.name
          · intro g hg x hm
            rcases List.mem_cons.1 hg with rfl | hg
            · rcases List.mem_cons.1 hm with e | hm
              · simp only [Prod.mk.injEq, true_and] at e
                subst e; exact g2
              · exact absurd (List.mem_map.2 ⟨_, hm, rfl⟩) hnot
            · rcases List.mem_cons.1 hm with e | hm
              · simp only [Prod.mk.injEq] at e
                exact absurd (List.mem_map.2 ⟨g, hg, e.1⟩) hd.1
              · exact e3 g hg x hm
          · intro x hx
            rcases List.mem_cons.1 hx with rfl | hx
            · exact g3
            · exact e4 x hx
        · simp at h
      · simp at h

/-- members, specification to ordered conversion -/
theorem encOMembers_of_enc {E : Bool → Ptr → JVal → Res (List Piece × Bool)} {E' : Bool → Ptr → JVal → Bytes → Prop}
    {O : Ptr → JVal → Prop} {allow : Bool} {lvl : Nat} {D : JVal → Prop}
    (hE : ∀ a f v b, E' a f v b → O f v → D v → ∃ ps sk, E a f v = .ok (ps, sk) ∧ flat ps = b) :
    ∀ (fs : List Field) (ms pre : List (Bytes × JVal)) (i : Nat) (b : Bytes),
      i + fs.length < 2147483648 → (fs.map (·.name)).Nodup → (∀ f ∈ fs, f.name ∉ pre.map (·.1)) →
      EncFields T E' allow (pre ++ ms) fs b → (ms.map (·.1)).Sublist (fs.map (·.name)) →
      (∀ f ∈ fs, ∀ x, (f.name, x) ∈ ms → O f.type x) → (∀ x ∈ ms, D x.2) → (ms ≠ [] → lvl + 1 ≤ maxStack) →
      ∃ ps sk, encOMembers T E lvl allow fs ms ((i : Int) - 1) = .ok (ps, sk) ∧ flat ps = b := by
  intro fs
  induction fs with
  | nil =>
    rintro ms pre i b hi - - rfl hs - - -
    have : ms = [] := by simpa using hs
    subst this
    simp at hi
    rw [encOMembers.eq_def]
    simp only
    rw [incInt_of (by omega)]
    exact ⟨[], false, rfl, rfl⟩
  | cons f fs ih =>
    intro ms pre i b hi hd hp h hs hO hD hl
    simp at hi
    have ei : ((i : Int) - 1 + 1) = ((i + 1 : Nat) : Int) - 1 := by omega
    rcases h with ⟨ha, hx, rfl⟩ | ⟨x, b1, b2, hlast, h1, h2, rfl⟩
    · have : ms = [] := by
        cases ms with
        | nil => rfl
        | cons m ms =>
          exfalso
          have hm : m.1 ∈ (f :: fs).map (·.name) := hs.subset (by simp)
          obtain ⟨g, hg, e⟩ := List.mem_map.1 hm
          have := (hx g hg).2
          rw [lastValue_none_iff] at this
          apply this
          simp [e]
      subst this
      obtain ⟨q, hq⟩ := (hx f (by simp)).1
      rw [encOMembers.eq_def]
      simp only
      rw [incInt_of (by omega)]
      simp only [bind_ok, hq, TData.isExt, ha]
      exact ⟨[], true, rfl, rfl⟩
    · simp only [List.map_cons, List.nodup_cons] at hd
      have hmem : f.name ∈ ms.map (·.1) := by
        have : ¬ lastValue f.name (pre ++ ms) = none := by rw [hlast]; simp
        rw [lastValue_none_iff] at this
        simp only [not_not, List.map_append, List.mem_append] at this
        exact this.resolve_left (hp f (by simp))
      cases ms with
      | nil => simp at hmem
      | cons m ms =>
        obtain ⟨k, v⟩ := m
        have hkf : k = f.name ∧ (ms.map (·.1)).Sublist (fs.map (·.name)) := by
          simp only [List.map_cons] at hs hmem
          cases hs with
          | cons _ hs' => exact absurd (hs'.subset hmem) hd.1
          | cons_cons _ hs' => exact ⟨rfl, hs'⟩
        obtain ⟨rfl, hs'⟩ := hkf
        have hnot : f.name ∉ ms.map (·.1) := fun hm => hd.1 (hs'.subset hm)
        rw [lastValue_append_new hnot] at hlast
        simp only [Option.some.injEq] at hlast
        subst hlast
        obtain ⟨ps1, sk1, e1, rfl⟩ := hE _ _ _ _ h1 (hO f (by simp) v (by simp)) (hD _ (by simp : (f.name, v) ∈ _))
        obtain ⟨ps2, sk2, e2, rfl⟩ := ih ms (pre ++ [(f.name, v)]) (i + 1) b2 (by omega) hd.2 (by
          intro g hg
          have h1 := hp g (by simp [hg])
          have h2 : g.name ≠ f.name := fun e => hd.1 (e ▸ List.mem_map.2 ⟨g, hg, rfl⟩)
          simp at h1 ⊢
          exact ⟨h1, h2⟩) (by rw [List.append_assoc]; exact h2) hs'
          (fun g hg x hm => hO g (by simp [hg]) x (by simp [hm])) (fun x hx => hD x (by simp [hx]))
          (fun _ => hl (by simp))
        refine ⟨ps1 ++ ps2, sk1 || sk2, ?_, by rw [flat_append]⟩
        rw [encOMembers.eq_def]
        simp only
        rw [incInt_of (by omega)]
        simp only [bind_ok, if_true]
        rw [if_pos (hl (by simp)), e1, bind_ok, ei, e2]
        rfl

theorem encElems_of_encO {E : JVal → Res (List Piece × Bool)} {E' : JVal → Bytes → Prop} {O D : JVal → Prop}
    (hE : ∀ v b sk, E v = .ok (b, sk) → E' v (flat b) ∧ O v ∧ D v) :
    ∀ (l : List JVal) (i : Nat) (b : List Piece), i ≤ 2147483648 → encOElems E l ((i : Int) - 1) = .ok b →
      EncElems E' l (flat b) ∧ i + l.length < 2147483648 ∧ (∀ x ∈ l, O x) ∧ ∀ x ∈ l, D x := by
  intro l
  induction l with
  | nil =>
    intro i b hi h
    simp only [encOElems, bind_eq_ok] at h
    obtain ⟨q, hq, h⟩ := h
    rw [incInt_ok] at hq
    simp only [Except.ok.injEq] at h
    subst h
    exact ⟨rfl, by simp; omega, by simp, by simp⟩
  | cons v l ih =>
    intro i b hi h
    simp only [encOElems, bind_eq_ok] at h
    obtain ⟨q, hq, ⟨b1, sk⟩, h1, b2, h2, h3⟩ := h
    rw [incInt_ok] at hq
    have ei : q = ((i + 1 : Nat) : Int) - 1 := by omega
    subst ei
    obtain ⟨h4, h5, h6, h7⟩ := ih (i + 1) b2 (by omega) h2
    obtain ⟨g1, g2, g3⟩ := hE _ _ _ h1
    simp only [Except.ok.injEq] at h3
    subst h3
    refine ⟨⟨_, _, g1, h4, by rw [flat_append]⟩, by simp; omega, by simpa using ⟨g2, h6⟩, by simpa using ⟨g3, h7⟩⟩

theorem encOElems_of_enc {E : JVal → Res (List Piece × Bool)} {E' : JVal → Bytes → Prop} {O D : JVal → Prop}
    (hE : ∀ v b, E' v b → O v → D v → ∃ ps sk, E v = .ok (ps, sk) ∧ flat ps = b) :
    ∀ (l : List JVal) (i : Nat) (b : Bytes), i + l.length < 2147483648 → EncElems E' l b → (∀ x ∈ l, O x) → (∀ x ∈ l, D x) →
      ∃ ps, encOElems E l ((i : Int) - 1) = .ok ps ∧ flat ps = b := by
  intro l
  induction l with
  | nil =>
    rintro i b hi rfl - -
    simp at hi
    rw [encOElems, incInt, if_neg (by omega)]
    exact ⟨[], rfl, rfl⟩
  | cons v l ih =>
    rintro i b hi ⟨b1, b2, h1, h2, rfl⟩ hO hD
    simp at hi
    obtain ⟨ps1, sk1, e1, rfl⟩ := hE _ _ h1 (hO v (by simp)) (hD v (by simp))
    obtain ⟨ps2, e2, rfl⟩ := ih (i + 1) b2 (by omega) h2 (fun x hx => hO x (by simp [hx])) (fun x hx => hD x (by simp [hx]))
    have ei : ((i : Int) - 1 + 1) = ((i + 1 : Nat) : Int) - 1 := by omega
    refine ⟨ps1 ++ ps2, ?_, by rw [flat_append]⟩
    rw [encOElems, incInt, if_neg (by omega), bind_ok, e1, bind_ok, ei, e2]
    rfl

/-- The ordered conversion computes the encoding of documents in ABI order. -/
theorem encO_iff_enc {L : Leaves} (hx : ExtTail T) (hdf : DistinctFields T) (hsm : Small T) :
    ∀ (n lvl : Nat) (allow : Bool) (ty : Ptr) (v : JVal) (b : Bytes),
    (∃ ps sk, encO T L n lvl allow ty v = .ok (ps, sk) ∧ flat ps = b) ↔
      Enc T L n allow ty v b ∧ InOrderTo T n ty v ∧ (lvl + openDepth v ≤ maxStack ∨ openDepth v = 0) := by
  intro n
  induction n with
  | zero => intro lvl allow ty v b; simp [encO, Enc]
  | succ n ih =>
    intro lvl allow ty v b
    unfold encO Enc InOrderTo
    split
    · rename_i k hk
      simp only [hk]
      constructor
      · rintro ⟨ps, sk, h, rfl⟩
        simp only [bind_eq_ok] at h
        obtain ⟨x, h1, h2⟩ := h
        simp only [Except.ok.injEq, Prod.mk.injEq] at h2
        obtain ⟨rfl, -⟩ := h2
        simp only [flat, List.append_nil]
        cases v with
        | bool x => exact ⟨⟨.bool x, rfl, h1⟩, trivial, .inr rfl⟩
        | str s => exact ⟨⟨.str s, rfl, h1⟩, trivial, .inr rfl⟩
        | null => simp [leafEnc] at h1
        | arr l => simp [leafEnc] at h1
        | obj l => simp [leafEnc] at h1
      · rintro ⟨⟨s, rfl, h⟩, -⟩
        refine ⟨[.raw b], false, ?_, by simp [flat]⟩
        rw [leafEnc_ofScalar, h]; rfl
    · rename_i p hk
      simp only [hk]
      constructor
      · rintro ⟨ps, sk, h, rfl⟩
        split at h
        · rename_i hv
          simp only [Except.ok.injEq, Prod.mk.injEq] at h
          obtain rfl := isNull_iff.1 hv
          rw [← h.1]
          refine ⟨.inl ⟨rfl, rfl⟩, ?_, .inr rfl⟩
          have : ∀ n p, InOrderTo T n p .null := by
            intro n
            induction n with
            | zero => intro p; trivial
            | succ n ih => intro p; unfold InOrderTo; split <;> first | exact ih _ | trivial
          exact this n p
        · rename_i hv
          simp only [bind_eq_ok] at h
          obtain ⟨⟨b1, sk1⟩, h1, h2⟩ := h
          simp only [Except.ok.injEq, Prod.mk.injEq] at h2
          obtain ⟨g1, g2, g3⟩ := (ih _ _ _ _ _).1 ⟨_, _, h1, rfl⟩
          rw [← h2.1]
          exact ⟨.inr ⟨fun e => hv (isNull_iff.2 e), flat b1, rfl, g1⟩, g2, g3⟩
      · rintro ⟨⟨rfl, rfl⟩ | ⟨hv, b', rfl, h⟩, h2, h3⟩
        · exact ⟨[.raw [0]], false, rfl, rfl⟩
        · obtain ⟨ps, sk, e, rfl⟩ := (ih _ _ _ _ _).2 ⟨h, h2, h3⟩
          refine ⟨.raw [1] :: ps, sk, ?_, rfl⟩
          rw [if_neg (fun e => hv (isNull_iff.1 e)), e]; rfl
    · rename_i p hk
      simp only [hk]
      exact ih _ _ _ _ _
    · rename_i fs hk
      have hfs := hsm _ _ hk
      simp only [hk]
      constructor
      · rintro ⟨ps, sk, h, rfl⟩
        cases v with
        | obj ms =>
          simp only at h ⊢
          obtain ⟨g1, g2, g3, g4, g5⟩ := encFields_of_encO (E' := Enc T L n) (O := InOrderTo T n)
            (D := fun v => lvl + 1 + openDepth v ≤ maxStack ∨ openDepth v = 0)
            (fun a f v b sk h => (ih _ _ _ _ _).1 ⟨_, _, h, rfl⟩) ms fs [] _ _ _ (hx _ _ hk) (hdf _ _ hk) (by simp) h
          refine ⟨⟨ms, rfl, g1⟩, ⟨g2, g3⟩, ?_⟩
          cases ms with
          | nil => exact .inr rfl
          | cons m ms =>
            left
            have := g5 (by simp)
            rw [openDepth_obj (by simp)]
            have : openDepth.goM (m :: ms) ≤ maxStack - (lvl + 1) := by
              rw [openDepth_le_goM]
              intro x hx
              rcases g4 x hx with h | h <;> omega
            omega
        | null => simp at h
        | bool => simp at h
        | str => simp at h
        | arr => simp at h
      · rintro ⟨⟨ms, rfl, h⟩, ⟨g2, g3⟩, g4⟩
        simp only
        refine encOMembers_of_enc (E' := Enc T L n) (O := InOrderTo T n)
            (D := fun v => lvl + 1 + openDepth v ≤ maxStack ∨ openDepth v = 0)
            (fun a f v b h h2 h3 => (ih _ _ _ _ _).2 ⟨h, h2, h3⟩) fs ms [] 0 b (by omega) (hdf _ _ hk) (by simp) h g2 g3 ?_ ?_
        · intro x hx
          cases ms with
          | nil => simp at hx
          | cons m ms =>
            rw [openDepth_obj (by simp)] at g4
            rcases g4 with g4 | g4
            · have : openDepth.goM (m :: ms) ≤ maxStack - (lvl + 1) := by omega
              rw [openDepth_le_goM] at this
              have := this x hx
              left; omega
            · omega
        · intro hne
          rw [openDepth_obj hne] at g4
          omega
    · rename_i p hk
      simp only [hk]
      constructor
      · rintro ⟨ps, sk, h, rfl⟩
        cases v with
        | arr l =>
          simp only at h ⊢
          split at h
          · rename_i hl
            simp only [bind_eq_ok] at h
            obtain ⟨b', hb, h⟩ := h
            simp only [Except.ok.injEq, Prod.mk.injEq] at h
            obtain ⟨h1, h2, h3, h4⟩ := encElems_of_encO (E' := Enc T L n false p) (O := InOrderTo T n p)
              (D := fun v => lvl + 1 + openDepth v ≤ maxStack ∨ openDepth v = 0)
              (fun v b sk h => (ih _ _ _ _ _).1 ⟨_, _, h, rfl⟩) l 0 b' (by omega) hb
            rw [← h.1]
            refine ⟨⟨l, varuintLoop l.length, flat b', rfl, by omega, ?_, h1, rfl⟩, h3, .inl ?_⟩
            · unfold varuint32ToBin; rw [if_neg (by omega)]
            · rw [openDepth]
              have : openDepth.go l ≤ maxStack - (lvl + 1) := by
                rw [openDepth_le_go]
                intro x hx
                rcases h4 x hx with h | h <;> omega
              omega
          · simp at h
        | null => simp at h
        | bool => simp at h
        | str => simp at h
        | obj => simp at h
      · rintro ⟨⟨l, c, b', rfl, hlen, hc, h, rfl⟩, g2, g3⟩
        simp only at g2 ⊢
        rw [openDepth] at g3
        have g3 : lvl + (openDepth.go l + 1) ≤ maxStack := by omega
        obtain ⟨ps, e, rfl⟩ := encOElems_of_enc (E := encO T L n (lvl + 1) false p) (E' := Enc T L n false p) (O := InOrderTo T n p)
              (D := fun v => lvl + 1 + openDepth v ≤ maxStack ∨ openDepth v = 0)
              (fun v b h h2 h3 => (ih _ _ _ _ _).2 ⟨h, h2, h3⟩) l 0 b' (by omega) h g2 (by
                have : openDepth.go l ≤ maxStack - (lvl + 1) := by omega
                rw [openDepth_le_go] at this
                intro x hx
                have := this x hx
                left; omega)
        rw [if_pos (by omega), show (-1 : Int) = ((0 : Nat) : Int) - 1 by rfl, e]
        have hc' := (varuint_write hc).1
        exact ⟨_, _, rfl, by rw [hc']; rfl⟩
    · rename_i alts hk
      simp only [hk]
      constructor
      · rintro ⟨ps, sk, h, rfl⟩
        cases v with
        | arr l =>
          simp only at h
          split at h
          · rename_i hl
            split at h
            · simp at h
            · rename_i name l
              split at h
              · simp at h
              · rename_i i f hf
                simp only [bind_eq_ok] at h
                obtain ⟨c, hc, h⟩ := h
                split at h
                · simp at h
                · rename_i x l
                  simp only [bind_eq_ok] at h
                  obtain ⟨⟨b1, sk1⟩, h1, h2⟩ := h
                  split at h2
                  · simp only [Except.ok.injEq, Prod.mk.injEq] at h2
                    obtain ⟨g1, g2, g3⟩ := (ih _ _ _ _ _).1 ⟨_, _, h1, rfl⟩
                    rw [← h2.1]
                    refine ⟨⟨name, x, i, f, c, flat b1, rfl, hf, hc, g1, rfl⟩, ?_, .inl ?_⟩
                    · intro i' f' hf'
                      rw [hf] at hf'
                      simp only [Option.some.injEq, Prod.mk.injEq] at hf'
                      rw [← hf'.2]; exact g2
                    · simp only [openDepth, openDepth.go]
                      omega
                  · simp at h2
            · simp at h
          · simp at h
        | null => simp at h
        | bool => simp at h
        | str => simp at h
        | obj => simp at h
      · rintro ⟨⟨name, x, i, f, c, b', rfl, hf, hc, h, rfl⟩, g2, g3⟩
        simp only at g2 ⊢
        simp only [openDepth, openDepth.go] at g3
        obtain ⟨ps, sk, e, rfl⟩ := (ih (lvl + 1) _ _ _ _).2 ⟨h, g2 i f hf, by omega⟩
        rw [if_pos (by omega), hf]
        simp only [hc, bind_ok, e]
        exact ⟨_, _, rfl, by simp [flat]⟩
    · rename_i h1 h2 h3 h4 h5 h6
      constructor
      · rintro ⟨ps, sk, h, -⟩; simp at h
      · rintro ⟨h, -⟩; split at h <;> simp_all
end

end Abieos
