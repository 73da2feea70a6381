import Verif.Proofs.SerEnc
import Verif.Proofs.RefineD
import Verif.Proofs.ReadText
import Verif.Props.Varint
/-
Serializations are decoded, re-encoded and read back; decoded texts belong to serializations.
-/
namespace Abieos

open Spec

theorem varuint_write {m : Nat} {c : Bytes} (h : varuint32ToBin m = .ok c) :
    c = varuintLoop m ∧ c ≠ [] ∧ m < 4294967296 ∧ ∀ r, varuint32FromBin (c ++ r) = .ok (m, r) := by
  by_cases hm : m < 2 ^ 32
  · have e : c = varuintLoop m := by
      unfold varuint32ToBin at h; split at h <;> simp at h; exact h.symm
    refine ⟨e, ?_, by omega, ?_⟩
    · subst e; have := varuintLoop_length_pos m; intro h0; rw [h0] at this; simp at this
    · intro r
      obtain ⟨b, h1, h2⟩ := c01_varuint32_roundtrip m hm r
      rw [h] at h1
      obtain rfl := Except.ok.inj h1
      exact h2
  · rw [c01_varuint32_too_big m (by omega)] at h; simp at h

theorem incInt_of {p : Int} (h : p ≠ 2147483647) : incInt p = .ok (p + 1) := by rw [incInt, if_neg h]

section
variable {T : Table} {L : Leaves}

/-- Serialized fields are decoded. -/
theorem decFields_of_ser {S : Bool → Ptr → Bytes → Bytes → JVal → Prop} {E : Bool → Ptr → Bytes → Res (Bytes × Bytes)}
    (hE : ∀ a f b t v r, S a f b t v → (a = true → r = []) → E a f (b ++ r) = .ok (t, r)) {allow : Bool} :
    ∀ (fs : List Field) (i : Nat) (b t : Bytes) (ms : List (Bytes × JVal)) (r : Bytes),
      (∀ f ∈ fs, T.Valid f.type) → i + fs.length < 2147483648 → SerFields T S allow fs i b t ms → (allow = true → r = []) →
      decFields T E allow fs ((i : Int) - 1) (b ++ r) = .ok (t, r) := by
  have skip : ∀ (fs : List Field) (i : Nat), (∀ f ∈ fs, IsExt T f.type) → i + fs.length < 2147483648 → allow = true →
      decFields T E allow fs ((i : Int) - 1) [] = .ok (str "}", []) := by
    intro fs
    induction fs with
    | nil => intro i _ hi _; simp at hi; rw [decFields, incInt, if_neg (by omega)]; rfl
    | cons f fs ih =>
      intro i hx hi ha
      simp at hi
      obtain ⟨q, hq⟩ := hx f (by simp)
      rw [decFields, incInt, if_neg (by omega), bind_ok, hq]
      simp only
      rw [if_pos ⟨trivial, rfl, ha⟩]
      have := ih (i + 1) (fun g hg => hx g (by simp [hg])) (by omega) ha
      simpa using this
  intro fs
  induction fs with
  | nil =>
    rintro i b t ms r - hi ⟨rfl, rfl, rfl⟩ -
    simp at hi
    rw [decFields, incInt, if_neg (by omega)]; rfl
  | cons f fs ih =>
    intro i b t ms r hv hi h hr
    rcases h with ⟨ha, hx, rfl, rfl, rfl⟩ | ⟨hc, b1, b2, t1, t2, v, ms', h1, h2, rfl, rfl, rfl⟩
    · rw [hr ha]; exact skip (f :: fs) i hx hi ha
    · obtain ⟨d, hd, -⟩ := hv f (by simp)
      simp at hi
      rw [decFields, incInt, if_neg (by omega), bind_ok, hd]
      simp only
      rw [if_neg]
      · have e1 := hE _ _ _ _ _ (b2 ++ r) h1 (by
          intro ha
          simp at ha
          have hfs : fs = [] := ha.2
          subst hfs
          obtain ⟨rfl, -, -⟩ := h2
          simp [hr ha.1])
        have e2 := ih (i + 1) b2 t2 ms' r (fun g hg => hv g (by simp [hg])) (by omega) h2 hr
        rw [List.append_assoc, e1, bind_ok]
        simp only
        have ei : ((i : Int) - 1 + 1) = ((i + 1 : Nat) : Int) - 1 := by omega
        rw [ei, e2, bind_ok]
        simp only
        have : (((i + 1 : Nat) : Int) - 1 ≠ 0) ↔ i ≠ 0 := by omega
        simp only [this, List.append_assoc]
      · rintro ⟨hb, hx, ha⟩
        have hr' := hr ha
        subst hr'
        rw [List.append_nil] at hb
        exact hc ⟨ha, (isExt_iff hd).2 hx, hb⟩

theorem decElems_of_ser {S : Bytes → Bytes → JVal → Prop} {E : Bytes → Res (Bytes × Bytes)}
    (hE : ∀ b t v r, S b t v → E (b ++ r) = .ok (t, r)) :
    ∀ (l : List JVal) (i : Nat) (b t r : Bytes), i + l.length < 2147483648 → SerElems S i b t l →
      decElems E l.length ((i : Int) - 1) (b ++ r) = .ok (t, r) := by
  intro l
  induction l with
  | nil =>
    rintro i b t r hi ⟨rfl, rfl⟩
    simp at hi
    rw [List.length_nil, decElems, incInt, if_neg (by omega)]; rfl
  | cons v l ih =>
    rintro i b t r hi ⟨b1, b2, t1, t2, h1, h2, rfl, rfl⟩
    simp at hi
    rw [List.length_cons, decElems, incInt, if_neg (by omega), bind_ok, List.append_assoc, hE _ _ _ _ h1, bind_ok]
    have ei : ((i : Int) - 1 + 1) = ((i + 1 : Nat) : Int) - 1 := by omega
    simp only
    rw [ei, ih (i + 1) b2 t2 r (by omega) h2, bind_ok]
    have : (((i + 1 : Nat) : Int) - 1 ≠ 0) ↔ i ≠ 0 := by omega
    simp only [this, List.append_assoc]

/-- The decoder decodes serializations, completely. -/
theorem dec_of_ser (wf : T.WF) : ∀ (n lvl : Nat) (allow : Bool) (ty : Ptr) (b t : Bytes) (v : JVal) (r : Bytes),
    Ser T L n lvl allow ty b t v → (allow = true → r = []) → dec T L n lvl allow ty (b ++ r) = .ok (t, r) := by
  intro n
  induction n with
  | zero => intro lvl allow ty b t v r h; exact h.elim
  | succ n ih =>
    intro lvl allow ty b t v r h hr
    unfold Ser at h
    unfold dec
    split at h
    · rename_i k hk
      obtain ⟨s, hs, -⟩ := h
      simp only [hk]; exact hs.2.1 r
    · rename_i p hk
      simp only [hk]
      rcases h with ⟨rfl, rfl, rfl⟩ | ⟨b', rfl, -, h⟩
      · simp [readU8]
      · simp only [List.cons_append, readU8, bind_ok]
        rw [if_pos (by decide)]
        exact ih _ _ _ _ _ _ _ h hr
    · rename_i p hk
      simp only [hk]; exact ih _ _ _ _ _ _ _ h hr
    · rename_i fs hk
      simp only [hk]
      obtain ⟨hl, hfs, ms, t', h, rfl, rfl⟩ := h
      have := decFields_of_ser (E := dec T L n (lvl + 1)) (fun a f b t v r hs hr => ih _ _ _ _ _ _ _ hs hr) fs 0 b t' ms r
        (wf.struct hk) (by omega) h hr
      rw [if_pos hl]
      rw [show (-1 : Int) = ((0 : Nat) : Int) - 1 by rfl, this]
      rfl
    · rename_i p hk
      simp only [hk]
      obtain ⟨hl, l, c, b', t', h, rfl, hlen, hc, rfl, rfl⟩ := h
      have h2 := decElems_of_ser (E := dec T L n (lvl + 1) false p) (fun b t v r hs => ih _ _ _ _ _ _ _ hs (by simp)) l 0 b' t' r
        (by omega) h
      have h3 := (varuint_write hc).2.2.2 (b' ++ r)
      rw [List.append_assoc, h3, bind_ok, if_pos hl]
      simp only
      rw [show (-1 : Int) = ((0 : Nat) : Int) - 1 by rfl, h2]
      rfl
    · rename_i alts hk
      simp only [hk]
      obtain ⟨hl, name, i, f, c, b', t', x, hf, hc, h, rfl, rfl, rfl⟩ := h
      have h3 := (varuint_write hc).2.2.2 (b' ++ r)
      obtain ⟨-, h4, h5⟩ := findAlt_spec hf
      simp only [Nat.sub_zero] at h4
      rw [if_pos hl, List.append_assoc, h3, bind_ok]
      simp only [h4]
      rw [ih _ _ _ _ _ _ _ h hr, h5]
      rfl
    · exact h.elim

/-- Serialized fields are accepted by the ordered encoder. -/
theorem encOMembers_of_ser {S : Bool → Ptr → Bytes → Bytes → JVal → Prop}
    {E : Bool → Ptr → JVal → Res (List Piece × Bool)}
    (hE : ∀ a f b t v, S a f b t v → ∃ ps sk, E a f v = .ok (ps, sk) ∧ flat ps = b) {allow : Bool} {lvl : Nat}
    (hl : lvl + 1 ≤ maxStack) :
    ∀ (fs : List Field) (i : Nat) (b t : Bytes) (ms : List (Bytes × JVal)), i + fs.length < 2147483648 →
      SerFields T S allow fs i b t ms →
      ∃ ps sk, encOMembers T E lvl allow fs ms ((i : Int) - 1) = .ok (ps, sk) ∧ flat ps = b := by
  intro fs
  induction fs with
  | nil =>
    rintro i b t ms hi ⟨rfl, rfl, rfl⟩
    simp at hi
    refine ⟨[], false, ?_, rfl⟩
    rw [encOMembers.eq_def]
    simp [incInt_of (p := (i : Int) - 1) (by omega)]
  | cons f fs ih =>
    intro i b t ms hi h
    rcases h with ⟨ha, hx, rfl, rfl, rfl⟩ | ⟨hc, b1, b2, t1, t2, v, ms', h1, h2, rfl, rfl, rfl⟩
    · obtain ⟨q, hq⟩ := hx f (by simp)
      simp at hi
      refine ⟨[], true, ?_, rfl⟩
      rw [encOMembers.eq_def]
      simp [incInt_of (p := (i : Int) - 1) (by omega), hq, TData.isExt, ha]
    · simp at hi
      obtain ⟨ps1, sk1, e1, e1'⟩ := hE _ _ _ _ _ h1
      obtain ⟨ps2, sk2, e2, e2'⟩ := ih (i + 1) b2 t2 ms' (by omega) h2
      have ei : ((i : Int) - 1 + 1) = ((i + 1 : Nat) : Int) - 1 := by omega
      refine ⟨ps1 ++ ps2, sk1 || sk2, ?_, by rw [flat_append, e1', e2']⟩
      rw [encOMembers, incInt, if_neg (by omega), bind_ok]
      simp only
      rw [if_pos trivial, if_pos hl, e1, bind_ok, ei, e2]
      rfl

theorem encOElems_of_ser {S : Bytes → Bytes → JVal → Prop} {E : JVal → Res (List Piece × Bool)}
    (hE : ∀ b t v, S b t v → ∃ ps sk, E v = .ok (ps, sk) ∧ flat ps = b) :
    ∀ (l : List JVal) (i : Nat) (b t : Bytes), i + l.length < 2147483648 → SerElems S i b t l →
      ∃ ps, encOElems E l ((i : Int) - 1) = .ok ps ∧ flat ps = b := by
  intro l
  induction l with
  | nil =>
    rintro i b t hi ⟨rfl, rfl⟩
    simp at hi
    rw [encOElems, incInt, if_neg (by omega)]
    exact ⟨[], rfl, rfl⟩
  | cons v l ih =>
    rintro i b t hi ⟨b1, b2, t1, t2, h1, h2, rfl, rfl⟩
    simp at hi
    obtain ⟨ps1, sk1, e1, e1'⟩ := hE _ _ _ h1
    obtain ⟨ps2, e2, e2'⟩ := ih (i + 1) b2 t2 (by omega) h2
    have ei : ((i : Int) - 1 + 1) = ((i + 1 : Nat) : Int) - 1 := by omega
    refine ⟨ps1 ++ ps2, ?_, by rw [flat_append, e1', e2']⟩
    rw [encOElems, incInt, if_neg (by omega), bind_ok, e1, bind_ok, ei, e2]
    rfl

theorem leafEnc_ofScalar (k : Builtin) (s : Scalar) : leafEnc L k (ofScalar s) = L.toBin k s := by
  cases s <;> rfl

/-- The ordered encoder accepts the document of a serialization and yields its bytes. -/
theorem encO_of_ser : ∀ (n lvl : Nat) (allow : Bool) (ty : Ptr) (b t : Bytes) (v : JVal),
    Ser T L n lvl allow ty b t v → ∃ ps sk, encO T L n lvl allow ty v = .ok (ps, sk) ∧ flat ps = b := by
  intro n
  induction n with
  | zero => intro lvl allow ty b t v h; exact h.elim
  | succ n ih =>
    intro lvl allow ty b t v h
    unfold Ser at h
    unfold encO
    split at h
    · rename_i k hk
      obtain ⟨s, hs, rfl⟩ := h
      simp only [hk]
      rw [leafEnc_ofScalar, hs.1]
      exact ⟨_, _, rfl, by simp [flat]⟩
    · rename_i p hk
      simp only [hk]
      rcases h with ⟨rfl, rfl, rfl⟩ | ⟨b', rfl, hv, h⟩
      · exact ⟨_, _, rfl, rfl⟩
      · obtain ⟨ps, sk, e, e'⟩ := ih _ _ _ _ _ _ h
        rw [hv, e]
        exact ⟨_, _, rfl, by simp [flat, e']⟩
    · rename_i p hk
      simp only [hk]; exact ih _ _ _ _ _ _ h
    · rename_i fs hk
      simp only [hk]
      obtain ⟨hl, hfs, ms, t', h, rfl, rfl⟩ := h
      obtain ⟨ps, sk, e, e'⟩ := encOMembers_of_ser (E := encO T L n (lvl + 1)) (fun a f b t v hs => ih _ _ _ _ _ _ hs) hl fs 0 b t' ms
        (by omega) h
      simp only
      exact ⟨ps, sk, e, e'⟩
    · rename_i p hk
      simp only [hk]
      obtain ⟨hl, l, c, b', t', h, rfl, hlen, hc, rfl, rfl⟩ := h
      obtain ⟨ps, e, e'⟩ := encOElems_of_ser (E := encO T L n (lvl + 1) false p) (fun b t v hs => ih _ _ _ _ _ _ hs) l 0 b' t'
        (by omega) h
      simp only
      rw [if_pos hl, show (-1 : Int) = ((0 : Nat) : Int) - 1 by rfl, e]
      refine ⟨_, _, rfl, ?_⟩
      simp only [flat, e', (varuint_write hc).1]
    · rename_i alts hk
      simp only [hk]
      obtain ⟨hl, name, i, f, c, b', t', x, hf, hc, h, rfl, rfl, rfl⟩ := h
      obtain ⟨ps, sk, e, e'⟩ := ih _ _ _ _ _ _ h
      simp only
      rw [if_pos hl, hf]
      simp only [hc, bind_ok, e]
      exact ⟨_, _, rfl, by simp [flat, e']⟩
    · exact h.elim

/-- The keys of serialized fields are the names of the first fields. -/
theorem serFields_keys {S : Bool → Ptr → Bytes → Bytes → JVal → Prop} {allow : Bool} :
    ∀ (fs : List Field) (i : Nat) (b t : Bytes) (ms : List (Bytes × JVal)), SerFields T S allow fs i b t ms →
      (ms.map (·.1)).Sublist (fs.map (·.name)) ∧ ∀ k v, (k, v) ∈ ms → ∃ a f b t, S a f b t v := by
  intro fs
  induction fs with
  | nil => rintro i b t ms ⟨-, -, rfl⟩; simp
  | cons f fs ih =>
    intro i b t ms h
    rcases h with ⟨ha, hx, rfl, rfl, rfl⟩ | ⟨hc, b1, b2, t1, t2, v, ms', h1, h2, rfl, rfl, rfl⟩
    · simp
    · obtain ⟨h3, h4⟩ := ih _ _ _ _ h2
      refine ⟨by simpa using h3, ?_⟩
      intro k w hm
      rcases List.mem_cons.1 hm with hm | hm
      · simp at hm; obtain ⟨rfl, rfl⟩ := hm; exact ⟨_, _, _, _, h1⟩
      · exact h4 k w hm

theorem lookup_none_of_not_mem {β : Type} {k : Bytes} {l : List (Bytes × β)} (h : k ∉ l.map (·.1)) : l.lookup k = none := by
  induction l with
  | nil => rfl
  | cons p l ih =>
    obtain ⟨a, b⟩ := p
    simp at h
    have : (k == a) = false := by simpa using h.1
    rw [List.lookup, this]
    exact ih (by simpa using h.2)

theorem lookup_append_new {β : Type} {k : Bytes} {v : β} {pre l : List (Bytes × β)} (h : k ∉ pre.map (·.1)) :
    (pre ++ (k, v) :: l).lookup k = some v := by
  induction pre with
  | nil => simp [List.lookup]
  | cons p l ih =>
    obtain ⟨a, b⟩ := p
    simp at h
    have : (k == a) = false := by simpa using h.1
    rw [List.cons_append, List.lookup, this]
    exact ih (by simpa using h.2)

theorem encRFields_of_ser {S : Bool → Ptr → Bytes → Bytes → JVal → Prop} {E : Bool → Ptr → JVal → Res (Bytes × Bool)}
    (hE : ∀ a f b t v, S a f b t v → ∃ sk, E a f v = .ok (b, sk) ∧ (a = false → sk = false)) {allow : Bool} :
    ∀ (fs : List Field) (i : Nat) (b t : Bytes) (ms pre : List (Bytes × JVal)) (sk : Bool), i + fs.length < 2147483648 →
      (fs.map (·.name)).Nodup → (∀ f ∈ fs, f.name ∉ pre.map (·.1)) → (fs ≠ [] → sk = false) →
      SerFields T S allow fs i b t ms →
      ∃ sk', encRFields T E allow (pre ++ ms) fs sk ((i : Int) - 1) = .ok (b, sk') := by
  have skip : ∀ (fs : List Field) (i : Nat) (pre : List (Bytes × JVal)) (sk : Bool), (∀ f ∈ fs, IsExt T f.type) →
      i + fs.length < 2147483648 → allow = true → (∀ f ∈ fs, f.name ∉ pre.map (·.1)) →
      ∃ sk', encRFields T E allow pre fs sk ((i : Int) - 1) = .ok ([], sk') := by
    intro fs
    induction fs with
    | nil => intro i pre sk _ hi _ _; simp at hi; rw [encRFields, incInt, if_neg (by omega)]; exact ⟨sk, rfl⟩
    | cons f fs ih =>
      intro i pre sk hx hi ha hp
      simp at hi
      obtain ⟨q, hq⟩ := hx f (by simp)
      obtain ⟨sk', e⟩ := ih (i + 1) pre true (fun g hg => hx g (by simp [hg])) (by omega) ha (fun g hg => hp g (by simp [hg]))
      refine ⟨sk', ?_⟩
      have ei : ((i : Int) - 1 + 1) = ((i + 1 : Nat) : Int) - 1 := by omega
      rw [encRFields, incInt, if_neg (by omega), bind_ok, lookup_none_of_not_mem (hp f (by simp)), hq, ei]
      simp [TData.isExt, ha, ← e]
  intro fs
  induction fs with
  | nil =>
    rintro i b t ms pre sk hi - - - ⟨rfl, rfl, rfl⟩
    simp at hi
    rw [encRFields, incInt, if_neg (by omega)]
    exact ⟨sk, rfl⟩
  | cons f fs ih =>
    intro i b t ms pre sk hi hd hp hsk h
    obtain rfl := hsk (by simp)
    rcases h with ⟨ha, hx, rfl, rfl, rfl⟩ | ⟨hc, b1, b2, t1, t2, v, ms', h1, h2, rfl, rfl, rfl⟩
    · rw [List.append_nil]; exact skip (f :: fs) i pre false hx hi ha hp
    · simp at hi
      simp only [List.map_cons, List.nodup_cons] at hd
      obtain ⟨sk1, e1, hs1⟩ := hE _ _ _ _ _ h1
      obtain ⟨sk2, e2⟩ := ih (i + 1) b2 t2 ms' (pre ++ [(f.name, v)]) sk1 (by omega) hd.2 (by
        intro g hg
        have h1 := hp g (by simp [hg])
        have h2 : g.name ≠ f.name := fun e => hd.1 (e ▸ List.mem_map.2 ⟨g, hg, rfl⟩)
        simp at h1 ⊢
        exact ⟨h1, h2⟩) (by
        intro hne
        apply hs1
        cases fs with
        | nil => exact absurd rfl hne
        | cons => simp) h2
      refine ⟨sk2, ?_⟩
      have ei : ((i : Int) - 1 + 1) = ((i + 1 : Nat) : Int) - 1 := by omega
      rw [List.append_assoc, List.singleton_append] at e2
      rw [encRFields, incInt, if_neg (by omega), bind_ok, lookup_append_new (hp f (by simp)), ei]
      simp only
      rw [if_neg (by simp), e1, bind_ok, e2]
      rfl

theorem encRElems_of_ser {S : Bytes → Bytes → JVal → Prop} {E : JVal → Res (Bytes × Bool)}
    (hE : ∀ b t v, S b t v → ∃ sk, E v = .ok (b, sk)) :
    ∀ (l : List JVal) (i : Nat) (b t : Bytes), i + l.length < 2147483648 → SerElems S i b t l →
      encRElems E l ((i : Int) - 1) = .ok b := by
  intro l
  induction l with
  | nil =>
    rintro i b t hi ⟨rfl, rfl⟩
    simp at hi
    rw [encRElems, incInt, if_neg (by omega)]
    rfl
  | cons v l ih =>
    rintro i b t hi ⟨b1, b2, t1, t2, h1, h2, rfl, rfl⟩
    simp at hi
    obtain ⟨sk1, e1⟩ := hE _ _ _ h1
    have e2 := ih (i + 1) b2 t2 (by omega) h2
    have ei : ((i : Int) - 1 + 1) = ((i + 1 : Nat) : Int) - 1 := by omega
    rw [encRElems, incInt, if_neg (by omega), bind_ok, e1, bind_ok, ei, e2]
    rfl

/-- The reorderable encoder accepts the document of a serialization and yields its bytes. -/
theorem encR_of_ser (hdf : DistinctFields T) : ∀ (n lvl : Nat) (allow : Bool) (ty : Ptr) (b t : Bytes) (v : JVal),
    Ser T L n lvl allow ty b t v → ∃ sk, encR T L n allow ty v = .ok (b, sk) := by
  intro n
  induction n with
  | zero => intro lvl allow ty b t v h; exact h.elim
  | succ n ih =>
    intro lvl allow ty b t v h
    unfold Ser at h
    unfold encR
    split at h
    · rename_i k hk
      obtain ⟨s, hs, rfl⟩ := h
      simp only [hk]
      rw [leafEnc_ofScalar, hs.1]
      exact ⟨_, rfl⟩
    · rename_i p hk
      simp only [hk]
      rcases h with ⟨rfl, rfl, rfl⟩ | ⟨b', rfl, hv, h⟩
      · exact ⟨_, rfl⟩
      · obtain ⟨sk, e⟩ := ih _ _ _ _ _ _ h
        rw [hv, e]
        exact ⟨_, rfl⟩
    · rename_i p hk
      simp only [hk]; exact ih _ _ _ _ _ _ h
    · rename_i fs hk
      simp only [hk]
      obtain ⟨hl, hfs, ms, t', h, rfl, rfl⟩ := h
      obtain ⟨sk, e⟩ := encRFields_of_ser (E := encR T L n) (fun a f b t v hs => by
        obtain ⟨sk, e⟩ := ih _ _ _ _ _ _ hs
        refine ⟨sk, e, ?_⟩
        rintro rfl
        exact encR_skip _ _ _ _ _ e) fs 0 b t' ms [] false (by omega) (hdf _ _ hk) (by simp) (by simp) h
      simp only
      exact ⟨sk, e⟩
    · rename_i p hk
      simp only [hk]
      obtain ⟨hl, l, c, b', t', h, rfl, hlen, hc, rfl, rfl⟩ := h
      have e := encRElems_of_ser (E := encR T L n false p) (fun b t v hs => ih _ _ _ _ _ _ hs) l 0 b' t'
        (by omega) h
      simp only
      rw [hc, bind_ok, show (-1 : Int) = ((0 : Nat) : Int) - 1 by rfl, e]
      exact ⟨_, rfl⟩
    · rename_i alts hk
      simp only [hk]
      obtain ⟨hl, name, i, f, c, b', t', x, hf, hc, h, rfl, rfl, rfl⟩ := h
      obtain ⟨sk, e⟩ := ih _ _ _ _ _ _ h
      simp only
      rw [hf]
      simp only [hc, bind_ok, e]
      exact ⟨_, rfl⟩
    · exact h.elim

/-- The document of a serialization has unique keys. -/
theorem ser_uniqueKeys (hdf : DistinctFields T) : ∀ (n lvl : Nat) (allow : Bool) (ty : Ptr) (b t : Bytes) (v : JVal),
    Ser T L n lvl allow ty b t v → UniqueKeys v := by
  intro n
  induction n with
  | zero => intro lvl allow ty b t v h; exact h.elim
  | succ n ih =>
    intro lvl allow ty b t v h
    unfold Ser at h
    split at h
    · obtain ⟨s, hs, rfl⟩ := h; cases s <;> trivial
    · rcases h with ⟨rfl, rfl, rfl⟩ | ⟨b', rfl, hv, h⟩
      · trivial
      · exact ih _ _ _ _ _ _ h
    · exact ih _ _ _ _ _ _ h
    · rename_i fs hk
      obtain ⟨hl, hfs, ms, t', h, rfl, rfl⟩ := h
      obtain ⟨h1, h2⟩ := serFields_keys _ _ _ _ _ h
      refine ⟨h1.nodup (hdf _ _ hk), uniqueKeys_goM.2 ?_⟩
      intro k v hm
      obtain ⟨a, f, b, t, hs⟩ := h2 k v hm
      exact ih _ _ _ _ _ _ hs
    · rename_i p hk
      obtain ⟨hl, l, c, b', t', h, rfl, hlen, hc, rfl, rfl⟩ := h
      have : ∀ (l : List JVal) i b t, SerElems (Ser T L n (lvl + 1) false p) i b t l → ∀ v ∈ l, UniqueKeys v := by
        intro l
        induction l with
        | nil => simp
        | cons v l ihl =>
          rintro i b t ⟨b1, b2, t1, t2, h1, h2, rfl, rfl⟩ w hw
          rcases List.mem_cons.1 hw with rfl | hw
          · exact ih _ _ _ _ _ _ h1
          · exact ihl _ _ _ h2 w hw
      exact uniqueKeys_go.2 (this _ _ _ _ h)
    · obtain ⟨hl, name, i, f, c, b', t', x, hf, hc, h, rfl, rfl, rfl⟩ := h
      exact ⟨trivial, ih _ _ _ _ _ _ h, trivial⟩
    · exact h.elim

theorem membersText_of_ser {S : Bool → Ptr → Bytes → Bytes → JVal → Prop} (hS : ∀ a f b t v, S a f b t v → Reads t v)
    {allow : Bool} : ∀ (fs : List Field) (i : Nat) (b t : Bytes) (ms : List (Bytes × JVal)), (∀ f ∈ fs, Utf8 f.name) →
      SerFields T S allow fs i b t ms → MembersText (decide (i ≠ 0)) t ms := by
  intro fs
  induction fs with
  | nil => rintro i b t ms - ⟨rfl, rfl, rfl⟩; exact .nil _
  | cons f fs ih =>
    intro i b t ms hu h
    rcases h with ⟨ha, hx, rfl, rfl, rfl⟩ | ⟨hc, b1, b2, t1, t2, v, ms', h1, h2, rfl, rfl, rfl⟩
    · exact .nil _
    · have h3 := ih (i + 1) b2 t2 ms' (fun g hg => hu g (by simp [hg])) h2
      have e : decide (i + 1 ≠ 0) = true := by simp
      rw [e] at h3
      have := MembersText.cons (k := f.name) (decide (i ≠ 0)) (hS _ _ _ _ _ h1) h3
      rw [patch_eq_of_utf8 (hu f (by simp))] at this
      have e2 : (if i ≠ 0 then str "," else []) = (if decide (i ≠ 0) = true then ([44] : Bytes) else []) := by
        by_cases hi : i = 0 <;> simp [hi]; rfl
      rw [e2]
      simp only [List.append_assoc]
      exact this

theorem elemsText_of_ser {S : Bytes → Bytes → JVal → Prop} (hS : ∀ b t v, S b t v → Reads t v) :
    ∀ (l : List JVal) (i : Nat) (b t : Bytes), SerElems S i b t l → ElemsText (decide (i ≠ 0)) t l := by
  intro l
  induction l with
  | nil => rintro i b t ⟨rfl, rfl⟩; exact .nil _
  | cons v l ih =>
    rintro i b t ⟨b1, b2, t1, t2, h1, h2, rfl, rfl⟩
    have h3 := ih (i + 1) b2 t2 h2
    have e : decide (i + 1 ≠ 0) = true := by simp
    rw [e] at h3
    have := ElemsText.cons (decide (i ≠ 0)) (hS _ _ _ h1) h3
    have e2 : (if i ≠ 0 then str "," else []) = (if decide (i ≠ 0) = true then ([44] : Bytes) else []) := by
      by_cases hi : i = 0 <;> simp [hi]; rfl
    rw [e2]
    simp only [List.append_assoc]
    exact this

/-- The text of a variant. -/
theorem reads_pair {name t : Bytes} {x : JVal} (h : Reads t x) :
    Reads (str "[" ++ jsonString name ++ str "," ++ t ++ str "]") (.arr [.str (patch name), x]) := by
  have := reads_arr (.cons false (reads_jsonString name) (.cons true h (.nil true)))
  simpa [str, List.append_assoc] using this

/-- The text of a serialization reads as its document. -/
theorem reads_of_ser (hu : Utf8Names T) : ∀ (n lvl : Nat) (allow : Bool) (ty : Ptr) (b t : Bytes) (v : JVal),
    Ser T L n lvl allow ty b t v → Reads t v := by
  intro n
  induction n with
  | zero => intro lvl allow ty b t v h; exact h.elim
  | succ n ih =>
    intro lvl allow ty b t v h
    unfold Ser at h
    split at h
    · obtain ⟨s, hs, rfl⟩ := h; exact hs.2.2.1
    · rcases h with ⟨rfl, rfl, rfl⟩ | ⟨b', rfl, hv, h⟩
      · exact reads_null
      · exact ih _ _ _ _ _ _ h
    · exact ih _ _ _ _ _ _ h
    · rename_i fs hk
      obtain ⟨hl, hfs, ms, t', h, rfl, rfl⟩ := h
      have := membersText_of_ser (fun _ _ _ _ _ hs => ih _ _ _ _ _ _ hs) fs 0 b t' ms (hu.1 _ _ hk) h
      exact reads_obj this
    · obtain ⟨hl, l, c, b', t', h, rfl, hlen, hc, rfl, rfl⟩ := h
      have := elemsText_of_ser (fun _ _ _ hs => ih _ _ _ _ _ _ hs) l 0 b' t' h
      exact reads_arr this
    · rename_i alts hk
      obtain ⟨hl, name, i, f, c, b', t', x, hf, hc, h, rfl, rfl, rfl⟩ := h
      have := reads_pair (name := name) (ih _ _ _ _ _ _ h)
      have hn : Utf8 name := by
        have := hu.2 _ _ hk f (findAlt_mem hf)
        rwa [(findAlt_spec hf).2.2] at this
      rwa [patch_eq_of_utf8 hn] at this
    · exact h.elim

/-- Leaf decodings are stable: a text the first leaf decoder yields belongs to a serialization for the second. -/
def DecStable (L1 L : Leaves) : Prop :=
  ∀ k bin t rest, L1.fromBin k bin = .ok (t, rest) → rest.length < bin.length ∧ ∃ b s, LeafSer L k b t s

theorem serFields_of_dec {S : Bool → Ptr → Bytes → Bytes → JVal → Prop} {E : Bool → Ptr → Bytes → Res (Bytes × Bytes)}
    {allow : Bool} (hE : ∀ a f bin t rest, T.Valid f → E a f bin = .ok (t, rest) → (a = true → rest = []) →
      rest.length ≤ bin.length ∧ ∃ b v, S a f b t v ∧ (b = [] → rest.length = bin.length)) :
    ∀ (fs : List Field) (i : Nat) (bin t rest : Bytes), (∀ f ∈ fs, T.Valid f.type) → ExtLast T fs →
      decFields T E allow fs ((i : Int) - 1) bin = .ok (t, rest) → (allow = true → rest = []) →
      rest.length ≤ bin.length ∧ ∃ b ms, SerFields T S allow fs i b t ms ∧ (b = [] → rest.length = bin.length) := by
  have skip : ∀ (fs : List Field) (pos : Int) (t rest : Bytes), (∀ f ∈ fs, IsExt T f.type) → allow = true →
      decFields T E allow fs pos [] = .ok (t, rest) → t = str "}" ∧ rest = [] := by
    intro fs
    induction fs with
    | nil =>
      intro pos t rest _ _ h
      simp [decFields, bind_eq_ok] at h
      exact ⟨h.2.1.symm, h.2.2⟩
    | cons f fs ih =>
      intro pos t rest hx ha h
      obtain ⟨q, hq⟩ := hx f (by simp)
      simp only [decFields, bind_eq_ok, hq] at h
      obtain ⟨p, -, h⟩ := h
      rw [if_pos ⟨trivial, rfl, ha⟩] at h
      exact ih _ _ _ (fun g hg => hx g (by simp [hg])) ha h
  intro fs
  induction fs with
  | nil =>
    intro i bin t rest _ _ h _
    simp [decFields, bind_eq_ok] at h
    obtain ⟨-, rfl, rfl⟩ := h
    exact ⟨Nat.le_refl _, [], [], ⟨rfl, rfl, rfl⟩, fun _ => rfl⟩
  | cons f fs ih =>
    intro i bin t rest hv hx h hr
    simp only [decFields, bind_eq_ok, incInt_ok] at h
    obtain ⟨p, ⟨-, rfl⟩, h⟩ := h
    split at h
    · simp at h
    · rename_i d hd
      split at h
      · rename_i hc
        obtain ⟨rfl, hc, ha⟩ := hc
        have hx' := hx.head ((isExt_iff hd).2 hc)
        obtain ⟨rfl, rfl⟩ := skip _ _ _ _ (fun g hg => hx' g (by simp [hg])) ha h
        exact ⟨Nat.le_refl _, [], [], .inl ⟨ha, hx', rfl, rfl, rfl⟩, fun _ => rfl⟩
      · rename_i hc
        simp only [bind_eq_ok] at h
        obtain ⟨⟨t1, r1⟩, h1, ⟨t2, r2⟩, h2, h3⟩ := h
        simp only [Except.ok.injEq, Prod.mk.injEq] at h3
        obtain ⟨rfl, rfl⟩ := h3
        have ei : ((i : Int) - 1 + 1) = ((i + 1 : Nat) : Int) - 1 := by omega
        rw [ei] at h2
        obtain ⟨hlen2, b2, ms', hs2, hb2⟩ := ih (i + 1) r1 t2 r2 (fun g hg => hv g (by simp [hg])) hx.cons h2 hr
        obtain ⟨hlen1, b1, v, hs1, hb1⟩ := hE _ _ _ _ _ (hv f (by simp)) h1 (by
          intro ha
          simp at ha
          have hfs : fs = [] := ha.2
          subst hfs
          simp [decFields, bind_eq_ok] at h2
          rw [h2.2.2]
          exact hr ha.1)
        have hb : b1 ++ b2 = [] → r2.length = bin.length := by
          intro h
          simp at h
          rw [hb2 h.2, hb1 h.1]
        refine ⟨by omega, b1 ++ b2, (f.name, v) :: ms', .inr ⟨?_, b1, b2, t1, t2, v, ms', hs1, hs2, rfl, rfl, ?_⟩, hb⟩
        · rintro ⟨ha, hxf, h0⟩
          have h4 := hb h0
          rw [hr ha] at h4
          exact hc ⟨List.eq_nil_of_length_eq_zero h4.symm, (isExt_iff hd).1 hxf, ha⟩
        · have : ((i : Int) - 1 + 1 ≠ 0) ↔ i ≠ 0 := by omega
          simp only [this, List.append_assoc]

theorem serElems_of_dec {S : Bytes → Bytes → JVal → Prop} {E : Bytes → Res (Bytes × Bytes)}
    (hE : ∀ bin t rest, E bin = .ok (t, rest) → rest.length ≤ bin.length ∧ ∃ b v, S b t v) :
    ∀ (k : Nat) (i : Nat) (bin t rest : Bytes), i ≤ 2147483648 → decElems E k ((i : Int) - 1) bin = .ok (t, rest) →
      rest.length ≤ bin.length ∧ i + k < 2147483648 ∧ ∃ b l, SerElems S i b t l ∧ l.length = k := by
  intro k
  induction k with
  | zero =>
    intro i bin t rest hi h
    simp only [decElems, bind_eq_ok, incInt_ok] at h
    obtain ⟨p, ⟨h1, -⟩, h⟩ := h
    simp at h
    obtain ⟨rfl, rfl⟩ := h
    exact ⟨Nat.le_refl _, by omega, [], [], ⟨rfl, rfl⟩, rfl⟩
  | succ k ih =>
    intro i bin t rest hi h
    simp only [decElems, bind_eq_ok, incInt_ok] at h
    obtain ⟨p, ⟨h1, rfl⟩, ⟨t1, r1⟩, h2, ⟨t2, r2⟩, h3, h4⟩ := h
    simp only [Except.ok.injEq, Prod.mk.injEq] at h4
    obtain ⟨rfl, rfl⟩ := h4
    have ei : ((i : Int) - 1 + 1) = ((i + 1 : Nat) : Int) - 1 := by omega
    rw [ei] at h3
    obtain ⟨hlen2, hk, b2, l, hs2, hl⟩ := ih (i + 1) r1 t2 r2 (by omega) h3
    obtain ⟨hlen1, b1, v, hs1⟩ := hE _ _ _ h2
    refine ⟨by omega, by omega, b1 ++ b2, v :: l, ⟨b1, b2, t1, t2, hs1, hs2, rfl, ?_⟩, by simp [hl]⟩
    have : ((i : Int) - 1 + 1 ≠ 0) ↔ i ≠ 0 := by omega
    simp only [this, List.append_assoc]

theorem findAlt_first {f : Field} : ∀ {alts : List Field} {i j : Nat}, alts[i]? = some f →
    ∃ m g, findAlt f.name alts j = some (m, g) ∧ m ≤ j + i ∧ g ∈ alts ∧ g.name = f.name := by
  intro alts
  induction alts with
  | nil => intro i j h; simp at h
  | cons a alts ih =>
    intro i j h
    unfold findAlt
    by_cases ha : a.name = f.name
    · rw [if_pos ha]; exact ⟨j, a, rfl, by omega, by simp, ha⟩
    · rw [if_neg ha]
      cases i with
      | zero => simp at h; exact absurd (by rw [h]) ha
      | succ i =>
        obtain ⟨m, g, h1, h2, h3, h4⟩ := ih (i := i) (j := j + 1) (by simpa using h)
        exact ⟨m, g, h1, by omega, by simp [h3], h4⟩

/-- A decoded text belongs to a serialization. -/
theorem ser_of_dec {L1 : Leaves} (wf : T.WF) (hx : ExtTail T) (hsm : Small T) (halt : AltsByName T) (hst : DecStable L1 L) :
    ∀ (n lvl : Nat) (allow : Bool) (ty : Ptr) (bin t rest : Bytes), T.Valid ty →
    dec T L1 n lvl allow ty bin = .ok (t, rest) → (allow = true → rest = []) →
    rest.length ≤ bin.length ∧ ∃ b v, Ser T L n lvl allow ty b t v ∧ (b = [] → rest.length = bin.length) := by
  intro n
  induction n with
  | zero => intro lvl allow ty bin t rest _ h; simp [dec] at h
  | succ n ih =>
    intro lvl allow ty bin t rest hty h hr
    unfold dec at h
    split at h
    · rename_i k hk
      obtain ⟨hlen, b, s, hs⟩ := hst _ _ _ _ h
      refine ⟨by omega, b, ofScalar s, by simp only [Ser, hk]; exact ⟨s, hs, rfl⟩, fun hb => absurd hb hs.2.2.2⟩
    · rename_i p hk
      simp only [bind_eq_ok] at h
      obtain ⟨⟨c, r⟩, h1, h⟩ := h
      have h1 := readU8_ok h1
      subst h1
      split at h
      · obtain ⟨hlen, b, v, hs, -⟩ := ih _ _ _ _ _ _ (wf.optional hk).1 h hr
        refine ⟨by simp at hlen ⊢; omega, 1 :: b, v, ?_, by simp⟩
        simp only [Ser, hk]
        exact .inr ⟨b, rfl, ser_not_null hs (wf.optional hk).2.1, hs⟩
      · simp only [Except.ok.injEq, Prod.mk.injEq] at h
        obtain ⟨rfl, rfl⟩ := h
        refine ⟨by simp, [0], .null, ?_, by simp⟩
        simp only [Ser, hk]
        exact .inl ⟨trivial, trivial, trivial⟩
    · rename_i p hk
      obtain ⟨hlen, b, v, hs, hb⟩ := ih _ _ _ _ _ _ (wf.extension hk).1 h hr
      exact ⟨hlen, b, v, by simp only [Ser, hk]; exact hs, hb⟩
    · rename_i fs hk
      split at h
      · rename_i hl
        simp only [bind_eq_ok] at h
        obtain ⟨⟨t', r⟩, h1, h2⟩ := h
        simp only [Except.ok.injEq, Prod.mk.injEq] at h2
        obtain ⟨rfl, rfl⟩ := h2
        obtain ⟨hlen, b, ms, hs, hb⟩ := serFields_of_dec (S := Ser T L n (lvl + 1)) (fun a f bin t rest hv h hr => ih _ _ _ _ _ _ hv h hr)
          fs 0 bin t' r (wf.struct hk) (hx _ _ hk) h1 hr
        refine ⟨hlen, b, .obj ms, ?_, hb⟩
        simp only [Ser, hk]
        exact ⟨hl, hsm _ _ hk, ms, t', hs, rfl, rfl⟩
      · simp at h
    · rename_i p hk
      simp only [bind_eq_ok] at h
      obtain ⟨⟨c, r0⟩, h0, h⟩ := h
      split at h
      · rename_i hl
        simp only [bind_eq_ok] at h
        obtain ⟨⟨t', r⟩, h1, h2⟩ := h
        simp only [Except.ok.injEq, Prod.mk.injEq] at h2
        obtain ⟨rfl, rfl⟩ := h2
        obtain ⟨hc, a0, c0, e0, hpos, -, hc0, -⟩ := c01_varuint32_read _ _ _ h0
        obtain ⟨hlen, hsz, b, l, hs, hl'⟩ := serElems_of_dec (S := Ser T L n (lvl + 1) false p) (fun bin t rest h => by
          obtain ⟨h1, b, v, h2, -⟩ := ih (lvl + 1) false p bin t rest (wf.array hk).1 h (by simp)
          exact ⟨h1, b, v, h2⟩) c 0 r0 t' r (by omega) h1
        have h0l : bin.length = a0.length + r0.length := by rw [e0]; simp
        refine ⟨by omega, c0 ++ b, .arr l, ?_, ?_⟩
        · simp only [Ser, hk]
          exact ⟨hl, l, c0, b, t', hs, rfl, by omega, by rw [hl']; exact hc0, rfl, rfl⟩
        · intro hb
          have := (varuint_write hc0).2.1
          simp [this] at hb
      · simp at h
    · rename_i alts hk
      split at h
      · rename_i hl
        simp only [bind_eq_ok] at h
        obtain ⟨⟨i, r0⟩, h0, h⟩ := h
        split at h
        · simp at h
        · rename_i f hf
          simp only [bind_eq_ok] at h
          obtain ⟨⟨t', r⟩, h1, h2⟩ := h
          simp only [Except.ok.injEq, Prod.mk.injEq] at h2
          obtain ⟨rfl, rfl⟩ := h2
          obtain ⟨hc, a0, c0, e0, hpos, -, -, -⟩ := c01_varuint32_read _ _ _ h0
          have hfm := List.mem_of_getElem? hf
          obtain ⟨hlen, b, v, hs, -⟩ := ih _ _ _ _ _ _ (wf.variant hk f hfm) h1 hr
          obtain ⟨m, g, hm, hmi, hg, hgn⟩ := findAlt_first (j := 0) hf
          have hgt := (halt _ _ hk).2 g hg f hfm hgn
          obtain ⟨c', hc', -⟩ := c01_varuint32_roundtrip m (by omega) []
          have h0l : bin.length = a0.length + r0.length := by rw [e0]; simp
          refine ⟨by omega, c' ++ b, .arr [.str f.name, v], ?_, ?_⟩
          · simp only [Ser, hk]
            exact ⟨hl, f.name, m, g, c', b, t', v, hm, hc', by rw [hgt]; exact hs, rfl, rfl, rfl⟩
          · intro hb
            have := (varuint_write hc').2.1
            simp [this] at hb
      · simp at h
    · simp at h

/-- Every text the leaf decoders yield is well-formed. -/
def LeafText (L : Leaves) : Prop := ∀ k bin t rest, L.fromBin k bin = .ok (t, rest) → ∃ v, Reads t v

theorem membersText_of_dec {E : Bool → Ptr → Bytes → Res (Bytes × Bytes)} {allow : Bool}
    (hE : ∀ a f bin t rest, E a f bin = .ok (t, rest) → ∃ v, Reads t v) :
    ∀ (fs : List Field) (i : Nat) (bin t rest : Bytes), ExtLast T fs →
      decFields T E allow fs ((i : Int) - 1) bin = .ok (t, rest) → ∃ ms, MembersText (decide (i ≠ 0)) t ms := by
  have skip : ∀ (fs : List Field) (pos : Int) (t rest : Bytes), (∀ f ∈ fs, IsExt T f.type) → allow = true →
      decFields T E allow fs pos [] = .ok (t, rest) → t = str "}" := by
    intro fs
    induction fs with
    | nil =>
      intro pos t rest _ _ h
      simp [decFields, bind_eq_ok] at h
      exact h.2.1.symm
    | cons f fs ih =>
      intro pos t rest hx ha h
      obtain ⟨q, hq⟩ := hx f (by simp)
      simp only [decFields, bind_eq_ok, hq] at h
      obtain ⟨p, -, h⟩ := h
      rw [if_pos ⟨trivial, rfl, ha⟩] at h
      exact ih _ _ _ (fun g hg => hx g (by simp [hg])) ha h
  intro fs
  induction fs with
  | nil =>
    intro i bin t rest _ h
    simp [decFields, bind_eq_ok] at h
    obtain ⟨-, rfl, -⟩ := h
    exact ⟨[], .nil _⟩
  | cons f fs ih =>
    intro i bin t rest hx h
    simp only [decFields, bind_eq_ok, incInt_ok] at h
    obtain ⟨p, ⟨-, rfl⟩, h⟩ := h
    split at h
    · simp at h
    · rename_i d hd
      split at h
      · rename_i hc
        obtain ⟨rfl, hc, ha⟩ := hc
        have hx' := hx.head ((isExt_iff hd).2 hc)
        obtain rfl := skip _ _ _ _ (fun g hg => hx' g (by simp [hg])) ha h
        exact ⟨[], .nil _⟩
      · simp only [bind_eq_ok] at h
        obtain ⟨⟨t1, r1⟩, h1, ⟨t2, r2⟩, h2, h3⟩ := h
        simp only [Except.ok.injEq, Prod.mk.injEq] at h3
        obtain ⟨rfl, rfl⟩ := h3
        have ei : ((i : Int) - 1 + 1) = ((i + 1 : Nat) : Int) - 1 := by omega
        rw [ei] at h2
        obtain ⟨ms, hms⟩ := ih (i + 1) r1 t2 r2 hx.cons h2
        obtain ⟨v, hv⟩ := hE _ _ _ _ _ h1
        have e : decide (i + 1 ≠ 0) = true := by simp
        rw [e] at hms
        have := MembersText.cons (k := f.name) (decide (i ≠ 0)) hv hms
        have e2 : (if (i : Int) - 1 + 1 ≠ 0 then str "," else []) = (if decide (i ≠ 0) = true then ([44] : Bytes) else []) := by
          by_cases hi : i = 0
          · simp [hi]
          · have : ((i : Int) - 1 + 1 ≠ 0) := by omega
            rw [if_pos this]; simp [hi]; rfl
        rw [e2]
        simp only [List.append_assoc]
        exact ⟨_, this⟩

theorem elemsText_of_dec {E : Bytes → Res (Bytes × Bytes)} (hE : ∀ bin t rest, E bin = .ok (t, rest) → ∃ v, Reads t v) :
    ∀ (k : Nat) (i : Nat) (bin t rest : Bytes), decElems E k ((i : Int) - 1) bin = .ok (t, rest) →
      ∃ l, ElemsText (decide (i ≠ 0)) t l := by
  intro k
  induction k with
  | zero =>
    intro i bin t rest h
    simp only [decElems, bind_eq_ok, incInt_ok] at h
    obtain ⟨p, ⟨h1, -⟩, h⟩ := h
    simp at h
    obtain ⟨rfl, rfl⟩ := h
    exact ⟨[], .nil _⟩
  | succ k ih =>
    intro i bin t rest h
    simp only [decElems, bind_eq_ok, incInt_ok] at h
    obtain ⟨p, ⟨h1, rfl⟩, ⟨t1, r1⟩, h2, ⟨t2, r2⟩, h3, h4⟩ := h
    simp only [Except.ok.injEq, Prod.mk.injEq] at h4
    obtain ⟨rfl, rfl⟩ := h4
    have ei : ((i : Int) - 1 + 1) = ((i + 1 : Nat) : Int) - 1 := by omega
    rw [ei] at h3
    obtain ⟨l, hl⟩ := ih (i + 1) r1 t2 r2 h3
    obtain ⟨v, hv⟩ := hE _ _ _ h2
    have e : decide (i + 1 ≠ 0) = true := by simp
    rw [e] at hl
    have := ElemsText.cons (decide (i ≠ 0)) hv hl
    have e2 : (if (i : Int) - 1 + 1 ≠ 0 then str "," else []) = (if decide (i ≠ 0) = true then ([44] : Bytes) else []) := by
      by_cases hi : i = 0
      · simp [hi]
      · have : ((i : Int) - 1 + 1 ≠ 0) := by omega
        rw [if_pos this]; simp [hi]; rfl
    rw [e2]
    simp only [List.append_assoc]
    exact ⟨_, this⟩

/-- The decoder yields well-formed JSON. -/
theorem reads_of_dec (hx : ExtTail T) (ht : LeafText L) :
    ∀ (n lvl : Nat) (allow : Bool) (ty : Ptr) (bin t rest : Bytes),
    dec T L n lvl allow ty bin = .ok (t, rest) → ∃ v, Reads t v := by
  intro n
  induction n with
  | zero => intro lvl allow ty bin t rest h; simp [dec] at h
  | succ n ih =>
    intro lvl allow ty bin t rest h
    unfold dec at h
    split at h
    · exact ht _ _ _ _ h
    · simp only [bind_eq_ok] at h
      obtain ⟨⟨c, r⟩, h1, h⟩ := h
      split at h
      · exact ih _ _ _ _ _ _ h
      · simp only [Except.ok.injEq, Prod.mk.injEq] at h
        obtain ⟨rfl, rfl⟩ := h
        exact ⟨_, reads_null⟩
    · exact ih _ _ _ _ _ _ h
    · rename_i fs hk
      split at h
      · simp only [bind_eq_ok] at h
        obtain ⟨⟨t', r⟩, h1, h2⟩ := h
        simp only [Except.ok.injEq, Prod.mk.injEq] at h2
        obtain ⟨rfl, rfl⟩ := h2
        obtain ⟨ms, hms⟩ := membersText_of_dec (fun a f bin t rest h => ih _ _ _ _ _ _ h) fs 0 bin t' r (hx _ _ hk) h1
        exact ⟨_, reads_obj hms⟩
      · simp at h
    · simp only [bind_eq_ok] at h
      obtain ⟨⟨c, r0⟩, h0, h⟩ := h
      split at h
      · simp only [bind_eq_ok] at h
        obtain ⟨⟨t', r⟩, h1, h2⟩ := h
        simp only [Except.ok.injEq, Prod.mk.injEq] at h2
        obtain ⟨rfl, rfl⟩ := h2
        obtain ⟨l, hl⟩ := elemsText_of_dec (fun bin t rest h => ih _ _ _ _ _ _ h) c 0 r0 t' r h1
        exact ⟨_, reads_arr hl⟩
      · simp at h
    · split at h
      · simp only [bind_eq_ok] at h
        obtain ⟨⟨i, r0⟩, h0, h⟩ := h
        split at h
        · simp at h
        · simp only [bind_eq_ok] at h
          obtain ⟨⟨t', r⟩, h1, h2⟩ := h
          simp only [Except.ok.injEq, Prod.mk.injEq] at h2
          obtain ⟨rfl, rfl⟩ := h2
          obtain ⟨v, hv⟩ := ih _ _ _ _ _ _ h1
          exact ⟨_, reads_pair hv⟩
      · simp at h
    · simp at h

end

end Abieos
