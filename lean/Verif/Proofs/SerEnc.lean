import Mathlib.Data.List.Forall2
import Verif.Spec.Regular
import Verif.Proofs.Jvalue
import Verif.Proofs.RefineR
import Verif.Proofs.RefineO
/-
What the encoders accept is a serialization.
-/
namespace Abieos

open Spec

theorem isExt_iff {T : Table} {p : Ptr} {d : TData} (h : T.get p = some d) : IsExt T p ↔ d.isExt = true := by
  unfold IsExt; rw [h]
  cases d <;> simp [TData.isExt]

theorem Spec.ExtLast.cons {T : Table} {f : Field} {fs : List Field} (h : ExtLast T (f :: fs)) : ExtLast T fs := by
  intro pre g post e
  exact h (f :: pre) g post (by simp [e])

theorem Spec.ExtLast.head {T : Table} {f : Field} {fs : List Field} (h : ExtLast T (f :: fs)) (hf : IsExt T f.type) :
    ∀ g ∈ f :: fs, IsExt T g.type := by
  intro g hg
  rcases List.mem_cons.1 hg with rfl | hg
  · exact hf
  · exact h [] f fs rfl hf g hg

theorem docUtf8_go {l : List JVal} : DocUtf8.go l ↔ ∀ v ∈ l, DocUtf8 v := by
  induction l with
  | nil => simp [DocUtf8.go]
  | cons v l ih => simp [DocUtf8.go, ih]

theorem docUtf8_goM {l : List (Bytes × JVal)} : DocUtf8.goM l ↔ ∀ k v, (k, v) ∈ l → DocUtf8 v := by
  induction l with
  | nil => simp [DocUtf8.goM]
  | cons p l ih =>
    obtain ⟨a, b⟩ := p
    simp only [DocUtf8.goM, ih, List.mem_cons, Prod.mk.injEq]
    constructor
    · rintro ⟨h1, h2⟩ k v (⟨rfl, rfl⟩ | h)
      · exact h1
      · exact h2 k v h
    · intro h
      exact ⟨h a b (.inl ⟨rfl, rfl⟩), fun k v hv => h k v (.inr hv)⟩

/-- `v'` is no deeper than `v`. -/
def Below (v' v : JVal) : Prop := v'.height ≤ v.height ∧ levels v' ≤ levels v

theorem levels_pos (v : JVal) : 0 < levels v := by cases v <;> simp [levels]

theorem below_arr {l' l : List JVal} (h : List.Forall₂ Below l' l) : Below (.arr l') (.arr l) := by
  suffices JVal.height.go l' ≤ JVal.height.go l ∧ levels.go l' ≤ levels.go l by
    simp only [Below, JVal.height, levels]; omega
  induction h with
  | nil => simp [JVal.height.go, levels.go]
  | cons h _ ih => simp only [JVal.height.go, levels.go]; unfold Below at h; omega

theorem below_obj {l' l : List (Bytes × JVal)} (h : ∀ k v', (k, v') ∈ l' → ∃ k2 v, (k2, v) ∈ l ∧ Below v' v) :
    Below (.obj l') (.obj l) := by
  suffices JVal.height.goM l' ≤ JVal.height.goM l ∧ levels.goM l' ≤ levels.goM l by
    simp only [Below, JVal.height, levels]; omega
  induction l' with
  | nil => simp [JVal.height.goM, levels.goM]
  | cons p l' ih =>
    obtain ⟨k, v'⟩ := p
    have h1 := ih (fun k v hv => h k v (by simp [hv]))
    obtain ⟨k2, v, hv, h2, h3⟩ := h k v' (by simp)
    have := JVal.height_goM_le hv
    have := levels_goM_le hv
    simp only [JVal.height.goM, levels.goM]
    omega

section
variable {T : Table} {S : Bool → Ptr → Bytes → Bytes → JVal → Prop}

theorem encRFields_skipped {E : Bool → Ptr → JVal → Res (Bytes × Bool)} {allow : Bool} {ms : List (Bytes × JVal)} :
    ∀ (fs : List Field) (pos : Int) (b : Bytes) (sk' : Bool), encRFields T E allow ms fs true pos = .ok (b, sk') → b = [] := by
  intro fs
  induction fs with
  | nil => intro pos b sk' h; simp [encRFields, bind_eq_ok] at h; exact h.2.1
  | cons f fs ih =>
    intro pos b sk' h
    simp only [encRFields, bind_eq_ok] at h
    obtain ⟨p, -, h⟩ := h
    split at h
    · split at h
      · simp at h
      · split at h
        · exact ih _ _ _ h
        · simp at h
    · simp at h

theorem serFields_of_encR {E : Bool → Ptr → JVal → Res (Bytes × Bool)} {allow : Bool} {ms : List (Bytes × JVal)}
    (hE : ∀ a f k v b sk, (k, v) ∈ ms → T.Valid f → E a f v = .ok (b, sk) → ∃ t v', S a f b t v' ∧ Below v' v) :
    ∀ (fs : List Field) (sk : Bool) (pos : Int) (i : Nat) (b : Bytes) (sk' : Bool), ExtLast T fs →
      (∀ f ∈ fs, T.Valid f.type) → encRFields T E allow ms fs sk pos = .ok (b, sk') →
      ∃ t ms', SerFields T S allow fs i b t ms' ∧ ∀ k v', (k, v') ∈ ms' → ∃ k2 v, (k2, v) ∈ ms ∧ Below v' v := by
  intro fs
  induction fs with
  | nil =>
    intro sk pos i b sk' _ _ h
    simp [encRFields, bind_eq_ok] at h
    exact ⟨_, _, ⟨h.2.1, rfl, rfl⟩, by simp⟩
  | cons f fs ih =>
    intro sk pos i b sk' hx hv h
    simp only [encRFields, bind_eq_ok] at h
    obtain ⟨p, -, h⟩ := h
    split at h
    · split at h
      · simp at h
      · rename_i d hd
        split at h
        · rename_i hc
          simp at hc
          have hb := encRFields_skipped _ _ _ _ h
          exact ⟨_, _, .inl ⟨hc.2, hx.head ((isExt_iff hd).2 hc.1), hb, rfl, rfl⟩, by simp⟩
        · simp at h
    · rename_i v hlk
      split at h
      · simp at h
      · simp only [bind_eq_ok] at h
        obtain ⟨⟨b1, sk1⟩, h1, ⟨b2, sk2⟩, h2, h3⟩ := h
        simp at h3
        by_cases hc : allow = true ∧ IsExt T f.type ∧ b = []
        · exact ⟨_, _, .inl ⟨hc.1, hx.head hc.2.1, hc.2.2, rfl, rfl⟩, by simp⟩
        · obtain ⟨t1, v1, hs1, hb1⟩ := hE _ _ _ _ _ _ (lookup_mem hlk) (hv f (by simp)) h1
          obtain ⟨t2, ms', hs2, hb2⟩ := ih _ _ (i + 1) _ _ hx.cons (fun g hg => hv g (by simp [hg])) h2
          refine ⟨_, _, .inr ⟨hc, b1, b2, t1, t2, v1, ms', hs1, hs2, h3.1.symm, rfl, rfl⟩, ?_⟩
          intro k v' hm
          rcases List.mem_cons.1 hm with hm | hm
          · simp at hm
            obtain ⟨rfl, rfl⟩ := hm
            exact ⟨_, _, lookup_mem hlk, hb1⟩
          · exact hb2 k v' hm

theorem serElems_of_encR {E : JVal → Res (Bytes × Bool)} {S : Bytes → Bytes → JVal → Prop} :
    ∀ (l : List JVal) (_ : ∀ v b sk, v ∈ l → E v = .ok (b, sk) → ∃ t v', S b t v' ∧ Below v' v)
      (pos : Int) (i : Nat) (b : Bytes), encRElems E l pos = .ok b →
      pos ≤ 2147483647 →
      ∃ t l', SerElems S i b t l' ∧ List.Forall₂ Below l' l ∧ (pos + l.length < 2147483647) := by
  intro l
  induction l with
  | nil =>
    intro hE pos i b h hp
    simp [encRElems, bind_eq_ok, incInt_ok] at h
    exact ⟨_, [], ⟨h.2, rfl⟩, .nil, by simp; omega⟩
  | cons v l ih =>
    intro hE pos i b h hp
    simp only [encRElems, bind_eq_ok, incInt_ok] at h
    obtain ⟨p, ⟨hp1, hp2⟩, ⟨b1, sk1⟩, h1, b2, h2, h3⟩ := h
    simp at h3
    obtain ⟨t1, v1, hs1, hb1⟩ := hE v b1 sk1 (by simp) h1
    obtain ⟨t2, l2, hs2, hb2, hn⟩ := ih (fun v b sk hv => hE v b sk (by simp [hv])) p (i + 1) b2 h2 (by omega)
    exact ⟨_, v1 :: l2, ⟨b1, b2, t1, t2, hs1, hs2, h3.symm, rfl⟩, .cons hb1 hb2, by simp; omega⟩

end

/-- The document of a serialization is not null unless the type is optional. -/
theorem ser_not_null {T : Table} {L : Leaves} {n lvl : Nat} {allow : Bool} {ty : Ptr} {b t : Bytes} {v : JVal}
    (h : Ser T L n lvl allow ty b t v) (hr : T.rank ty = 0) : v.isNull = false := by
  cases n with
  | zero => exact h.elim
  | succ n =>
    unfold Ser at h
    unfold Table.rank at hr
    split at h
    · obtain ⟨s, -, rfl⟩ := h; cases s <;> rfl
    · simp_all
    · simp_all
    · obtain ⟨-, -, ms, t', -, rfl, -⟩ := h; rfl
    · obtain ⟨-, l, c, b', t', -, rfl, -⟩ := h; rfl
    · obtain ⟨-, _, _, _, _, _, _, _, -, -, -, rfl, -⟩ := h; rfl
    · exact h.elim

/-- Leaf encodings are stable: what the first leaf encoder accepts is a serialization for the second. -/
def EncStable (L1 L : Leaves) : Prop :=
  ∀ k s b, ScalarUtf8 s → L1.toBin k s = .ok b → ∃ t s', LeafSer L k b t s'

theorem leaf_of_enc {L1 L : Leaves} (hst : EncStable L1 L) {k : Builtin} {v : JVal} {b : Bytes} (hu : DocUtf8 v)
    (h : leafEnc L1 k v = .ok b) : ∃ t s, LeafSer L k b t s ∧ Below (ofScalar s) v := by
  have hb : ∀ s, (ofScalar s).height = 0 ∧ levels (ofScalar s) = 1 := by
    intro s; cases s <;> simp [ofScalar, JVal.height, levels]
  have hb' : ∀ s, Below (ofScalar s) v := fun s => by
    have := hb s; have := levels_pos v; unfold Below; omega
  cases v with
  | bool x => obtain ⟨t, s, hs⟩ := hst k (.bool x) b trivial h; exact ⟨t, s, hs, hb' s⟩
  | str x => obtain ⟨t, s, hs⟩ := hst k (.str x) b hu h; exact ⟨t, s, hs, hb' s⟩
  | _ => simp [leafEnc] at h

/-- The reorderable encoder produces serializations. -/
theorem ser_of_encR {T : Table} {L1 L : Leaves} (wf : T.WF) (hx : ExtTail T) (hst : EncStable L1 L) : ∀ (n : Nat) (lvl : Nat) (allow : Bool) (ty : Ptr) (v : JVal)
    (b : Bytes) (sk : Bool), T.Valid ty → DocUtf8 v → lvl + v.height ≤ maxStack → encR T L1 n allow ty v = .ok (b, sk) →
    ∃ t v', Ser T L n lvl allow ty b t v' ∧ Below v' v := by
  intro n
  induction n with
  | zero => intro lvl allow ty v b sk _ _ _ h; simp [encR] at h
  | succ n ih =>
    intro lvl allow ty v b sk hty hu hl h
    unfold encR at h
    split at h
    · rename_i k hk
      simp only [bind_eq_ok] at h
      obtain ⟨x, h1, h2⟩ := h
      simp at h2
      obtain ⟨t, s, hs, hb⟩ := leaf_of_enc hst hu h1
      exact ⟨t, ofScalar s, by simp only [Ser, hk]; exact ⟨s, h2.1 ▸ hs, rfl⟩, hb⟩
    · rename_i p hk
      have hw := wf.optional hk
      split at h
      · simp at h
        refine ⟨str "null", .null, by simp only [Ser, hk]; exact .inl ⟨h.1.symm, trivial, trivial⟩, ?_⟩
        have := levels_pos v
        exact ⟨by simp [JVal.height], by simp [levels]; omega⟩
      · simp only [bind_eq_ok] at h
        obtain ⟨⟨b', sk'⟩, h1, h2⟩ := h
        simp at h2
        obtain ⟨t, v', hs, hb⟩ := ih lvl allow p v b' sk' hw.1 hu hl h1
        exact ⟨t, v', by simp only [Ser, hk]; exact .inr ⟨b', h2.1.symm, ser_not_null hs hw.2.1, hs⟩, hb⟩
    · rename_i p hk
      obtain ⟨t, v', hs, hb⟩ := ih lvl allow p v b sk (wf.extension hk).1 hu hl h
      exact ⟨t, v', by simp only [Ser, hk]; exact hs, hb⟩
    · rename_i fs hk
      split at h
      · rename_i ms
        have hu' := docUtf8_goM.1 hu
        have hfs : fs.length < 2147483648 := by
          have : ∀ (fs : List Field) (sk : Bool) (pos : Int) (b : Bytes) (sk' : Bool), pos ≤ 2147483647 →
              encRFields T (encR T L1 n) allow ms fs sk pos = .ok (b, sk') → pos + fs.length < 2147483647 := by
            intro fs
            induction fs with
            | nil => intro sk pos b sk' hp h; simp [encRFields, bind_eq_ok, incInt_ok] at h; simp; omega
            | cons f fs ihf =>
              intro sk pos b sk' hp h
              simp only [encRFields, bind_eq_ok, incInt_ok] at h
              obtain ⟨p, ⟨hp1, hp2⟩, h⟩ := h
              split at h
              · split at h
                · simp at h
                · split at h
                  · have := ihf _ _ _ _ (by omega) h; simp; omega
                  · simp at h
              · split at h
                · simp at h
                · simp only [bind_eq_ok] at h
                  obtain ⟨⟨b1, sk1⟩, h1, ⟨b2, sk2⟩, h2, h3⟩ := h
                  have := ihf _ _ _ _ (by omega) h2; simp; omega
          have := this _ _ _ _ _ (by omega) h
          omega
        obtain ⟨t, ms', hs, hb⟩ := serFields_of_encR (S := Ser T L n (lvl + 1)) (fun a f k v b sk hm hf he =>
          ih (lvl + 1) a f v b sk hf (hu' k v hm) (by
            have := JVal.height_goM_le hm; simp only [JVal.height] at hl; omega) he) fs false (-1) 0 b sk
            (hx _ _ hk) (wf.struct hk) h
        refine ⟨str "{" ++ t, .obj ms', ?_, below_obj hb⟩
        simp only [Ser, hk]
        exact ⟨by simp only [JVal.height] at hl; omega, hfs, ms', t, hs, rfl, rfl⟩
      · simp at h
    · rename_i p hk
      split at h
      · rename_i l
        simp only [bind_eq_ok] at h
        obtain ⟨c, h1, b', h2, h3⟩ := h
        simp at h3
        have hu' := docUtf8_go.1 hu
        obtain ⟨t, l', hs, hb, hn⟩ := serElems_of_encR (S := Ser T L n (lvl + 1) false p) l (fun v b sk hm he =>
          ih (lvl + 1) false p v b sk (wf.array hk).1 (hu' v hm) (by
            have := JVal.height_go_le hm; simp only [JVal.height] at hl; omega) he) (-1) 0 b' h2 (by omega)
        have hlen : l'.length = l.length := hb.length_eq
        refine ⟨str "[" ++ t, .arr l', ?_, below_arr hb⟩
        simp only [Ser, hk]
        exact ⟨by simp only [JVal.height] at hl; omega, l', c, b', t, hs, rfl, by omega, by rw [hlen]; exact h1, h3.1.symm, rfl⟩
      · simp at h
    · rename_i alts hk
      split at h
      · rename_i name x
        split at h
        · simp at h
        · rename_i i f hf
          simp only [bind_eq_ok] at h
          obtain ⟨c, h1, ⟨b', sk'⟩, h2, h3⟩ := h
          simp at h3
          have hu' := docUtf8_go.1 hu
          obtain ⟨t, x', hs, hb⟩ := ih (lvl + 1) allow f.type x b' sk' (wf.variant hk f (findAlt_mem hf)) (hu' x (by simp))
            (by simp only [JVal.height, JVal.height.go] at hl; omega) h2
          refine ⟨str "[" ++ jsonString name ++ str "," ++ t ++ str "]", .arr [.str name, x'], ?_, below_arr (.cons ⟨Nat.le_refl _, Nat.le_refl _⟩ (.cons hb .nil))⟩
          simp only [Ser, hk]
          exact ⟨by simp only [JVal.height] at hl; omega, name, i, f, c, b', t, x', hf, h1, hs, rfl, h3.1.symm, rfl⟩
      · simp at h
    · simp at h

section
variable {T : Table} {S : Bool → Ptr → Bytes → Bytes → JVal → Prop}

theorem serFields_of_encO {E : Bool → Ptr → JVal → Res (List Piece × Bool)} {allow : Bool} {lvl : Nat} :
    ∀ (ms : List (Bytes × JVal)) (_ : ∀ a f k v b sk, (k, v) ∈ ms → T.Valid f → E a f v = .ok (b, sk) →
        ∃ t v', S a f (flat b) t v' ∧ Below v' v)
      (fs : List Field) (pos : Int) (i : Nat) (b : List Piece) (sk' : Bool), ExtLast T fs →
      (∀ f ∈ fs, T.Valid f.type) → encOMembers T E lvl allow fs ms pos = .ok (b, sk') →
      ∃ t ms', SerFields T S allow fs i (flat b) t ms' ∧ ∀ k v', (k, v') ∈ ms' → ∃ k2 v, (k2, v) ∈ ms ∧ Below v' v := by
  intro ms
  induction ms with
  | nil =>
    intro _ fs pos i b sk' hx _ h
    rw [encOMembers.eq_def] at h
    simp only [bind_eq_ok] at h
    obtain ⟨p, -, h⟩ := h
    split at h
    · simp at h; exact ⟨_, _, ⟨by rw [h.1]; rfl, rfl, rfl⟩, by simp⟩
    · split at h
      · simp at h
      · rename_i d hd
        split at h
        · rename_i hc
          simp at hc
          simp at h
          exact ⟨_, _, .inl ⟨hc.2, hx.head ((isExt_iff hd).2 hc.1), by rw [h.1]; rfl, rfl, rfl⟩, by simp⟩
        · simp at h
  | cons m ms ih =>
    obtain ⟨k, v⟩ := m
    intro hE fs pos i b sk' hx hv h
    simp only [encOMembers, bind_eq_ok] at h
    obtain ⟨p, -, h⟩ := h
    split at h
    · simp at h
    · rename_i f fs
      split at h
      · rename_i hkf
        subst hkf
        split at h
        · simp only [bind_eq_ok] at h
          obtain ⟨⟨b1, sk1⟩, h1, ⟨b2, sk2⟩, h2, h3⟩ := h
          simp at h3
          by_cases hc : allow = true ∧ IsExt T f.type ∧ flat b = []
          · exact ⟨_, _, .inl ⟨hc.1, hx.head hc.2.1, hc.2.2, rfl, rfl⟩, by simp⟩
          · obtain ⟨t1, v1, hs1, hb1⟩ := hE _ _ f.name v _ _ (by simp) (hv f (by simp)) h1
            obtain ⟨t2, ms', hs2, hb2⟩ := ih (fun a f k v b sk hm => hE a f k v b sk (by simp [hm])) _ _ (i + 1) _ _ hx.cons (fun g hg => hv g (by simp [hg])) h2
            refine ⟨_, _, .inr ⟨hc, flat b1, flat b2, t1, t2, v1, ms', hs1, hs2, by rw [← h3.1, flat_append], rfl, rfl⟩, ?_⟩
            intro k v' hm
            rcases List.mem_cons.1 hm with hm | hm
            · simp at hm
              obtain ⟨rfl, rfl⟩ := hm
              exact ⟨f.name, v, by simp, hb1⟩
            · obtain ⟨k2, v2, hm2, hb⟩ := hb2 k v' hm
              exact ⟨k2, v2, by simp [hm2], hb⟩
        · simp at h
      · simp at h

theorem serElems_of_encO {E : JVal → Res (List Piece × Bool)} {S : Bytes → Bytes → JVal → Prop} :
    ∀ (l : List JVal) (_ : ∀ v b sk, v ∈ l → E v = .ok (b, sk) → ∃ t v', S (flat b) t v' ∧ Below v' v)
      (pos : Int) (i : Nat) (b : List Piece), encOElems E l pos = .ok b →
      pos ≤ 2147483647 →
      ∃ t l', SerElems S i (flat b) t l' ∧ List.Forall₂ Below l' l ∧ (pos + l.length < 2147483647) := by
  intro l
  induction l with
  | nil =>
    intro hE pos i b h hp
    simp [encOElems, bind_eq_ok, incInt_ok] at h
    exact ⟨_, [], ⟨by rw [h.2]; rfl, rfl⟩, .nil, by simp; omega⟩
  | cons v l ih =>
    intro hE pos i b h hp
    simp only [encOElems, bind_eq_ok, incInt_ok] at h
    obtain ⟨p, ⟨hp1, hp2⟩, ⟨b1, sk1⟩, h1, b2, h2, h3⟩ := h
    simp at h3
    obtain ⟨t1, v1, hs1, hb1⟩ := hE v b1 sk1 (by simp) h1
    obtain ⟨t2, l2, hs2, hb2, hn⟩ := ih (fun v b sk hv => hE v b sk (by simp [hv])) p (i + 1) b2 h2 (by omega)
    exact ⟨_, v1 :: l2, ⟨flat b1, flat b2, t1, t2, hs1, hs2, by rw [← h3, flat_append], rfl⟩, .cons hb1 hb2, by simp; omega⟩

end

/-- The ordered encoder produces serializations. -/
theorem ser_of_encO {T : Table} {L1 L : Leaves} (wf : T.WF) (hx : ExtTail T) (hsm : Small T) (hst : EncStable L1 L) : ∀ (n : Nat) (lvl : Nat) (allow : Bool) (ty : Ptr) (v : JVal)
    (b : List Piece) (sk : Bool), T.Valid ty → DocUtf8 v → lvl + v.height ≤ maxStack → encO T L1 n lvl allow ty v = .ok (b, sk) →
    ∃ t v', Ser T L n lvl allow ty (flat b) t v' ∧ Below v' v := by
  intro n
  induction n with
  | zero => intro lvl allow ty v b sk _ _ _ h; simp [encO] at h
  | succ n ih =>
    intro lvl allow ty v b sk hty hu hl h
    unfold encO at h
    split at h
    · rename_i k hk
      simp only [bind_eq_ok] at h
      obtain ⟨x, h1, h2⟩ := h
      simp at h2
      obtain ⟨t, s, hs, hb⟩ := leaf_of_enc hst hu h1
      refine ⟨t, ofScalar s, ?_, hb⟩
      simp only [Ser, hk]; refine ⟨s, ?_, rfl⟩
      rw [← h2.1]; simpa [flat] using hs
    · rename_i p hk
      have hw := wf.optional hk
      split at h
      · simp at h
        refine ⟨str "null", .null, by simp only [Ser, hk]; exact .inl ⟨by rw [← h.1]; rfl, trivial, trivial⟩, ?_⟩
        have := levels_pos v
        exact ⟨by simp [JVal.height], by simp [levels]; omega⟩
      · simp only [bind_eq_ok] at h
        obtain ⟨⟨b', sk'⟩, h1, h2⟩ := h
        simp at h2
        obtain ⟨t, v', hs, hb⟩ := ih lvl allow p v b' sk' hw.1 hu hl h1
        exact ⟨t, v', by simp only [Ser, hk]; exact .inr ⟨flat b', by rw [← h2.1]; rfl, ser_not_null hs hw.2.1, hs⟩, hb⟩
    · rename_i p hk
      obtain ⟨t, v', hs, hb⟩ := ih lvl allow p v b sk (wf.extension hk).1 hu hl h
      exact ⟨t, v', by simp only [Ser, hk]; exact hs, hb⟩
    · rename_i fs hk
      split at h
      · rename_i ms
        have hu' := docUtf8_goM.1 hu
        obtain ⟨t, ms', hs, hb⟩ := serFields_of_encO (S := Ser T L n (lvl + 1)) ms (fun a f k v b sk hm hf he =>
          ih (lvl + 1) a f v b sk hf (hu' k v hm) (by
            have := JVal.height_goM_le hm; simp only [JVal.height] at hl; omega) he) fs (-1) 0 b sk
            (hx _ _ hk) (wf.struct hk) h
        refine ⟨str "{" ++ t, .obj ms', ?_, below_obj hb⟩
        simp only [Ser, hk]
        exact ⟨by simp only [JVal.height] at hl; omega, hsm _ _ hk, ms', t, hs, rfl, rfl⟩
      · simp at h
    · rename_i p hk
      split at h
      · rename_i l
        split at h
        · rename_i hlvl
          simp only [bind_eq_ok] at h
          obtain ⟨b', h2, h3⟩ := h
          simp at h3
          have hu' := docUtf8_go.1 hu
          obtain ⟨t, l', hs, hb, hn⟩ := serElems_of_encO (S := Ser T L n (lvl + 1) false p) l (fun v b sk hm he =>
            ih (lvl + 1) false p v b sk (wf.array hk).1 (hu' v hm) (by
              have := JVal.height_go_le hm; simp only [JVal.height] at hl; omega) he) (-1) 0 b' h2 (by omega)
          have hlen : l'.length = l.length := hb.length_eq
          refine ⟨str "[" ++ t, .arr l', ?_, below_arr hb⟩
          simp only [Ser, hk]
          refine ⟨hlvl, l', varuintLoop l.length, flat b', t, hs, rfl, by omega, ?_, by rw [← h3.1]; rfl, rfl⟩
          rw [hlen, varuint32ToBin, if_neg]
          rw [Nat.shiftRight_eq_div_pow]; simp; omega
        · simp at h
      · simp at h
    · rename_i alts hk
      split at h
      · rename_i l
        split at h
        · rename_i hlvl
          split at h
          · simp at h
          · rename_i name l
            split at h
            · simp at h
            · rename_i i f hf
              simp only [bind_eq_ok] at h
              obtain ⟨c, h1, h⟩ := h
              split at h
              · simp at h
              · rename_i x l
                simp only [bind_eq_ok] at h
                obtain ⟨⟨b', sk'⟩, h2, h3⟩ := h
                split at h3
                · simp at h3
                  have hu' := docUtf8_go.1 hu
                  obtain ⟨t, x', hs, hb⟩ := ih (lvl + 1) allow f.type x b' sk' (wf.variant hk f (findAlt_mem hf)) (hu' x (by simp))
                    (by simp only [JVal.height, JVal.height.go] at hl; omega) h2
                  refine ⟨str "[" ++ jsonString name ++ str "," ++ t ++ str "]", .arr [.str name, x'], ?_, below_arr (.cons ⟨Nat.le_refl _, Nat.le_refl _⟩ (.cons hb .nil))⟩
                  simp only [Ser, hk]
                  exact ⟨hlvl, name, i, f, c, flat b', t, x', hf, h1, hs, rfl, by rw [← h3.1]; rfl, rfl⟩
                · simp at h3
          · simp at h
        · simp at h
      · simp at h
    · simp at h

end Abieos
