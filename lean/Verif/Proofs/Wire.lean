import Verif.Spec.Wire
import Verif.Props.Lookup
import Verif.Props.Encode
import Verif.Proofs.StaticBin
/-
The wire format read off the definition is the encoding with the loaded table.
-/
namespace Abieos
open Spec

theorem findAlt_split {name : Bytes} : ∀ {l : List Field} {i j : Nat} {f : Field}, findAlt name l i = some (j, f) →
    ∃ pre post, l = pre ++ f :: post ∧ (∀ g ∈ pre, g.name ≠ name) ∧ f.name = name ∧ j = i + pre.length
  | [], _, _, _, h => by cases h
  | g :: l, i, j, f, h => by
    unfold findAlt at h
    split at h
    · rename_i hg
      cases h
      exact ⟨[], l, rfl, by simp, hg, by simp⟩
    · rename_i hg
      obtain ⟨pre, post, h1, h2, h3, h4⟩ := findAlt_split h
      refine ⟨g :: pre, post, by rw [h1]; rfl, ?_, h3, by simp; omega⟩
      simp only [List.mem_cons]
      rintro a (rfl | ha)
      · exact hg
      · exact h2 a ha

theorem findAlt_join {f : Field} {post : List Field} : ∀ (pre : List Field) (i : Nat), (∀ g ∈ pre, g.name ≠ f.name) →
    findAlt f.name (pre ++ f :: post) i = some (i + pre.length, f)
  | [], i, _ => by simp [findAlt]
  | g :: pre, i, h => by
    rw [List.cons_append, findAlt, if_neg (h g (by simp)), findAlt_join pre (i + 1) fun a ha => h a (by simp [ha])]
    simp; omega

section
variable {D : AbiDef} {T : Table} {L : Leaves} {S : Builtin → Scalar → Bytes → Prop} {M : List Bytes → List Bytes → Prop}

theorem get_of_meaning (h : LoadedThen D T) {p : Ptr} (hp : T.Valid p) {d : TData} (hm : Meaning D p d) : T.get p = some d := by
  obtain ⟨d', h1, -⟩ := hp
  have hl := loaded_of h
  rw [h1, Meaning.unique hl.1.unique ((c26_resolved h).2 _ _ h1) hm]

theorem isExt_iff_meaning (h : LoadedThen D T) {p : Ptr} (hp : T.Valid p) : IsExt T p ↔ ∃ q, Meaning D p (.extension q) :=
  ⟨fun ⟨q, hq⟩ => ⟨q, (c26_resolved h).2 _ _ hq⟩, fun ⟨q, hq⟩ => ⟨q, get_of_meaning h hp hq⟩⟩

mutual
theorem wire_enc (h : LoadedThen D T) (hS : ∀ k s b, S k s b → L.toBin k s = .ok b) : ∀ {last : Bool} {p : Ptr} {v : JVal} {b : Bytes},
    Wire D S M last p v b → T.Valid p → ∃ n, Enc T L n last p v b
  | _, _, _, _, .scalar hm hs, hp => by
    refine ⟨1, ?_⟩
    rw [Enc, get_of_meaning h hp hm]
    exact ⟨_, rfl, hS _ _ _ hs⟩
  | _, _, _, _, .none hm, hp => by
    refine ⟨1, ?_⟩
    rw [Enc, get_of_meaning h hp hm]
    exact .inl ⟨rfl, rfl⟩
  | _, _, _, _, .some hm hv hw, hp => by
    have hg := get_of_meaning h hp hm
    obtain ⟨n, hn⟩ := wire_enc h hS hw ((c26_resolved h).1.optional hg).1
    refine ⟨n + 1, ?_⟩
    rw [Enc, hg]
    exact .inr ⟨hv, _, rfl, hn⟩
  | _, _, _, _, .extension hm hw, hp => by
    have hg := get_of_meaning h hp hm
    obtain ⟨n, hn⟩ := wire_enc h hS hw ((c26_resolved h).1.extension hg).1
    refine ⟨n + 1, ?_⟩
    rw [Enc, hg]
    exact hn
  | _, _, _, _, .struct hm _ hw, hp => by
    have hg := get_of_meaning h hp hm
    obtain ⟨n, hn⟩ := wireFields_enc h hS hw ((c26_resolved h).1.struct hg)
    refine ⟨n + 1, ?_⟩
    rw [Enc, hg]
    exact ⟨_, rfl, hn⟩
  | _, _, _, _, .array hm hl hc hw, hp => by
    have hg := get_of_meaning h hp hm
    obtain ⟨n, hn⟩ := wireElems_enc h hS hw ((c26_resolved h).1.array hg).1
    refine ⟨n + 1, ?_⟩
    rw [Enc, hg]
    exact ⟨_, _, _, rfl, by omega, size_iff.1 hc, hn, rfl⟩
  | _, _, _, _, .variant (f := f) hm hb hc hw, hp => by
    have hg := get_of_meaning h hp hm
    obtain ⟨n, hn⟩ := wire_enc h hS hw ((c26_resolved h).1.variant hg f (by simp))
    refine ⟨n + 1, ?_⟩
    rw [Enc, hg]
    exact ⟨_, _, _, f, _, _, rfl, findAlt_join _ 0 hb, by rw [Nat.zero_add]; exact size_iff.1 hc, hn, rfl⟩
theorem wireFields_enc (h : LoadedThen D T) (hS : ∀ k s b, S k s b → L.toBin k s = .ok b) : ∀ {last : Bool} {ms : List (Bytes × JVal)} {fs : List Field} {b : Bytes},
    WireFields D S M last ms fs b → (∀ f ∈ fs, T.Valid f.type) → ∃ n, EncFields T (Enc T L n) last ms fs b
  | _, _, _, _, .nil, _ => ⟨0, rfl⟩
  | _, _, fs, _, .missing hx, hp => by
    refine ⟨0, ?_⟩
    cases fs with
    | nil => rfl
    | cons f fs => exact .inl ⟨rfl, fun g hg => ⟨(isExt_iff_meaning h (hp g hg)).2 (hx g hg).1, (hx g hg).2⟩, rfl⟩
  | _, _, _, _, .present hv hw hr, hp => by
    obtain ⟨n, hn⟩ := wire_enc h hS hw (hp _ (by simp))
    obtain ⟨m, hm⟩ := wireFields_enc h hS hr fun f hf => hp f (by simp [hf])
    refine ⟨max n m, .inr ⟨_, _, _, hv, enc_mono (Nat.le_max_left ..) hn, ?_, rfl⟩⟩
    exact encFields_mono (fun a p v b => enc_mono (Nat.le_max_right ..)) _ _ hm
theorem wireElems_enc (h : LoadedThen D T) (hS : ∀ k s b, S k s b → L.toBin k s = .ok b) : ∀ {q : Ptr} {l : List JVal} {b : Bytes},
    WireElems D S M q l b → T.Valid q → ∃ n, EncElems (Enc T L n false q) l b
  | _, _, _, .nil, _ => ⟨0, rfl⟩
  | _, _, _, .cons hw hr, hp => by
    obtain ⟨n, hn⟩ := wire_enc h hS hw hp
    obtain ⟨m, hm⟩ := wireElems_enc h hS hr hp
    exact ⟨max n m, _, _, enc_mono (Nat.le_max_left ..) hn, encElems_mono (fun v b => enc_mono (Nat.le_max_right ..)) _ _ hm, rfl⟩
end

theorem all_succ {p : Nat → Prop} (h0 : p 0) (h : ∀ n, p (n + 1)) : ∀ n, p n
  | 0 => h0
  | n + 1 => h n

mutual
theorem wire_inOrder (h : LoadedThen D T) (hdf : DistinctFields T) : ∀ {last : Bool} {p : Ptr} {v : JVal} {b : Bytes},
    Wire D S OrderedKeys last p v b → T.Valid p → ∀ n, InOrderTo T n p v
  | _, _, _, _, .scalar (s := s) hm hs, hp => by
    refine all_succ trivial fun n => ?_
    rw [InOrderTo.eq_def]
    simp only [get_of_meaning h hp hm]
  | _, p, _, _, .none (q := q) hm, hp => by
    refine all_succ trivial fun n => ?_
    have hg := get_of_meaning h hp hm
    rw [InOrderTo.eq_def]
    simp only [hg]
    obtain ⟨d, h1, h2, h3⟩ := (c26_resolved h).1 _ _ hg
    cases n with
    | zero => trivial
    | succ n =>
      rw [InOrderTo.eq_def]
      simp only [h1]
      cases d <;> simp_all [TData.isWrapper]
  | _, _, _, _, .some hm hv hw, hp => by
    refine all_succ trivial fun n => ?_
    have hg := get_of_meaning h hp hm
    have := wire_inOrder h hdf hw ((c26_resolved h).1.optional hg).1 n
    rw [InOrderTo.eq_def]
    simp only [hg]
    exact this
  | _, _, _, _, .extension hm hw, hp => by
    refine all_succ trivial fun n => ?_
    have hg := get_of_meaning h hp hm
    have := wire_inOrder h hdf hw ((c26_resolved h).1.extension hg).1 n
    rw [InOrderTo.eq_def]
    simp only [hg]
    exact this
  | _, _, _, _, .struct (ms := ms) hm hk hw, hp => by
    refine all_succ trivial fun n => ?_
    have hg := get_of_meaning h hp hm
    have := wireFields_inOrder h hdf hw ((c26_resolved h).1.struct hg) (hk.nodup (hdf _ _ hg)) n
    rw [InOrderTo.eq_def]
    simp only [hg]
    exact ⟨hk, this⟩
  | _, _, _, _, .array hm hl hc hw, hp => by
    refine all_succ trivial fun n => ?_
    have hg := get_of_meaning h hp hm
    have := wireElems_inOrder h hdf hw ((c26_resolved h).1.array hg).1 n
    rw [InOrderTo.eq_def]
    simp only [hg]
    exact this
  | _, _, _, _, .variant (f := f) hm hb hc hw, hp => by
    refine all_succ trivial fun n => ?_
    have hg := get_of_meaning h hp hm
    have := wire_inOrder h hdf hw ((c26_resolved h).1.variant hg f (by simp)) n
    rw [InOrderTo.eq_def]
    simp only [hg]
    intro i g hf
    rw [findAlt_join _ 0 hb] at hf
    cases hf
    exact this
theorem wireFields_inOrder (h : LoadedThen D T) (hdf : DistinctFields T) : ∀ {last : Bool} {ms : List (Bytes × JVal)} {fs : List Field} {b : Bytes},
    WireFields D S OrderedKeys last ms fs b → (∀ f ∈ fs, T.Valid f.type) → (ms.map (·.1)).Nodup → ∀ n, ∀ f ∈ fs, ∀ x, (f.name, x) ∈ ms → InOrderTo T n f.type x
  | _, _, _, _, .nil, _, _, _, f, hf, _, _ => by cases hf
  | _, _, fs, _, .missing hx, hp, _, n, f, hf, x, hm => absurd (List.mem_map_of_mem hm) (lastValue_none_iff.1 (hx f hf).2)
  | _, _, _, _, .present hv hw hr, hp, hn, n, f, hf, x, hm => by
    rcases List.mem_cons.1 hf with e | hf
    · have h1 := wire_inOrder h hdf hw (hp _ (by simp)) n
      rw [e] at hm ⊢
      have h2 := (lastValue_mem hn).2 hm
      rw [hv] at h2
      rwa [Option.some.inj h2] at h1
    · exact wireFields_inOrder h hdf hr (fun f hf => hp f (by simp [hf])) hn n f hf x hm
theorem wireElems_inOrder (h : LoadedThen D T) (hdf : DistinctFields T) : ∀ {q : Ptr} {l : List JVal} {b : Bytes},
    WireElems D S OrderedKeys q l b → T.Valid q → ∀ n, ∀ x ∈ l, InOrderTo T n q x
  | _, _, _, .nil, _, _, x, hx => by cases hx
  | _, _, _, .cons hw hr, hp, n, x, hx => by
    rcases List.mem_cons.1 hx with e | hx
    · rw [e]; exact wire_inOrder h hdf hw hp n
    · exact wireElems_inOrder h hdf hr hp n x hx
end

theorem enc_wire (h : LoadedThen D T) (hS : ∀ k s b, L.toBin k s = .ok b → S k s b) : ∀ (n : Nat) {last : Bool} {p : Ptr} {v : JVal} {b : Bytes},
    Enc T L n last p v b → Wire D S AnyKeys last p v b := by
  have hw := (c26_resolved h).1
  intro n
  induction n with
  | zero => intro last p v b he; exact he.elim
  | succ n ih =>
    intro last p v b he
    rw [Enc] at he
    cases hg : T.get p with
    | none => rw [hg] at he; exact he.elim
    | some d =>
      rw [hg] at he
      have hm := (c26_resolved h).2 _ _ hg
      cases d with
      | builtin k =>
        obtain ⟨s, rfl, hs⟩ := he
        exact .scalar hm (hS _ _ _ hs)
      | «alias» q => exact he.elim
      | aliasDef t => exact he.elim
      | structDef s => exact he.elim
      | variantDef s => exact he.elim
      | optional q =>
        rcases he with ⟨rfl, rfl⟩ | ⟨hv, b', rfl, he⟩
        · exact .none hm
        · exact .some hm hv (ih he)
      | extension q => exact .extension hm (ih he)
      | struct fs =>
        obtain ⟨ms, rfl, he⟩ := he
        refine .struct hm trivial ?_
        have hv := hw.struct hg
        clear hg hm
        induction fs generalizing b with
        | nil => cases (show b = [] from he); exact .nil
        | cons f fs ihf =>
          rcases he with ⟨rfl, hx, rfl⟩ | ⟨x, b1, b2, h1, h2, h3, rfl⟩
          · exact .missing fun g hg => ⟨(isExt_iff_meaning h (hv g hg)).1 (hx g hg).1, (hx g hg).2⟩
          · exact .present h1 (ih h2) (ihf h3 fun g hg => hv g (by simp [hg]))
      | array q =>
        obtain ⟨l, c, b', rfl, hl, hc, he, rfl⟩ := he
        refine .array hm (by omega) (size_iff.2 hc) ?_
        clear hg hm hl hc
        induction l generalizing b' with
        | nil => cases (show b' = [] from he); exact .nil
        | cons x l ihl =>
          obtain ⟨b1, b2, h1, h2, rfl⟩ := he
          exact .cons (ih h1) (ihl _ h2)
      | variant alts =>
        obtain ⟨name, x, i, f, c, b', rfl, hf, hc, he, rfl⟩ := he
        obtain ⟨pre, post, rfl, h2, rfl, h4⟩ := findAlt_split hf
        rw [h4, Nat.zero_add] at hc
        exact .variant hm h2 (size_iff.2 hc) (ih he)

theorem enc_wire_ordered (h : LoadedThen D T) (hdf : DistinctFields T) (hS : ∀ k s b, L.toBin k s = .ok b → S k s b) : ∀ (n : Nat) {last : Bool} {p : Ptr} {v : JVal} {b : Bytes},
    Enc T L n last p v b → InOrderTo T n p v → Wire D S OrderedKeys last p v b := by
  have hw := (c26_resolved h).1
  intro n
  induction n with
  | zero => intro last p v b he _; exact he.elim
  | succ n ih =>
    intro last p v b he ho
    rw [Enc] at he
    rw [InOrderTo.eq_def] at ho
    cases hg : T.get p with
    | none => rw [hg] at he; exact he.elim
    | some d =>
      rw [hg] at he
      simp only [hg] at ho
      have hm := (c26_resolved h).2 _ _ hg
      cases d with
      | builtin k =>
        obtain ⟨s, rfl, hs⟩ := he
        exact .scalar hm (hS _ _ _ hs)
      | «alias» q => exact he.elim
      | aliasDef t => exact he.elim
      | structDef s => exact he.elim
      | variantDef s => exact he.elim
      | optional q =>
        rcases he with ⟨rfl, rfl⟩ | ⟨hv, b', rfl, he⟩
        · exact .none hm
        · exact .some hm hv (ih he ho)
      | extension q => exact .extension hm (ih he ho)
      | struct fs =>
        obtain ⟨ms, rfl, he⟩ := he
        simp only at ho
        refine .struct hm ho.1 ?_
        have hv := hw.struct hg
        have hnd := ho.1.nodup (hdf _ _ hg)
        replace ho := ho.2
        clear hg hm
        induction fs generalizing b with
        | nil => cases (show b = [] from he); exact .nil
        | cons f fs ihf =>
          rcases he with ⟨rfl, hx, rfl⟩ | ⟨x, b1, b2, h1, h2, h3, rfl⟩
          · exact .missing fun g hg => ⟨(isExt_iff_meaning h (hv g hg)).1 (hx g hg).1, (hx g hg).2⟩
          · exact .present h1 (ih h2 (ho f (by simp) x ((lastValue_mem hnd).1 h1))) (ihf h3 (fun g hg => hv g (by simp [hg])) fun g hg => ho g (by simp [hg]))
      | array q =>
        obtain ⟨l, c, b', rfl, hl, hc, he, rfl⟩ := he
        refine .array hm (by omega) (size_iff.2 hc) ?_
        simp only at ho
        clear hg hm hl hc
        induction l generalizing b' with
        | nil => cases (show b' = [] from he); exact .nil
        | cons x l ihl =>
          obtain ⟨b1, b2, h1, h2, rfl⟩ := he
          exact .cons (ih h1 (ho x (by simp))) (ihl _ (fun y hy => ho y (by simp [hy])) h2)
      | variant alts =>
        obtain ⟨name, x, i, f, c, b', rfl, hf, hc, he, rfl⟩ := he
        obtain ⟨pre, post, rfl, h2, rfl, h4⟩ := findAlt_split hf
        rw [h4, Nat.zero_add] at hc
        exact .variant hm h2 (size_iff.2 hc) (ih he (ho _ f hf))

theorem wire_iff (h : LoadedThen D T) (hS : ∀ k s b, L.toBin k s = .ok b ↔ S k s b) {p : Ptr} (hp : T.Valid p) (v : JVal) (b : Bytes) :
    Encodes T L p v b ↔ Wire D S AnyKeys true p v b :=
  ⟨fun ⟨n, he⟩ => enc_wire h (fun k s b => (hS k s b).1) n he, fun hw => wire_enc h (fun k s b => (hS k s b).2) hw hp⟩

theorem wire_ordered_iff (h : LoadedThen D T) (hdf : DistinctFields T) (hS : ∀ k s b, L.toBin k s = .ok b ↔ S k s b) {p : Ptr} (hp : T.Valid p) (v : JVal) (b : Bytes) :
    InOrder T p v ∧ Encodes T L p v b ↔ Wire D S OrderedKeys true p v b :=
  ⟨fun ⟨ho, n, he⟩ => enc_wire_ordered h hdf (fun k s b => (hS k s b).1) n he (ho n),
    fun hw => ⟨wire_inOrder h hdf hw hp, wire_enc h (fun k s b => (hS k s b).2) hw hp⟩⟩

theorem distinct_of_def (h : LoadedThen D T) (hd : DistinctDef D) : DistinctFields T := fun k fs hk => hd k fs ((c26_resolved h).2 _ _ hk)

theorem extTail_of_def (h : LoadedThen D T) (hd : ExtLastDef D) : ExtTail T := by
  intro k fs hk pre f post he hx g hg
  have hv := (c26_resolved h).1.struct hk
  exact (isExt_iff_meaning h (hv g (by rw [he]; simp [hg]))).2
    (hd k fs ((c26_resolved h).2 _ _ hk) pre f post he ((isExt_iff_meaning h (hv f (by rw [he]; simp))).1 hx) g hg)

theorem small_of_def (h : LoadedThen D T) (hd : SmallDef D) : Small T := fun k fs hk => hd k fs ((c26_resolved h).2 _ _ hk)

end

end Abieos
