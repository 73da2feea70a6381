import Verif.Spec.Faults
import Verif.Proofs.Wire
import Verif.Proofs.DefinedConv
import Verif.Model.CApi
/-
Why a conversion from JSON fails.
-/
namespace Abieos
open Spec

theorem bind_eq_error {α β : Type} {x : Res α} {f : α → Res β} {e : Err} : (x >>= f) = .error e ↔ x = .error e ∨ ∃ a, x = .ok a ∧ f a = .error e := by
  cases x <;> simp [bind, Except.bind]

theorem incInt_error {p : Int} {e : Err} (h : incInt p = .error e) : e = .ub := by
  unfold incInt at h
  split at h
  · cases h; rfl
  · cases h

theorem leafEnc_norm {L : Leaves} {k : Builtin} (v : JVal) : leafEnc L k (norm v) = leafEnc L k v := by
  cases v with
  | arr l => rw [norm_arr]; rfl
  | obj l => rw [norm_obj]; rfl
  | _ => simp [norm]

/-- A property of documents that their parts inherit and that bounds the lengths of arrays. -/
structure Inherited (Q : JVal → Prop) : Prop where
  arr : ∀ {l : List JVal}, Q (.arr l) → l.length < 2147483648 ∧ ∀ v ∈ l, Q v
  obj : ∀ {ms : List (Bytes × JVal)}, Q (.obj ms) → ∀ k v, (k, v) ∈ ms → Q v

section
variable {D : AbiDef} {T : Table} {L : Leaves} {S : Builtin → Scalar → Bytes → Prop} {B : Builtin → JVal → String → Prop} {Q : JVal → Prop}

theorem extType_iff (h : LoadedThen D T) {p : Ptr} (hp : T.Valid p) {d : TData} (hd : T.get p = some d) : ExtType D p ↔ d.isExt = true := by
  rw [← isExt_iff hd]
  exact (isExt_iff_meaning h hp).symm

theorem skippedFault_of (h : LoadedThen D T) {E : Bool → Ptr → JVal → Res (Bytes × Bool)} {ms : List (Bytes × JVal)} : ∀ (fs : List Field) (pos : Int) (e : Err),
    encRFields T E true (norm.goM [] ms) fs true pos = .error e → e ≠ .ub → (∀ f ∈ fs, T.Valid f.type) → SkippedFault D ms fs e.what := by
  intro fs
  induction fs with
  | nil =>
    intro pos e he hu _
    rw [encRFields, bind_eq_error] at he
    rcases he with he | ⟨a, -, he⟩
    · exact absurd (incInt_error he) hu
    · cases he
  | cons f fs ih =>
    intro pos e he hu hv
    rw [encRFields, bind_eq_error] at he
    rcases he with he | ⟨q, hq, he⟩
    · exact absurd (incInt_error he) hu
    rw [norm_lookup] at he
    cases hl : lastValue f.name ms with
    | some x =>
      simp only [hl, Option.map_some, if_true] at he
      cases he
      exact .present hl
    | none =>
      simp only [hl, Option.map_none] at he
      cases hd : T.get f.type with
      | none => simp only [hd] at he; cases he; exact absurd rfl hu
      | some d =>
        have hx := extType_iff h (hv f (by simp)) hd
        simp only [hd, Bool.and_true] at he
        split at he
        · rename_i hc
          exact .next hl (hx.2 hc) (ih _ _ he hu fun g hg => hv g (by simp [hg]))
        · rename_i hc
          cases he
          exact .missing hl fun hh => hc (hx.1 hh)

theorem lastValue_some_mem {k : Bytes} {x : JVal} : ∀ {ms : List (Bytes × JVal)}, lastValue k ms = some x → (k, x) ∈ ms
  | [], h => by cases h
  | (a, b) :: l, h => by
    rw [lastValue] at h
    split at h
    · rename_i y hy
      cases h
      exact List.mem_cons_of_mem _ (lastValue_some_mem hy)
    · split at h
      · rename_i e
        cases h
        rw [e]; exact List.mem_cons_self
      · cases h

theorem fieldsFault_of (h : LoadedThen D T) {E : Bool → Ptr → JVal → Res (Bytes × Bool)} {allow : Bool} {ms : List (Bytes × JVal)}
    (hE : ∀ a p v e, E a p (norm v) = .error e → e ≠ .ub → T.Valid p → (∃ k, (k, v) ∈ ms) → Fault D S B a p v e.what)
    (hO : ∀ a p v b sk, E a p (norm v) = .ok (b, sk) → Wire D S AnyKeys a p v b ∧ (a = false → sk = false)) : ∀ (fs : List Field) (sk : Bool) (pos : Int) (e : Err),
    encRFields T E allow (norm.goM [] ms) fs sk pos = .error e → e ≠ .ub → (fs ≠ [] → sk = false) → (∀ f ∈ fs, T.Valid f.type) → FieldsFault D S B allow ms fs e.what := by
  intro fs
  induction fs with
  | nil =>
    intro sk pos e he hu _ _
    rw [encRFields, bind_eq_error] at he
    rcases he with he | ⟨a, -, he⟩
    · exact absurd (incInt_error he) hu
    · cases he
  | cons f fs ih =>
    intro sk pos e he hu hsk hv
    cases hsk (by simp)
    have hv' : ∀ g ∈ fs, T.Valid g.type := fun g hg => hv g (by simp [hg])
    rw [encRFields, bind_eq_error] at he
    rcases he with he | ⟨q, hq, he⟩
    · exact absurd (incInt_error he) hu
    rw [norm_lookup] at he
    cases hl : lastValue f.name ms with
    | some x =>
      simp only [hl, Option.map_some] at he
      rw [if_neg (by simp), bind_eq_error] at he
      rcases he with he | ⟨⟨b, sk⟩, h1, he⟩
      · exact .here hl (hE _ _ _ _ he hu (hv f (by simp)) ⟨_, lastValue_some_mem hl⟩)
      · rw [bind_eq_error] at he
        obtain ⟨g1, g2⟩ := hO _ _ _ _ _ h1
        rcases he with he | ⟨a, -, he⟩
        · refine .later hl g1 (ih sk _ _ he hu (fun hne => g2 ?_) hv')
          cases fs with
          | nil => exact absurd rfl hne
          | cons => simp
        · cases he
    | none =>
      simp only [hl, Option.map_none] at he
      cases hd : T.get f.type with
      | none => simp only [hd] at he; cases he; exact absurd rfl hu
      | some d =>
        have hx := extType_iff h (hv f (by simp)) hd
        simp only [hd] at he
        split at he
        · rename_i hc
          simp only [Bool.and_eq_true] at hc
          obtain ⟨hc, rfl⟩ := hc
          exact .skipped hl (hx.2 hc) (skippedFault_of h _ _ _ he hu hv')
        · rename_i hc
          cases he
          refine .missing hl fun ha hh => hc ?_
          rw [ha, hx.1 hh]; rfl

theorem elemsFault_of {E : JVal → Res (Bytes × Bool)} {q : Ptr} : ∀ (l : List JVal) (pos : Int) (e : Err),
    (∀ v ∈ l, ∀ e, E (norm v) = .error e → e ≠ .ub → Fault D S B false q v e.what) → (∀ v ∈ l, ∀ b sk, E (norm v) = .ok (b, sk) → Wire D S AnyKeys false q v b) →
    encRElems E (l.map norm) pos = .error e → e ≠ .ub → ElemsFault D S B q l e.what := by
  intro l
  induction l with
  | nil =>
    intro pos e _ _ he hu
    rw [List.map_nil, encRElems, bind_eq_error] at he
    rcases he with he | ⟨a, -, he⟩
    · exact absurd (incInt_error he) hu
    · cases he
  | cons v l ih =>
    intro pos e hE hO he hu
    rw [List.map_cons, encRElems, bind_eq_error] at he
    rcases he with he | ⟨a, -, he⟩
    · exact absurd (incInt_error he) hu
    rw [bind_eq_error] at he
    rcases he with he | ⟨⟨b, sk⟩, h1, he⟩
    · exact .here (hE v (by simp) _ he hu)
    · rw [bind_eq_error] at he
      rcases he with he | ⟨a, -, he⟩
      · exact .later (hO v (by simp) _ _ h1) (ih _ _ (fun u hu => hE u (by simp [hu])) (fun u hu => hO u (by simp [hu])) he hu)
      · cases he

theorem norm_pair {v : JVal} {name : Bytes} {x : JVal} (hv : norm v = .arr [.str name, x]) : ∃ y, v = .arr [.str name, y] ∧ norm y = x := by
  cases v with
  | arr l =>
    rw [norm_arr] at hv
    simp only [JVal.arr.injEq] at hv
    match l, hv with
    | [], hv => simp at hv
    | [_], hv => simp at hv
    | _ :: _ :: _ :: _, hv => simp at hv
    | [a, y], hv =>
      simp only [List.map_cons, List.map_nil, List.cons.injEq, and_true] at hv
      exact ⟨y, by rw [norm_eq_str.1 hv.1], hv.2⟩
  | _ => simp [norm] at hv

theorem findAlt_none {name : Bytes} : ∀ {l : List Field} {i : Nat}, findAlt name l i = none ↔ ∀ g ∈ l, g.name ≠ name
  | [], i => by simp [findAlt]
  | g :: l, i => by
    rw [findAlt]
    split
    · rename_i h; simp [h]
    · rename_i h; simp [h, findAlt_none]

/-- A conversion that fails has a fault. -/
theorem encR_fault (h : LoadedThen D T) (hsm : SmallDef D) (hva : SmallVariants D) (hS : ∀ k s b, L.toBin k s = .ok b → S k s b)
    (hq : Inherited Q) (hB : ∀ k v e, Q v → leafEnc L k v = .error e → e ≠ .ub → B k v e.what) : ∀ (n : Nat) (allow : Bool) (p : Ptr) (v : JVal) (e : Err),
    encR T L n allow p (norm v) = .error e → e ≠ .ub → T.Valid p → Q v → Fault D S B allow p v e.what := by
  have hw := (c26_resolved h).1
  have hok : ∀ n a p v b sk, encR T L n a p (norm v) = .ok (b, sk) → Wire D S AnyKeys a p v b ∧ (a = false → sk = false) := by
    intro n a p v b sk he
    exact ⟨enc_wire h hS n ((encR_iff_enc (small_of_def h hsm) n a p v b).1 ⟨sk, he⟩), by rintro rfl; exact encR_skip _ _ _ _ _ he⟩
  intro n
  induction n with
  | zero => intro allow p v e he hu; cases he; exact absurd rfl hu
  | succ n ih =>
    intro allow p v e he hu hp hs
    cases hg : T.get p with
    | none => rw [encR.eq_def] at he; simp only [hg] at he; cases he; exact absurd rfl hu
    | some d =>
      have hm := (c26_resolved h).2 _ _ hg
      rw [encR.eq_def] at he
      simp only [hg] at he
      cases d with
      | builtin k =>
        simp only [bind_eq_error] at he
        rcases he with he | ⟨a, -, he⟩
        · rw [leafEnc_norm] at he
          exact .scalar hm (hB _ _ _ hs he hu)
        · cases he
      | «alias» q => cases he; exact absurd rfl hu
      | aliasDef t => cases he; exact absurd rfl hu
      | structDef s => cases he; exact absurd rfl hu
      | variantDef s => cases he; exact absurd rfl hu
      | optional q =>
        simp only [norm_isNull] at he
        split at he
        · cases he
        · rename_i hn
          rw [bind_eq_error] at he
          rcases he with he | ⟨a, -, he⟩
          · exact .some hm (fun e => hn (isNull_iff.2 e)) (ih _ _ _ _ he hu (hw.optional hg).1 hs)
          · cases he
      | extension q => exact .extension hm (ih _ _ _ _ he hu (hw.extension hg).1 hs)
      | struct fs =>
        cases v with
        | obj ms =>
          rw [norm_obj] at he
          simp only at he
          replace hs := hq.obj hs
          refine .fields hm (fieldsFault_of h (fun a p v e h1 h2 h3 ⟨k, h4⟩ => ih a p v e h1 h2 h3 (hs k v h4)) (hok n) fs false _ _ he hu (by simp) (hw.struct hg))
        | arr l => rw [norm_arr] at he; cases he; exact .notObject hm (by simp)
        | null => simp only [norm] at he; cases he; exact .notObject hm (by simp)
        | bool b => simp only [norm] at he; cases he; exact .notObject hm (by simp)
        | str b => simp only [norm] at he; cases he; exact .notObject hm (by simp)
      | array q =>
        cases v with
        | arr l =>
          rw [norm_arr] at he
          simp only at he
          replace hs := hq.arr hs
          rw [List.length_map, varuint32ToBin_eq (by omega), bind_ok, bind_eq_error] at he
          rcases he with he | ⟨a, -, he⟩
          · exact .elems hm (elemsFault_of l _ _ (fun v hv e h1 h2 => ih _ _ _ _ h1 h2 (hw.array hg).1 (hs.2 v hv)) (fun v hv b sk h1 => (hok n _ _ _ _ _ h1).1) he hu)
          · cases he
        | obj l => rw [norm_obj] at he; cases he; exact .notArray hm (by simp)
        | null => simp only [norm] at he; cases he; exact .notArray hm (by simp)
        | bool b => simp only [norm] at he; cases he; exact .notArray hm (by simp)
        | str b => simp only [norm] at he; cases he; exact .notArray hm (by simp)
      | variant alts =>
        simp only at he
        split at he
        · rename_i name x hv
          obtain ⟨y, rfl, rfl⟩ := norm_pair hv
          split at he
          · rename_i hf
            cases he
            exact .noAlternative hm (findAlt_none.1 hf)
          · rename_i i f hf
            obtain ⟨pre, post, rfl, h2, rfl, h4⟩ := findAlt_split hf
            have := hva _ _ hm
            simp only [List.length_append, List.length_cons] at this
            rw [varuint32ToBin_eq (by omega), bind_ok, bind_eq_error] at he
            rcases he with he | ⟨a, -, he⟩
            · refine .alternative hm h2 (ih _ _ _ _ he hu (hw.variant hg f (by simp)) ?_)
              replace hs := hq.arr hs
              exact hs.2 y (by simp)
            · cases he
        · rename_i hne
          cases he
          refine .notPair hm ?_
          rintro name x rfl
          exact hne name (norm x) (by rw [norm_arr]; simp [norm])

theorem encR_ok_of_wire (h : LoadedThen D T) (hsm : SmallDef D) (hS : ∀ k s b, S k s b → L.toBin k s = .ok b) {a : Bool} {p : Ptr} {v : JVal} {b : Bytes}
    (hw : Wire D S AnyKeys a p v b) (hp : T.Valid p) : ∃ N, ∀ n ≥ N, ∃ sk, encR T L n a p (norm v) = .ok (b, sk) ∧ (a = false → sk = false) := by
  obtain ⟨N, hN⟩ := wire_enc h hS hw hp
  refine ⟨N, fun n hn => ?_⟩
  obtain ⟨sk, e⟩ := (encR_iff_enc (small_of_def h hsm) n a p v b).2 (enc_mono hn hN)
  exact ⟨sk, e, by rintro rfl; exact encR_skip _ _ _ _ _ e⟩

theorem skippedFault_run (h : LoadedThen D T) {E : Bool → Ptr → JVal → Res (Bytes × Bool)} {ms : List (Bytes × JVal)} {m : String} : ∀ {fs : List Field},
    SkippedFault D ms fs m → (∀ f ∈ fs, T.Valid f.type) → ∀ i : Nat, i + fs.length < 2147483648 →
    ∃ e : Err, e ≠ .ub ∧ e.what = m ∧ encRFields T E true (norm.goM [] ms) fs true ((i : Int) - 1) = .error e := by
  intro fs hf
  induction hf with
  | present hl =>
    intro hv i hi
    simp at hi
    refine ⟨.unexpected_field, by simp, rfl, ?_⟩
    rw [encRFields, incInt_of (by omega), bind_ok, norm_lookup, hl]
    rfl
  | @missing f fs hl hx =>
    intro hv i hi
    simp at hi
    refine ⟨.expected_field, by simp, rfl, ?_⟩
    obtain ⟨d, hd, -⟩ := hv f (by simp)
    rw [encRFields, incInt_of (by omega), bind_ok, norm_lookup, hl, hd]
    simp only [Option.map_none]
    rw [if_neg]
    intro hc
    simp only [Bool.and_true] at hc
    exact hx ((extType_iff h (hv f (by simp)) hd).2 hc)
  | @next f fs m hl hx _ ih =>
    intro hv i hi
    simp at hi
    obtain ⟨e, h1, h2, h3⟩ := ih (fun g hg => hv g (by simp [hg])) (i + 1) (by omega)
    refine ⟨e, h1, h2, ?_⟩
    obtain ⟨d, hd, -⟩ := hv f (by simp)
    have ei : ((i : Int) - 1 + 1) = ((i + 1 : Nat) : Int) - 1 := by omega
    rw [encRFields, incInt_of (by omega), bind_ok, norm_lookup, hl, hd, ei]
    simp only [Option.map_none]
    rw [if_pos (by rw [(extType_iff h (hv f (by simp)) hd).1 hx]; rfl), h3]

theorem encRFields_skip_any {E E' : Bool → Ptr → JVal → Res (Bytes × Bool)} {ms : List (Bytes × JVal)} : ∀ (fs : List Field) (pos : Int),
    encRFields T E true ms fs true pos = encRFields T E' true ms fs true pos
  | [], pos => by rw [encRFields, encRFields]
  | f :: fs, pos => by
    rw [encRFields, encRFields]
    cases incInt pos with
    | error e => rfl
    | ok q =>
      simp only [bind_ok]
      cases ms.lookup f.name with
      | some x => rfl
      | none =>
        cases T.get f.type with
        | none => rfl
        | some d => simp only [encRFields_skip_any (E := E) (E' := E') fs q]

/-- The conversions with enough fuel fail with the message. -/
def FailsR (T : Table) (L : Leaves) (a : Bool) (p : Ptr) (v : JVal) (m : String) : Prop :=
  ∃ (N : Nat) (e : Err), e ≠ .ub ∧ e.what = m ∧ ∀ n ≥ N, encR T L n a p (norm v) = .error e

theorem failsR_of {a : Bool} {p : Ptr} {v : JVal} {m : String} {N : Nat} (e : Err) (hu : e ≠ .ub) (hm : e.what = m)
    (h : ∀ n ≥ N, encR T L (n + 1) a p (norm v) = .error e) : FailsR T L a p v m := by
  refine ⟨N + 1, e, hu, hm, fun n hn => ?_⟩
  obtain ⟨k, rfl⟩ : ∃ k, n = k + 1 := ⟨n - 1, by omega⟩
  exact h k (by omega)

mutual
/-- A conversion of a document with a fault fails. -/
theorem fault_encR (h : LoadedThen D T) (hsm : SmallDef D) (hva : SmallVariants D) (hS : ∀ k s b, S k s b → L.toBin k s = .ok b)
    (hq : Inherited Q) (hB : ∀ k v m, Q v → B k v m → ∃ e, e ≠ .ub ∧ Err.what e = m ∧ leafEnc L k v = .error e) : ∀ {allow : Bool} {p : Ptr} {v : JVal} {m : String},
    Fault D S B allow p v m → T.Valid p → Q v → FailsR T L allow p v m
  | _, _, v, _, .scalar hm hb, hp, hs => by
    obtain ⟨e, h1, h2, h3⟩ := hB _ _ _ hs hb
    refine failsR_of (N := 0) e h1 h2 fun n _ => ?_
    rw [encR.eq_def]
    simp only [get_of_meaning h hp hm]
    rw [leafEnc_norm, h3]; rfl
  | _, _, _, _, .some hm hv hf, hp, hs => by
    have hg := get_of_meaning h hp hm
    obtain ⟨N, e, h1, h2, h3⟩ := fault_encR h hsm hva hS hq hB hf ((c26_resolved h).1.optional hg).1 hs
    refine failsR_of (N := N) e h1 h2 fun n hn => ?_
    rw [encR.eq_def]
    simp only [hg, norm_isNull]
    rw [if_neg (fun e => hv (isNull_iff.1 e)), h3 n hn]; rfl
  | _, _, _, _, .extension hm hf, hp, hs => by
    have hg := get_of_meaning h hp hm
    obtain ⟨N, e, h1, h2, h3⟩ := fault_encR h hsm hva hS hq hB hf ((c26_resolved h).1.extension hg).1 hs
    refine failsR_of (N := N) e h1 h2 fun n hn => ?_
    rw [encR.eq_def]
    simp only [hg]
    exact h3 n hn
  | _, _, v, _, .notObject hm hv, hp, hs => by
    refine failsR_of (N := 0) .expected_start_object (by simp) rfl fun n _ => ?_
    rw [encR.eq_def]
    simp only [get_of_meaning h hp hm]
    cases v with
    | obj ms => exact absurd rfl (hv ms)
    | arr l => rw [norm_arr]
    | _ => simp [norm]
  | _, _, _, _, .fields hm hf, hp, hs => by
    have hg := get_of_meaning h hp hm
    have := hsm _ _ hm
    replace hs := hq.obj hs
    obtain ⟨N, e, h1, h2, h3⟩ := fieldsFault_encR h hsm hva hS hq hB hf ((c26_resolved h).1.struct hg) hs 0 (by omega)
    refine failsR_of (N := N) e h1 h2 fun n hn => ?_
    rw [encR.eq_def, norm_obj]
    simp only [hg]
    exact h3 n hn
  | _, _, v, _, .notArray hm hv, hp, hs => by
    refine failsR_of (N := 0) .expected_start_array (by simp) rfl fun n _ => ?_
    rw [encR.eq_def]
    simp only [get_of_meaning h hp hm]
    cases v with
    | arr ms => exact absurd rfl (hv ms)
    | obj l => rw [norm_obj]
    | _ => simp [norm]
  | _, _, _, _, .elems hm hf, hp, hs => by
    have hg := get_of_meaning h hp hm
    replace hs := hq.arr hs
    obtain ⟨N, e, h1, h2, h3⟩ := elemsFault_encR h hsm hva hS hq hB hf ((c26_resolved h).1.array hg).1 hs.2 0 (by omega)
    refine failsR_of (N := N) e h1 h2 fun n hn => ?_
    rw [encR.eq_def, norm_arr]
    simp only [hg]
    rw [List.length_map, varuint32ToBin_eq (by omega), bind_ok, show (-1 : Int) = ((0 : Nat) : Int) - 1 by rfl, h3 n hn]
    rfl
  | _, _, v, _, .notPair hm hv, hp, hs => by
    refine failsR_of (N := 0) .expected_variant (by simp) rfl fun n _ => ?_
    rw [encR.eq_def]
    simp only [get_of_meaning h hp hm]
    split
    · rename_i name x hx
      obtain ⟨y, rfl, -⟩ := norm_pair hx
      exact absurd rfl (hv _ _)
    · rfl
  | _, _, _, _, .noAlternative hm hn, hp, hs => by
    refine failsR_of (N := 0) .invalid_type_for_variant (by simp) rfl fun n _ => ?_
    rw [encR.eq_def, norm_arr]
    simp only [get_of_meaning h hp hm, List.map_cons, List.map_nil, norm]
    rw [findAlt_none.2 hn]
  | _, _, _, _, .alternative (f := f) hm hn hf, hp, hs => by
    have hg := get_of_meaning h hp hm
    have := hva _ _ hm
    simp only [List.length_append, List.length_cons] at this
    replace hs := hq.arr hs
    obtain ⟨N, e, h1, h2, h3⟩ := fault_encR h hsm hva hS hq hB hf ((c26_resolved h).1.variant hg f (by simp)) (hs.2 _ (by simp))
    refine failsR_of (N := N) e h1 h2 fun n hn' => ?_
    rw [encR.eq_def, norm_arr]
    simp only [hg, List.map_cons, List.map_nil, norm]
    rw [findAlt_join _ 0 hn]
    simp only
    rw [varuint32ToBin_eq (by omega), bind_ok, h3 n hn']
    rfl
theorem fieldsFault_encR (h : LoadedThen D T) (hsm : SmallDef D) (hva : SmallVariants D) (hS : ∀ k s b, S k s b → L.toBin k s = .ok b)
    (hq : Inherited Q) (hB : ∀ k v m, Q v → B k v m → ∃ e, e ≠ .ub ∧ Err.what e = m ∧ leafEnc L k v = .error e) : ∀ {allow : Bool} {ms : List (Bytes × JVal)} {fs : List Field} {m : String},
    FieldsFault D S B allow ms fs m → (∀ f ∈ fs, T.Valid f.type) → (∀ k v, (k, v) ∈ ms → Q v) → ∀ i : Nat, i + fs.length < 2147483648 →
    ∃ (N : Nat) (e : Err), e ≠ .ub ∧ e.what = m ∧ ∀ n ≥ N, encRFields T (encR T L n) allow (norm.goM [] ms) fs false ((i : Int) - 1) = .error e
  | _, _, _, _, .here hl hf, hv, hs, i, hi => by
    obtain ⟨N, e, h1, h2, h3⟩ := fault_encR h hsm hva hS hq hB hf (hv _ (by simp)) (hs _ _ (lastValue_some_mem hl))
    refine ⟨N, e, h1, h2, fun n hn => ?_⟩
    simp at hi
    rw [encRFields, incInt_of (by omega), bind_ok, norm_lookup, hl]
    simp only [Option.map_some]
    rw [if_neg (by simp), h3 n hn]
    rfl
  | _, _, _, _, .later (fs := fs) hl hw hf, hv, hs, i, hi => by
    simp at hi
    have hne : fs ≠ [] := by rintro rfl; cases hf
    obtain ⟨N, e, h1, h2, h3⟩ := fieldsFault_encR h hsm hva hS hq hB hf (fun g hg => hv g (by simp [hg])) hs (i + 1) (by omega)
    obtain ⟨N', h4⟩ := encR_ok_of_wire h hsm hS hw (hv _ (by simp))
    refine ⟨max N N', e, h1, h2, fun n hn => ?_⟩
    obtain ⟨sk, h5, h6⟩ := h4 n (by omega)
    obtain rfl := h6 (by cases fs with | nil => exact absurd rfl hne | cons => simp)
    have ei : ((i : Int) - 1 + 1) = ((i + 1 : Nat) : Int) - 1 := by omega
    rw [encRFields, incInt_of (by omega), bind_ok, norm_lookup, hl, ei]
    simp only [Option.map_some]
    rw [if_neg (by simp), h5, bind_ok, h3 n (by omega)]
    rfl
  | _, _, _, _, .missing (f := f) hl hx, hv, hs, i, hi => by
    simp at hi
    refine ⟨0, .expected_field, by simp, rfl, fun n _ => ?_⟩
    obtain ⟨d, hd, -⟩ := hv f (by simp)
    rw [encRFields, incInt_of (by omega), bind_ok, norm_lookup, hl, hd]
    simp only [Option.map_none]
    rw [if_neg]
    intro hc
    simp only [Bool.and_eq_true] at hc
    exact hx hc.2 ((extType_iff h (hv f (by simp)) hd).2 hc.1)
  | _, _, _, _, .skipped (f := f) hl hx hf, hv, hs, i, hi => by
    simp at hi
    have hv' := hv f (by simp)
    obtain ⟨e, h1, h2, h3⟩ := skippedFault_run h (E := fun _ _ _ => .error .ub) hf (fun g hg => hv g (by simp [hg])) (i + 1) (by omega)
    refine ⟨0, e, h1, h2, fun n _ => ?_⟩
    obtain ⟨d, hd, -⟩ := hv f (by simp)
    have ei : ((i : Int) - 1 + 1) = ((i + 1 : Nat) : Int) - 1 := by omega
    rw [encRFields, incInt_of (by omega), bind_ok, norm_lookup, hl, hd, ei]
    simp only [Option.map_none]
    rw [if_pos (by rw [(extType_iff h hv' hd).1 hx]; rfl), encRFields_skip_any (E' := fun _ _ _ => .error .ub), h3]
theorem elemsFault_encR (h : LoadedThen D T) (hsm : SmallDef D) (hva : SmallVariants D) (hS : ∀ k s b, S k s b → L.toBin k s = .ok b)
    (hq : Inherited Q) (hB : ∀ k v m, Q v → B k v m → ∃ e, e ≠ .ub ∧ Err.what e = m ∧ leafEnc L k v = .error e) : ∀ {q : Ptr} {l : List JVal} {m : String},
    ElemsFault D S B q l m → T.Valid q → (∀ v ∈ l, Q v) → ∀ i : Nat, i + l.length < 2147483648 →
    ∃ (N : Nat) (e : Err), e ≠ .ub ∧ e.what = m ∧ ∀ n ≥ N, encRElems (encR T L n false q) (l.map norm) ((i : Int) - 1) = .error e
  | _, _, _, .here hf, hp, hs, i, hi => by
    obtain ⟨N, e, h1, h2, h3⟩ := fault_encR h hsm hva hS hq hB hf hp (hs _ (by simp))
    refine ⟨N, e, h1, h2, fun n hn => ?_⟩
    simp at hi
    rw [List.map_cons, encRElems, incInt_of (by omega), bind_ok, h3 n hn]
    rfl
  | _, _, _, .later hw hf, hp, hs, i, hi => by
    simp at hi
    obtain ⟨N, e, h1, h2, h3⟩ := elemsFault_encR h hsm hva hS hq hB hf hp (fun v hv => hs v (by simp [hv])) (i + 1) (by omega)
    obtain ⟨N', h4⟩ := encR_ok_of_wire h hsm hS hw hp
    refine ⟨max N N', e, h1, h2, fun n hn => ?_⟩
    obtain ⟨sk, h5, h6⟩ := h4 n (by omega)
    have ei : ((i : Int) - 1 + 1) = ((i + 1 : Nat) : Int) - 1 := by omega
    rw [List.map_cons, encRElems, incInt_of (by omega), bind_ok, h5, bind_ok, ei, h3 n (by omega)]
    rfl
end

theorem membersFault_of (h : LoadedThen D T) {E : Bool → Ptr → JVal → Res (List Piece × Bool)} {lvl : Nat} {allow : Bool} : ∀ (ms : List (Bytes × JVal)),
    (lvl < 128 → ∀ a p v e, E a p v = .error e → e ≠ .ub → T.Valid p → (∃ k, (k, v) ∈ ms) → OrderedFault D S B (lvl + 1) a p v e.what) →
    (lvl < 128 → ∀ a p v b sk, E a p v = .ok (b, sk) → FitsIn D S (lvl + 1) a p v) → ∀ (fs : List Field) (pos : Int) (e : Err),
    encOMembers T E lvl allow fs ms pos = .error e → e ≠ .ub → (∀ f ∈ fs, T.Valid f.type) → MembersFault D S B lvl allow fs ms e.what := by
  intro ms
  induction ms with
  | nil =>
    intro _ _ fs pos e he hu hv
    rw [encOMembers.eq_def] at he
    simp only [bind_eq_error] at he
    rcases he with he | ⟨q, hq, he⟩
    · exact absurd (incInt_error he) hu
    cases fs with
    | nil => cases he
    | cons f fs =>
      simp only at he
      cases hd : T.get f.type with
      | none => simp only [hd] at he; cases he; exact absurd rfl hu
      | some d =>
        simp only [hd] at he
        split at he
        · cases he
        · rename_i hc
          cases he
          refine .missing fun ha hh => hc ?_
          rw [ha, (extType_iff h (hv f (by simp)) hd).1 hh]; rfl
  | cons x ms ih =>
    obtain ⟨k, v⟩ := x
    intro hE hO fs pos e he hu hv
    rw [encOMembers.eq_def] at he
    simp only [bind_eq_error] at he
    rcases he with he | ⟨q, hq, he⟩
    · exact absurd (incInt_error he) hu
    cases fs with
    | nil => cases he; exact .extra
    | cons f fs =>
      simp only at he
      split at he
      · rename_i hk
        subst hk
        split at he
        · rename_i hl
          have hl' : lvl < 128 := hl
          rw [bind_eq_error] at he
          rcases he with he | ⟨⟨b, sk⟩, h1, he⟩
          · exact .here hl' (hE hl' _ _ _ _ he hu (hv f (by simp)) ⟨_, List.mem_cons_self⟩)
          · rw [bind_eq_error] at he
            rcases he with he | ⟨a, -, he⟩
            · exact .later hl' (hO hl' _ _ _ _ _ h1) (ih (fun hl a p v e h1 h2 h3 ⟨k, h4⟩ => hE hl a p v e h1 h2 h3 ⟨k, List.mem_cons_of_mem _ h4⟩) hO fs _ _ he hu
                fun g hg => hv g (by simp [hg]))
            · cases he
        · rename_i hl
          cases he
          exact .deep (Nat.le_of_lt_succ (Nat.lt_of_not_le hl))
      · rename_i hk
        cases he
        exact .other hk

theorem orderedElemsFault_of {E : JVal → Res (List Piece × Bool)} {lvl : Nat} {q : Ptr} : ∀ (l : List JVal) (pos : Int) (e : Err),
    (∀ v ∈ l, ∀ e, E v = .error e → e ≠ .ub → OrderedFault D S B lvl false q v e.what) → (∀ v ∈ l, ∀ b sk, E v = .ok (b, sk) → FitsIn D S lvl false q v) →
    encOElems E l pos = .error e → e ≠ .ub → OrderedElemsFault D S B lvl q l e.what := by
  intro l
  induction l with
  | nil =>
    intro pos e _ _ he hu
    rw [encOElems, bind_eq_error] at he
    rcases he with he | ⟨a, -, he⟩
    · exact absurd (incInt_error he) hu
    · cases he
  | cons v l ih =>
    intro pos e hE hO he hu
    rw [encOElems, bind_eq_error] at he
    rcases he with he | ⟨a, -, he⟩
    · exact absurd (incInt_error he) hu
    rw [bind_eq_error] at he
    rcases he with he | ⟨⟨b, sk⟩, h1, he⟩
    · exact .here (hE v (by simp) _ he hu)
    · rw [bind_eq_error] at he
      rcases he with he | ⟨a, -, he⟩
      · exact .later (hO v (by simp) _ _ h1) (ih _ _ (fun u hu => hE u (by simp [hu])) (fun u hu => hO u (by simp [hu])) he hu)
      · cases he

/-- An ordered conversion that fails has a fault. -/
theorem encO_fault (h : LoadedThen D T) (hsm : SmallDef D) (hdd : DistinctDef D) (hxl : ExtLastDef D) (hva : SmallVariants D)
    (hS : ∀ k s b, L.toBin k s = .ok b → S k s b) (hq : Inherited Q) (hB : ∀ k v e, Q v → leafEnc L k v = .error e → e ≠ .ub → B k v e.what) :
    ∀ (n lvl : Nat) (allow : Bool) (p : Ptr) (v : JVal) (e : Err), encO T L n lvl allow p v = .error e → e ≠ .ub → T.Valid p → Q v → lvl ≤ 128 →
    OrderedFault D S B lvl allow p v e.what := by
  have hw := (c26_resolved h).1
  have hok : ∀ n lvl, lvl ≤ 128 → ∀ a p v b sk, encO T L n lvl a p v = .ok (b, sk) → FitsIn D S lvl a p v := by
    intro n lvl hl a p v b sk he
    obtain ⟨h1, h2, h3⟩ := (encO_iff_enc (extTail_of_def h hxl) (distinct_of_def h hdd) (small_of_def h hsm) n lvl a p v _).1 ⟨b, sk, he, rfl⟩
    refine ⟨?_, _, enc_wire_ordered h (distinct_of_def h hdd) hS n h1 h2⟩
    have : maxStack = 128 := rfl
    omega
  intro n
  induction n with
  | zero => intro lvl allow p v e he hu; cases he; exact absurd rfl hu
  | succ n ih =>
    intro lvl allow p v e he hu hp hs hlv
    cases hg : T.get p with
    | none => rw [encO.eq_def] at he; simp only [hg] at he; cases he; exact absurd rfl hu
    | some d =>
      have hm := (c26_resolved h).2 _ _ hg
      rw [encO.eq_def] at he
      simp only [hg] at he
      cases d with
      | builtin k =>
        simp only [bind_eq_error] at he
        rcases he with he | ⟨a, -, he⟩
        · exact .scalar hm (hB _ _ _ hs he hu)
        · cases he
      | «alias» q => cases he; exact absurd rfl hu
      | aliasDef t => cases he; exact absurd rfl hu
      | structDef s => cases he; exact absurd rfl hu
      | variantDef s => cases he; exact absurd rfl hu
      | optional q =>
        simp only at he
        split at he
        · cases he
        · rename_i hn
          rw [bind_eq_error] at he
          rcases he with he | ⟨a, -, he⟩
          · exact .some hm (fun e => hn (isNull_iff.2 e)) (ih _ _ _ _ _ he hu (hw.optional hg).1 hs hlv)
          · cases he
      | extension q => exact .extension hm (ih _ _ _ _ _ he hu (hw.extension hg).1 hs hlv)
      | struct fs =>
        cases v with
        | obj ms =>
          simp only at he
          replace hs := hq.obj hs
          exact .members hm (membersFault_of h ms (fun hl a p v e h1 h2 h3 ⟨k, h4⟩ => ih _ a p v e h1 h2 h3 (hs k v h4) (by omega)) (fun hl => hok n _ (by omega)) fs _ _ he hu
            (hw.struct hg))
        | _ => cases he; exact .notObject hm (by simp)
      | array q =>
        cases v with
        | arr l =>
          simp only at he
          split at he
          · rename_i hl
            have hl' : lvl < 128 := hl
            rw [bind_eq_error] at he
            replace hs := hq.arr hs
            rcases he with he | ⟨a, -, he⟩
            · exact .elems hm hl' (orderedElemsFault_of l _ _ (fun v hv e h1 h2 => ih _ _ _ _ _ h1 h2 (hw.array hg).1 (hs.2 v hv) (by omega))
                (fun v hv b sk h1 => hok n _ (by omega) _ _ _ _ _ h1) he hu)
            · cases he
          · rename_i hl
            cases he
            exact .deepArray hm (Nat.le_of_lt_succ (Nat.lt_of_not_le hl))
        | _ => cases he; exact .notArray hm (by simp)
      | variant alts =>
        cases v with
        | arr l =>
          simp only at he
          split at he
          · rename_i hl
            have hl' : lvl < 128 := hl
            replace hs := hq.arr hs
            cases l with
            | nil => cases he; exact .noType hm hl'
            | cons x l =>
              cases x with
              | str name =>
                simp only at he
                split at he
                · rename_i hf
                  cases he
                  exact .noAlternative hm hl' (findAlt_none.1 hf)
                · rename_i i f hf
                  obtain ⟨pre, post, rfl, h2, rfl, h4⟩ := findAlt_split hf
                  have := hva _ _ hm
                  simp only [List.length_append, List.length_cons] at this
                  rw [varuint32ToBin_eq (by omega), bind_ok] at he
                  cases l with
                  | nil => cases he; exact .noValue hm hl' (by simp)
                  | cons x l =>
                    simp only at he
                    rw [bind_eq_error] at he
                    rcases he with he | ⟨⟨b, sk⟩, h1, he⟩
                    · exact .alternative hm hl' h2 (ih _ _ _ _ _ he hu (hw.variant hg f (by simp)) (hs.2 x (by simp)) (by omega))
                    · cases l with
                      | nil => cases he
                      | cons y l => cases he; exact .tooLong hm hl' h2 (hok n _ (by omega) _ _ _ _ _ h1)
              | _ => cases he; exact .typeNotString hm hl' (by simp)
          · rename_i hl
            cases he
            exact .deepVariant hm (Nat.le_of_lt_succ (Nat.lt_of_not_le hl))
        | _ => cases he; exact .notVariant hm (by simp)

/-- The ordered conversions with enough fuel fail with the message. -/
def FailsO (T : Table) (L : Leaves) (lvl : Nat) (a : Bool) (p : Ptr) (v : JVal) (m : String) : Prop :=
  ∃ (N : Nat) (e : Err), e ≠ .ub ∧ e.what = m ∧ ∀ n ≥ N, encO T L n lvl a p v = .error e

theorem failsO_of {lvl : Nat} {a : Bool} {p : Ptr} {v : JVal} {m : String} {N : Nat} (e : Err) (hu : e ≠ .ub) (hm : e.what = m)
    (h : ∀ n ≥ N, encO T L (n + 1) lvl a p v = .error e) : FailsO T L lvl a p v m := by
  refine ⟨N + 1, e, hu, hm, fun n hn => ?_⟩
  obtain ⟨k, rfl⟩ : ∃ k, n = k + 1 := ⟨n - 1, by omega⟩
  exact h k (by omega)

theorem encO_ok_of_fits (h : LoadedThen D T) (hsm : SmallDef D) (hdd : DistinctDef D) (hxl : ExtLastDef D) (hS : ∀ k s b, S k s b → L.toBin k s = .ok b)
    {lvl : Nat} {a : Bool} {p : Ptr} {v : JVal} (hf : FitsIn D S lvl a p v) (hp : T.Valid p) : ∃ N, ∀ n ≥ N, ∃ r, encO T L n lvl a p v = .ok r := by
  obtain ⟨hl, b, hw⟩ := hf
  obtain ⟨N, hN⟩ := wire_enc h hS hw hp
  refine ⟨N, fun n hn => ?_⟩
  obtain ⟨ps, sk, e, -⟩ := (encO_iff_enc (extTail_of_def h hxl) (distinct_of_def h hdd) (small_of_def h hsm) n lvl a p v b).2
    ⟨enc_mono hn hN, wire_inOrder h (distinct_of_def h hdd) hw hp n, .inl hl⟩
  exact ⟨_, e⟩

mutual
/-- An ordered conversion of a document with a fault fails. -/
theorem fault_encO (h : LoadedThen D T) (hsm : SmallDef D) (hdd : DistinctDef D) (hxl : ExtLastDef D) (hva : SmallVariants D) (hS : ∀ k s b, S k s b → L.toBin k s = .ok b)
    (hq : Inherited Q) (hB : ∀ k v m, Q v → B k v m → ∃ e, e ≠ .ub ∧ Err.what e = m ∧ leafEnc L k v = .error e) : ∀ {lvl : Nat} {allow : Bool} {p : Ptr} {v : JVal} {m : String},
    OrderedFault D S B lvl allow p v m → T.Valid p → Q v → FailsO T L lvl allow p v m
  | _, _, _, v, _, .scalar hm hb, hp, hs => by
    obtain ⟨e, h1, h2, h3⟩ := hB _ _ _ hs hb
    refine failsO_of (N := 0) e h1 h2 fun n _ => ?_
    rw [encO.eq_def]
    simp only [get_of_meaning h hp hm]
    rw [h3]; rfl
  | _, _, _, _, _, .some hm hv hf, hp, hs => by
    have hg := get_of_meaning h hp hm
    obtain ⟨N, e, h1, h2, h3⟩ := fault_encO h hsm hdd hxl hva hS hq hB hf ((c26_resolved h).1.optional hg).1 hs
    refine failsO_of (N := N) e h1 h2 fun n hn => ?_
    rw [encO.eq_def]
    simp only [hg]
    rw [if_neg (fun e => hv (isNull_iff.1 e)), h3 n hn]; rfl
  | _, _, _, _, _, .extension hm hf, hp, hs => by
    have hg := get_of_meaning h hp hm
    obtain ⟨N, e, h1, h2, h3⟩ := fault_encO h hsm hdd hxl hva hS hq hB hf ((c26_resolved h).1.extension hg).1 hs
    refine failsO_of (N := N) e h1 h2 fun n hn => ?_
    rw [encO.eq_def]
    simp only [hg]
    exact h3 n hn
  | _, _, _, v, _, .notObject hm hv, hp, hs => by
    refine failsO_of (N := 0) .expected_start_object (by simp) rfl fun n _ => ?_
    rw [encO.eq_def]
    simp only [get_of_meaning h hp hm]
  | _, _, _, _, _, .members hm hf, hp, hs => by
    have hg := get_of_meaning h hp hm
    have := hsm _ _ hm
    replace hs := hq.obj hs
    obtain ⟨N, e, h1, h2, h3⟩ := membersFault_encO h hsm hdd hxl hva hS hq hB hf ((c26_resolved h).1.struct hg) hs 0 (by omega)
    refine failsO_of (N := N) e h1 h2 fun n hn => ?_
    rw [encO.eq_def]
    simp only [hg]
    exact h3 n hn
  | _, _, _, v, _, .notArray hm hv, hp, hs => by
    refine failsO_of (N := 0) .expected_start_array (by simp) rfl fun n _ => ?_
    rw [encO.eq_def]
    simp only [get_of_meaning h hp hm]
  | _, _, _, _, _, .deepArray hm hl, hp, hs => by
    refine failsO_of (N := 0) .recursion_limit_reached (by simp) rfl fun n _ => ?_
    rw [encO.eq_def]
    simp only [get_of_meaning h hp hm]
    rw [if_neg (by rw [maxStack]; omega)]
  | lvl, _, _, _, _, .elems hm hl hf, hp, hs => by
    have hg := get_of_meaning h hp hm
    replace hs := hq.arr hs
    obtain ⟨N, e, h1, h2, h3⟩ := orderedElemsFault_encO h hsm hdd hxl hva hS hq hB hf ((c26_resolved h).1.array hg).1 hs.2 0 (by omega)
    refine failsO_of (N := N) e h1 h2 fun n hn => ?_
    rw [encO.eq_def]
    simp only [hg]
    rw [if_pos (by rw [maxStack]; omega), show (-1 : Int) = ((0 : Nat) : Int) - 1 by rfl, h3 n hn]
    rfl
  | _, _, _, v, _, .notVariant hm hv, hp, hs => by
    refine failsO_of (N := 0) .expected_start_array (by simp) rfl fun n _ => ?_
    rw [encO.eq_def]
    simp only [get_of_meaning h hp hm]
  | _, _, _, _, _, .deepVariant hm hl, hp, hs => by
    refine failsO_of (N := 0) .recursion_limit_reached (by simp) rfl fun n _ => ?_
    rw [encO.eq_def]
    simp only [get_of_meaning h hp hm]
    rw [if_neg (by rw [maxStack]; omega)]
  | _, _, _, _, _, .noType hm hl, hp, hs => by
    refine failsO_of (N := 0) .expected_variant (by simp) rfl fun n _ => ?_
    rw [encO.eq_def]
    simp only [get_of_meaning h hp hm]
    rw [if_pos (by rw [maxStack]; omega)]
  | _, _, _, _, _, .typeNotString (x := x) hm hl hx, hp, hs => by
    refine failsO_of (N := 0) .expected_string (by simp) rfl fun n _ => ?_
    rw [encO.eq_def]
    simp only [get_of_meaning h hp hm]
    rw [if_pos (by rw [maxStack]; omega)]
    cases x with
    | str s => exact absurd rfl (hx s)
    | _ => rfl
  | _, _, _, _, _, .noAlternative hm hl hn, hp, hs => by
    refine failsO_of (N := 0) .invalid_type_for_variant (by simp) rfl fun n _ => ?_
    rw [encO.eq_def]
    simp only [get_of_meaning h hp hm]
    rw [if_pos (by rw [maxStack]; omega), findAlt_none.2 hn]
  | _, _, _, _, _, .noValue (alts := alts) (f := f) hm hl hf, hp, hs => by
    refine failsO_of (N := 0) .expected_variant (by simp) rfl fun n _ => ?_
    rw [encO.eq_def]
    simp only [get_of_meaning h hp hm]
    rw [if_pos (by rw [maxStack]; omega)]
    have := hva _ _ hm
    cases ha : findAlt f.name alts 0 with
    | none => exact absurd rfl (findAlt_none.1 ha f hf)
    | some x =>
      obtain ⟨i, g⟩ := x
      obtain ⟨pre, post, rfl, h2, h3, h4⟩ := findAlt_split ha
      simp only [List.length_append, List.length_cons] at this
      simp only
      rw [varuint32ToBin_eq (by omega), bind_ok]
  | _, _, _, _, _, .alternative (f := f) hm hl hn hf, hp, hs => by
    have hg := get_of_meaning h hp hm
    have := hva _ _ hm
    simp only [List.length_append, List.length_cons] at this
    replace hs := hq.arr hs
    obtain ⟨N, e, h1, h2, h3⟩ := fault_encO h hsm hdd hxl hva hS hq hB hf ((c26_resolved h).1.variant hg f (by simp)) (hs.2 _ (by simp))
    refine failsO_of (N := N) e h1 h2 fun n hn' => ?_
    rw [encO.eq_def]
    simp only [hg]
    rw [if_pos (by rw [maxStack]; omega), findAlt_join _ 0 hn]
    simp only
    rw [varuint32ToBin_eq (by omega), bind_ok, h3 n hn']
    rfl
  | _, _, _, _, _, .tooLong (f := f) hm hl hn hf, hp, hs => by
    have hg := get_of_meaning h hp hm
    have := hva _ _ hm
    simp only [List.length_append, List.length_cons] at this
    obtain ⟨N, h1⟩ := encO_ok_of_fits h hsm hdd hxl hS hf ((c26_resolved h).1.variant hg f (by simp))
    refine failsO_of (N := N) .expected_variant (by simp) rfl fun n hn' => ?_
    obtain ⟨r, h2⟩ := h1 n hn'
    rw [encO.eq_def]
    simp only [hg]
    rw [if_pos (by rw [maxStack]; omega), findAlt_join _ 0 hn]
    simp only
    rw [varuint32ToBin_eq (by omega), bind_ok, h2]
    rfl
theorem membersFault_encO (h : LoadedThen D T) (hsm : SmallDef D) (hdd : DistinctDef D) (hxl : ExtLastDef D) (hva : SmallVariants D) (hS : ∀ k s b, S k s b → L.toBin k s = .ok b)
    (hq : Inherited Q) (hB : ∀ k v m, Q v → B k v m → ∃ e, e ≠ .ub ∧ Err.what e = m ∧ leafEnc L k v = .error e) : ∀ {lvl : Nat} {allow : Bool} {fs : List Field} {ms : List (Bytes × JVal)} {m : String},
    MembersFault D S B lvl allow fs ms m → (∀ f ∈ fs, T.Valid f.type) → (∀ k v, (k, v) ∈ ms → Q v) → ∀ i : Nat, i + fs.length < 2147483648 →
    ∃ (N : Nat) (e : Err), e ≠ .ub ∧ e.what = m ∧ ∀ n ≥ N, encOMembers T (encO T L n (lvl + 1)) lvl allow fs ms ((i : Int) - 1) = .error e
  | _, _, _, _, _, .here hl hf, hv, hs, i, hi => by
    obtain ⟨N, e, h1, h2, h3⟩ := fault_encO h hsm hdd hxl hva hS hq hB hf (hv _ (by simp)) (hs _ _ List.mem_cons_self)
    refine ⟨N, e, h1, h2, fun n hn => ?_⟩
    simp at hi
    rw [encOMembers.eq_def]
    simp only
    rw [incInt_of (by omega), bind_ok, if_pos trivial, if_pos (by rw [maxStack]; omega), h3 n hn]
    rfl
  | _, _, _, _, _, .later (fs := fs) hl hw hf, hv, hs, i, hi => by
    simp at hi
    obtain ⟨N, e, h1, h2, h3⟩ := membersFault_encO h hsm hdd hxl hva hS hq hB hf (fun g hg => hv g (by simp [hg])) (fun k v hm => hs k v (List.mem_cons_of_mem _ hm)) (i + 1) (by omega)
    obtain ⟨N', h4⟩ := encO_ok_of_fits h hsm hdd hxl hS hw (hv _ (by simp))
    refine ⟨max N N', e, h1, h2, fun n hn => ?_⟩
    obtain ⟨r, h5⟩ := h4 n (by omega)
    have ei : ((i : Int) - 1 + 1) = ((i + 1 : Nat) : Int) - 1 := by omega
    rw [encOMembers.eq_def]
    simp only
    rw [incInt_of (by omega), bind_ok, if_pos trivial, if_pos (by rw [maxStack]; omega), h5, bind_ok, ei, h3 n (by omega)]
    rfl
  | _, _, _, _, _, .deep hl, hv, hs, i, hi => by
    simp at hi
    refine ⟨0, .recursion_limit_reached, by simp, rfl, fun n _ => ?_⟩
    rw [encOMembers.eq_def]
    simp only
    rw [incInt_of (by omega), bind_ok, if_pos trivial, if_neg (by rw [maxStack]; omega)]
  | _, _, _, _, _, .other hk, hv, hs, i, hi => by
    simp at hi
    refine ⟨0, .expected_field, by simp, rfl, fun n _ => ?_⟩
    rw [encOMembers.eq_def]
    simp only
    rw [incInt_of (by omega), bind_ok, if_neg hk]
  | _, _, _, _, _, .extra, hv, hs, i, hi => by
    simp at hi
    refine ⟨0, .unexpected_field, by simp, rfl, fun n _ => ?_⟩
    rw [encOMembers.eq_def]
    simp only
    rw [incInt_of (by omega), bind_ok]
  | _, _, _, _, _, .missing (f := f) hx, hv, hs, i, hi => by
    simp at hi
    refine ⟨0, .expected_field, by simp, rfl, fun n _ => ?_⟩
    obtain ⟨d, hd, -⟩ := hv f (by simp)
    rw [encOMembers.eq_def]
    simp only
    rw [incInt_of (by omega), bind_ok, hd]
    simp only
    rw [if_neg]
    intro hc
    simp only [Bool.and_eq_true] at hc
    exact hx hc.2 ((extType_iff h (hv f (by simp)) hd).2 hc.1)
theorem orderedElemsFault_encO (h : LoadedThen D T) (hsm : SmallDef D) (hdd : DistinctDef D) (hxl : ExtLastDef D) (hva : SmallVariants D) (hS : ∀ k s b, S k s b → L.toBin k s = .ok b)
    (hq : Inherited Q) (hB : ∀ k v m, Q v → B k v m → ∃ e, e ≠ .ub ∧ Err.what e = m ∧ leafEnc L k v = .error e) : ∀ {lvl : Nat} {q : Ptr} {l : List JVal} {m : String},
    OrderedElemsFault D S B lvl q l m → T.Valid q → (∀ v ∈ l, Q v) → ∀ i : Nat, i + l.length < 2147483648 →
    ∃ (N : Nat) (e : Err), e ≠ .ub ∧ e.what = m ∧ ∀ n ≥ N, encOElems (encO T L n lvl false q) l ((i : Int) - 1) = .error e
  | _, _, _, _, .here hf, hp, hs, i, hi => by
    obtain ⟨N, e, h1, h2, h3⟩ := fault_encO h hsm hdd hxl hva hS hq hB hf hp (hs _ (by simp))
    refine ⟨N, e, h1, h2, fun n hn => ?_⟩
    simp at hi
    rw [encOElems, incInt_of (by omega), bind_ok, h3 n hn]
    rfl
  | _, _, _, _, .later hw hf, hp, hs, i, hi => by
    simp at hi
    obtain ⟨N, e, h1, h2, h3⟩ := orderedElemsFault_encO h hsm hdd hxl hva hS hq hB hf hp (fun v hv => hs v (by simp [hv])) (i + 1) (by omega)
    obtain ⟨N', h4⟩ := encO_ok_of_fits h hsm hdd hxl hS hw hp
    refine ⟨max N N', e, h1, h2, fun n hn => ?_⟩
    obtain ⟨r, h5⟩ := h4 n (by omega)
    have ei : ((i : Int) - 1 + 1) = ((i + 1 : Nat) : Int) - 1 := by omega
    rw [encOElems, incInt_of (by omega), bind_ok, h5, bind_ok, ei, h3 n (by omega)]
    rfl
end

end
end Abieos
