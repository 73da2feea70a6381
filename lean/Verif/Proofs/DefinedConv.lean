import Verif.Proofs.Defined
import Verif.Proofs.LeafPrefix
/-
The conversion loops have no undefined behaviour of their own.
-/
namespace Abieos
open Spec

/-- Encoding a scalar is never undefined. -/
def LeafDefined (L : Leaves) : Prop := ∀ k s, Defined (L.toBin k s)

theorem leafDefined_builtins (F : Floats) : LeafDefined (builtins F) := defined_builtinToBin F

theorem shortArrays_go {l : List JVal} : ShortArrays.go l ↔ ∀ v ∈ l, ShortArrays v := by
  induction l with
  | nil => simp [ShortArrays.go]
  | cons v l ih => simp [ShortArrays.go, ih]

theorem shortArrays_goM {l : List (Bytes × JVal)} : ShortArrays.goM l ↔ ∀ k v, (k, v) ∈ l → ShortArrays v := by
  induction l with
  | nil => simp [ShortArrays.goM]
  | cons x l ih =>
    obtain ⟨k, v⟩ := x
    simp only [ShortArrays.goM, ih, List.mem_cons]
    constructor
    · rintro ⟨h1, h2⟩ k' v' (h | h)
      · cases h; exact h1
      · exact h2 _ _ h
    · intro h
      exact ⟨h k v (.inl rfl), fun k' v' h' => h k' v' (.inr h')⟩

theorem defined_leafEnc {L : Leaves} (hL : LeafDefined L) (k : Builtin) (v : JVal) : Defined (leafEnc L k v) := by
  cases v with
  | bool => exact hL _ _
  | str => exact hL _ _
  | null => exact .error (by cases k <;> decide)
  | arr => exact .error (by cases k <;> decide)
  | obj => exact .error (by cases k <;> decide)

theorem incInt_eq {p : Int} (h : p < 2147483647) : incInt p = .ok (p + 1) := by
  unfold incInt; rw [if_neg (by omega)]

theorem defined_encRFields {T : Table} {E : Bool → Ptr → JVal → Res (Bytes × Bool)} {allow : Bool} {ms : List (Bytes × JVal)}
    (hE : ∀ a p v, T.Valid p → (∃ k, (k, v) ∈ ms) → Defined (E a p v)) :
    ∀ (fs : List Field) (sk : Bool) (pos : Int), (∀ f ∈ fs, T.Valid f.type) → pos + fs.length < 2147483647 →
    Defined (encRFields T E allow ms fs sk pos)
  | [], sk, pos, _, hp => by
    rw [encRFields, incInt_eq (by simpa using hp)]; exact .ok _
  | f :: fs, sk, pos, hv, hp => by
    simp only [List.length_cons] at hp
    rw [encRFields, incInt_eq (by omega), bind_ok]
    have ih := fun sk => defined_encRFields (allow := allow) hE fs sk (pos + 1) (fun g hg => hv g (by simp [hg])) (by omega)
    cases hl : ms.lookup f.name with
    | none =>
      obtain ⟨d, hd, -⟩ := hv f (by simp)
      simp only [hd]
      split
      · exact ih _
      · exact .error (by decide)
    | some v =>
      simp only
      split
      · exact .error (by decide)
      · exact (hE _ _ _ (hv f (by simp)) ⟨f.name, lookup_mem hl⟩).bind fun _ => (ih _).bind fun _ => .ok _

theorem defined_encRElems {E : JVal → Res (Bytes × Bool)} :
    ∀ (l : List JVal) (pos : Int), (∀ v ∈ l, Defined (E v)) → pos + l.length < 2147483647 → Defined (encRElems E l pos)
  | [], pos, _, hp => by
    rw [encRElems, incInt_eq (by simpa using hp)]; exact .ok _
  | v :: l, pos, hv, hp => by
    simp only [List.length_cons] at hp
    rw [encRElems, incInt_eq (by omega), bind_ok]
    exact (hv v (by simp)).bind fun _ => (defined_encRElems l _ (fun u hu => hv u (by simp [hu])) (by omega)).bind fun _ => .ok _

theorem defined_encR {T : Table} {L : Leaves} (wf : T.WF) (hsm : Small T) (hL : LeafDefined L) : ∀ (n : Nat) (v : JVal) (ty : Ptr),
    T.Valid ty → ShortArrays v → 3 * v.height + T.rank ty < n → ∀ (allow : Bool), Defined (encR T L n allow ty v) := by
  intro n
  induction n with
  | zero => intro v ty _ _ h; omega
  | succ n ih =>
    intro v ty hval hs hn allow
    obtain ⟨d, hd, ht⟩ := hval
    unfold encR
    cases d with
    | aliasDef _ => simp [TData.isTarget] at ht
    | structDef _ => simp [TData.isTarget] at ht
    | variantDef _ => simp [TData.isTarget] at ht
    | «alias» _ => simp [TData.isTarget] at ht
    | builtin b =>
      simp only [hd]
      exact (defined_leafEnc hL b v).bind fun _ => .ok _
    | optional p =>
      simp only [hd]
      obtain ⟨hp, hr, hr'⟩ := wf.optional hd
      split
      · exact .ok _
      · exact (ih v p hp hs (by omega) allow).bind fun _ => .ok _
    | extension p =>
      simp only [hd]
      obtain ⟨hp, hr, hr'⟩ := wf.extension hd
      exact ih v p hp hs (by omega) allow
    | struct fs =>
      simp only [hd]
      cases v with
      | obj ms =>
        simp only
        refine defined_encRFields (fun a p v hp hm => ?_) fs false (-1) (wf.struct hd) (by have := hsm _ _ hd; omega)
        obtain ⟨k, hm⟩ := hm
        have h1 := JVal.height_goM_le hm
        simp only [JVal.height] at hn
        have h2 := T.rank_le p
        exact ih v p hp (shortArrays_goM.1 hs k v hm) (by omega) a
      | _ => exact .error (by decide)
    | array p =>
      simp only [hd]
      obtain ⟨hp, hr, hr'⟩ := wf.array hd
      cases v with
      | arr l =>
        simp only
        refine (defined_varuintToBin _).bind fun _ => ?_
        refine (defined_encRElems l (-1) (fun v hv => ?_) (by have := hs.1; omega)).bind fun _ => .ok _
        have h1 := JVal.height_go_le hv
        simp only [JVal.height] at hn
        exact ih v p hp (shortArrays_go.1 hs.2 v hv) (by omega) false
      | _ => exact .error (by decide)
    | variant alts =>
      simp only [hd]
      split
      · rename_i name x
        split
        · exact .error (by decide)
        · rename_i i f hf
          refine (defined_varuintToBin _).bind fun _ => ?_
          have hx : x ∈ [JVal.str name, x] := by simp
          have h1 := JVal.height_go_le hx
          simp only [JVal.height] at hn
          have h2 := T.rank_le f.type
          exact (ih x f.type (wf.variant hd f (findAlt_mem hf)) (shortArrays_go.1 hs.2 x hx) (by omega) allow).bind fun _ => .ok _
      · exact .error (by decide)

theorem defined_encOMembers {T : Table} {E : Bool → Ptr → JVal → Res (List Piece × Bool)} {lvl : Nat} {allow : Bool} :
    ∀ (ms : List (Bytes × JVal)) (fs : List Field) (pos : Int), (∀ a p k v, T.Valid p → (k, v) ∈ ms → Defined (E a p v)) →
    (∀ f ∈ fs, T.Valid f.type) → pos + fs.length < 2147483647 → Defined (encOMembers T E lvl allow fs ms pos)
  | [], fs, pos, _, hv, hp => by
    rw [encOMembers.eq_def]
    simp only
    rw [incInt_eq (by omega), bind_ok]
    cases fs with
    | nil => exact .ok _
    | cons f fs =>
      obtain ⟨d, hd, -⟩ := hv f (by simp)
      simp only [hd]
      split
      · exact .ok _
      · exact .error (by decide)
  | (k, v) :: ms, fs, pos, hE, hv, hp => by
    rw [encOMembers, incInt_eq (by omega), bind_ok]
    cases fs with
    | nil => exact .error (by decide)
    | cons f fs =>
      simp only [List.length_cons] at hp
      simp only
      split
      · split
        · refine (hE _ _ k v (hv f (by simp)) (by simp)).bind fun _ => ?_
          refine (defined_encOMembers ms fs (pos + 1) (fun a p k v hp hm => hE a p k v hp (by simp [hm])) (fun g hg => hv g (by simp [hg]))
            (by omega)).bind fun _ => .ok _
        · exact .error (by decide)
      · exact .error (by decide)

theorem defined_encOElems {E : JVal → Res (List Piece × Bool)} :
    ∀ (l : List JVal) (pos : Int), (∀ v ∈ l, Defined (E v)) → pos + l.length < 2147483647 → Defined (encOElems E l pos)
  | [], pos, _, hp => by
    rw [encOElems, incInt_eq (by simpa using hp)]; exact .ok _
  | v :: l, pos, hv, hp => by
    simp only [List.length_cons] at hp
    rw [encOElems, incInt_eq (by omega), bind_ok]
    exact (hv v (by simp)).bind fun _ => (defined_encOElems l _ (fun u hu => hv u (by simp [hu])) (by omega)).bind fun _ => .ok _

theorem defined_encO {T : Table} {L : Leaves} (wf : T.WF) (hsm : Small T) (hL : LeafDefined L) : ∀ (n : Nat) (v : JVal) (ty : Ptr),
    T.Valid ty → ShortArrays v → 3 * v.height + T.rank ty < n → ∀ (lvl : Nat) (allow : Bool), Defined (encO T L n lvl allow ty v) := by
  intro n
  induction n with
  | zero => intro v ty _ _ h; omega
  | succ n ih =>
    intro v ty hval hs hn lvl allow
    obtain ⟨d, hd, ht⟩ := hval
    unfold encO
    cases d with
    | aliasDef _ => simp [TData.isTarget] at ht
    | structDef _ => simp [TData.isTarget] at ht
    | variantDef _ => simp [TData.isTarget] at ht
    | «alias» _ => simp [TData.isTarget] at ht
    | builtin b =>
      simp only [hd]
      exact (defined_leafEnc hL b v).bind fun _ => .ok _
    | optional p =>
      simp only [hd]
      obtain ⟨hp, hr, hr'⟩ := wf.optional hd
      split
      · exact .ok _
      · exact (ih v p hp hs (by omega) lvl allow).bind fun _ => .ok _
    | extension p =>
      simp only [hd]
      obtain ⟨hp, hr, hr'⟩ := wf.extension hd
      exact ih v p hp hs (by omega) lvl allow
    | struct fs =>
      simp only [hd]
      cases v with
      | obj ms =>
        simp only
        refine defined_encOMembers ms fs (-1) (fun a p k v hp hm => ?_) (wf.struct hd) (by have := hsm _ _ hd; omega)
        have h1 := JVal.height_goM_le hm
        simp only [JVal.height] at hn
        have h2 := T.rank_le p
        exact ih v p hp (shortArrays_goM.1 hs k v hm) (by omega) _ a
      | _ => exact .error (by decide)
    | array p =>
      simp only [hd]
      obtain ⟨hp, hr, hr'⟩ := wf.array hd
      cases v with
      | arr l =>
        simp only
        split
        · refine (defined_encOElems l (-1) (fun v hv => ?_) (by have := hs.1; omega)).bind fun _ => .ok _
          have h1 := JVal.height_go_le hv
          simp only [JVal.height] at hn
          exact ih v p hp (shortArrays_go.1 hs.2 v hv) (by omega) _ false
        · exact .error (by decide)
      | _ => exact .error (by decide)
    | variant alts =>
      simp only [hd]
      cases v with
      | arr l =>
        simp only
        split
        · split
          · exact .error (by decide)
          · rename_i name l
            split
            · exact .error (by decide)
            · rename_i i f hf
              refine (defined_varuintToBin _).bind fun _ => ?_
              split
              · exact .error (by decide)
              · rename_i x l
                have hx : x ∈ JVal.str name :: x :: l := by simp
                have h1 := JVal.height_go_le hx
                simp only [JVal.height] at hn
                have h2 := T.rank_le f.type
                refine (ih x f.type (wf.variant hd f (findAlt_mem hf)) (shortArrays_go.1 hs.2 x hx) (by omega) _ allow).bind fun _ => ?_
                split
                · exact .ok _
                · exact .error (by decide)
          · exact .error (by decide)
        · exact .error (by decide)
      | _ => exact .error (by decide)

theorem shortArrays_norm : ∀ v, ShortArrays v → ShortArrays (norm v) := by
  refine JVal.ind (by simp [norm, ShortArrays]) (by simp [norm, ShortArrays]) (by simp [norm, ShortArrays]) ?_ ?_
  · intro l ih h
    rw [norm_arr]
    refine ⟨by simpa using h.1, shortArrays_go.2 ?_⟩
    intro v hv
    obtain ⟨u, hu, rfl⟩ := List.mem_map.1 hv
    exact ih u hu (shortArrays_go.1 h.2 u hu)
  · intro l ih h
    rw [norm_obj]
    refine shortArrays_goM.2 ?_
    intro k v hv
    rcases norm_goM_mem hv with h' | ⟨x, hx, rfl⟩
    · simp at h'
    · exact ih k x hx (shortArrays_goM.1 h k x hx)

/-! ## Decoding -/

/-- Where decoding may be undefined: a suffix of the input and a type inside the type asked for. -/
def BadAt (T : Table) (B : Builtin → Bytes → Prop) (ty : Ptr) (bin : Bytes) : Prop :=
  ∃ ty' pre s, Inside T ty ty' ∧ bin = pre ++ s ∧
    ((∃ k, T.get ty' = some (.builtin k) ∧ B k s) ∨ ((∃ p, T.get ty' = some (.array p)) ∧ HugeSize s))

theorem BadAt.mono {T : Table} {B : Builtin → Bytes → Prop} {ty p : Ptr} {bin pre : Bytes} (h : BadAt T B p bin)
    (hi : ∀ q, Inside T p q → Inside T ty q) : BadAt T B ty (pre ++ bin) := by
  obtain ⟨ty', pr, s, h1, rfl, h2⟩ := h
  exact ⟨ty', pre ++ pr, s, hi _ h1, by simp, h2⟩

theorem decFields_ub {T : Table} {B : Builtin → Bytes → Prop} {E : Bool → Ptr → Bytes → Res (Bytes × Bytes)} {allow : Bool} {ty : Ptr}
    (hE : ∀ a p s, T.Valid p → E a p s = .error .ub → BadAt T B p s)
    (hP : ∀ a p s t r, E a p s = .ok (t, r) → ∃ q, s = q ++ r) :
    ∀ (fs : List Field) (pos : Int) (s : Bytes), (∀ f ∈ fs, T.Valid f.type) → (∀ f ∈ fs, ∀ q, Inside T f.type q → Inside T ty q) →
    pos + fs.length < 2147483647 → decFields T E allow fs pos s = .error .ub → BadAt T B ty s
  | [], pos, s, _, _, hp, h => by
    rw [decFields, incInt_eq (by simpa using hp)] at h; cases h
  | f :: fs, pos, s, hv, hi, hp, h => by
    simp only [List.length_cons] at hp
    rw [decFields, incInt_eq (by omega), bind_ok] at h
    obtain ⟨d, hd, -⟩ := hv f (by simp)
    simp only [hd] at h
    have ih := fun s => decFields_ub (B := B) (ty := ty) (allow := allow) hE hP fs (pos + 1) s (fun g hg => hv g (by simp [hg]))
      (fun g hg => hi g (by simp [hg])) (by omega)
    split at h
    · exact ih _ h
    · cases he : E (allow && fs.isEmpty) f.type s with
      | error e =>
        rw [he] at h
        cases h
        exact (hE _ _ _ (hv f (by simp)) he).mono (pre := []) (hi f (by simp))
      | ok x =>
        obtain ⟨t, r⟩ := x
        rw [he, bind_ok] at h
        simp only at h
        obtain ⟨q, rfl⟩ := hP _ _ _ _ _ he
        cases hf : decFields T E allow fs (pos + 1) r with
        | error e =>
          rw [hf] at h
          cases h
          exact (ih _ hf).mono fun _ h => h
        | ok y => rw [hf] at h; cases h

theorem decElems_ub {T : Table} {B : Builtin → Bytes → Prop} {E : Bytes → Res (Bytes × Bytes)} {ty : Ptr}
    (hE : ∀ s, E s = .error .ub → BadAt T B ty s) (hP : ∀ s t r, E s = .ok (t, r) → ∃ q, s = q ++ r) :
    ∀ (k : Nat) (pos : Int) (s : Bytes), pos + k < 2147483647 → decElems E k pos s = .error .ub → BadAt T B ty s
  | 0, pos, s, hp, h => by
    rw [decElems, incInt_eq (by simpa using hp)] at h; cases h
  | k + 1, pos, s, hp, h => by
    rw [decElems, incInt_eq (by omega), bind_ok] at h
    cases he : E s with
    | error e =>
      rw [he] at h
      cases h
      exact hE _ he
    | ok x =>
      obtain ⟨t, r⟩ := x
      rw [he, bind_ok] at h
      simp only at h
      obtain ⟨q, rfl⟩ := hP _ _ _ he
      cases hf : decElems E k (pos + 1) r with
      | error e =>
        rw [hf] at h
        cases h
        exact (decElems_ub hE hP k _ _ (by omega) hf).mono fun _ h => h
      | ok y => rw [hf] at h; cases h

theorem dec_ub {T : Table} {L : Leaves} {B : Builtin → Bytes → Prop} (wf : T.WF) (hsm : Small T) (hL : LeafPrefix L)
    (hB : ∀ k s, L.fromBin k s = .error .ub → B k s) : ∀ (n : Nat) (ty : Ptr) (lvl : Nat),
    T.Valid ty → lvl ≤ maxStack → 3 * (maxStack - lvl) + T.rank ty < n → ∀ (allow : Bool) (bin : Bytes),
    dec T L n lvl allow ty bin = .error .ub → BadAt T B ty bin := by
  intro n
  induction n with
  | zero => intro v ty _ _ h; omega
  | succ n ih =>
    intro ty lvl hval hK hn allow bin h
    obtain ⟨d, hd, ht⟩ := hval
    have hP : ∀ lvl a p s t r, dec T L n lvl a p s = .ok (t, r) → ∃ q, s = q ++ r := fun lvl a p s t r h => by
      obtain ⟨q, hq, -⟩ := prefix_dec hL n lvl a p s t r h
      exact ⟨q, hq⟩
    unfold dec at h
    cases d with
    | aliasDef _ => simp [TData.isTarget] at ht
    | structDef _ => simp [TData.isTarget] at ht
    | variantDef _ => simp [TData.isTarget] at ht
    | «alias» _ => simp [TData.isTarget] at ht
    | builtin b =>
      simp only [hd] at h
      exact ⟨ty, [], bin, .here _, rfl, .inl ⟨b, hd, hB _ _ h⟩⟩
    | optional p =>
      simp only [hd] at h
      obtain ⟨hp, hr, hr'⟩ := wf.optional hd
      obtain ⟨⟨c, r⟩, h1, g⟩ := bind_ub h (defined_readU8 _)
      clear h
      obtain ⟨q, rfl, -⟩ := prefix_readU8 _ _ _ h1
      simp only at g
      split at g
      all_goals rename' g => h
      · exact (ih p lvl hp hK (by omega) allow _ h).mono fun _ => .optional hd
      · cases h
    | extension p =>
      simp only [hd] at h
      obtain ⟨hp, hr, hr'⟩ := wf.extension hd
      exact (ih p lvl hp hK (by omega) allow _ h).mono (pre := []) fun _ => .extension hd
    | struct fs =>
      simp only [hd] at h
      split at h
      · rename_i hl
        have : decFields T (dec T L n (lvl + 1)) allow fs (-1) bin = .error .ub := by
          cases hf : decFields T (dec T L n (lvl + 1)) allow fs (-1) bin with
          | error e => rw [hf] at h; cases h; rfl
          | ok x => rw [hf] at h; cases h
        refine decFields_ub (fun a p s hp he => ?_) (hP _) fs (-1) bin (wf.struct hd) (fun f hf q => .field hd hf)
          (by have := hsm _ _ hd; omega) this
        have h2 := T.rank_le p
        exact ih p (lvl + 1) hp hl (by omega) a s he
      · cases h
    | array p =>
      simp only [hd] at h
      obtain ⟨hp, hr, hr'⟩ := wf.array hd
      obtain ⟨⟨c, r⟩, h1, h⟩ := bind_ub h (defined_varuint _)
      obtain ⟨q, hq, -⟩ := prefix_varuint32 _ _ _ h1
      simp only at h
      split at h
      · rename_i hl
        by_cases hc : 2147483648 ≤ c
        · exact ⟨ty, [], bin, .here _, rfl, .inr ⟨⟨p, hd⟩, c, r, h1, hc⟩⟩
        · have : decElems (dec T L n (lvl + 1) false p) c (-1) r = .error .ub := by
            cases hf : decElems (dec T L n (lvl + 1) false p) c (-1) r with
            | error e => rw [hf] at h; cases h; rfl
            | ok x => rw [hf] at h; cases h
          rw [hq]
          refine (decElems_ub (ty := p) (fun s he => ih p (lvl + 1) hp hl (by omega) false s he) (fun s t r => hP _ _ _ _ _ _) c (-1) r
            (by omega) this).mono fun _ => .elem hd
      · cases h
    | variant alts =>
      simp only [hd] at h
      split at h
      · rename_i hl
        obtain ⟨⟨c, r⟩, h1, h⟩ := bind_ub h (defined_varuint _)
        obtain ⟨q, hq, -⟩ := prefix_varuint32 _ _ _ h1
        cases hf : alts[c]? with
        | none => rw [hf] at h; cases h
        | some f =>
          rw [hf] at h
          simp only at h
          have hm := List.mem_of_getElem? hf
          have h2 := T.rank_le f.type
          have : dec T L n (lvl + 1) allow f.type r = .error .ub := by
            cases he : dec T L n (lvl + 1) allow f.type r with
            | error e => rw [he] at h; cases h; rfl
            | ok x => rw [he] at h; cases h
          rw [hq]
          exact (ih f.type (lvl + 1) (wf.variant hd f hm) hl (by omega) allow r this).mono fun _ => .alt hd hm
      · cases h

/-- Elements that take no input: the position overflows if there are 2^31 or more. -/
theorem decElems_overflow {E : Bytes → Res (Bytes × Bytes)} {s t : Bytes} (hE : E s = .ok (t, s)) :
    ∀ (k : Nat) (pos : Int), pos ≤ 2147483647 → 2147483647 ≤ pos + k → decElems E k pos s = .error .ub
  | 0, pos, h1, h2 => by
    obtain rfl : pos = 2147483647 := by omega
    rfl
  | k + 1, pos, h1, h2 => by
    rw [decElems]
    by_cases hp : pos = 2147483647
    · subst hp; rfl
    · rw [incInt_eq (by omega), bind_ok, hE, bind_ok]
      simp only
      rw [decElems_overflow hE k (pos + 1) (by omega) (by omega)]
      rfl

end Abieos
