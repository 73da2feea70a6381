import Verif.Proofs.Run
import Verif.Proofs.Table
import Verif.Proofs.Ref
/-
The reorderable conversion loop computes `encR`.
-/
namespace Abieos

theorem JVal.height_go_le {v : JVal} {l : List JVal} (h : v ∈ l) : v.height ≤ JVal.height.go l := by
  induction l with
  | nil => simp at h
  | cons x l ih =>
    simp only [JVal.height.go]
    rcases List.mem_cons.1 h with rfl | h
    · omega
    · have := ih h; omega

theorem JVal.height_goM_le {k : Bytes} {v : JVal} {l : List (Bytes × JVal)} (h : (k, v) ∈ l) :
    v.height ≤ JVal.height.goM l := by
  induction l with
  | nil => simp at h
  | cons x l ih =>
    obtain ⟨k', x⟩ := x
    simp only [JVal.height.goM]
    rcases List.mem_cons.1 h with h | h
    · cases h; omega
    · have := ih h; omega

theorem lookup_mem {β : Type} {k : Bytes} {v : β} {l : List (Bytes × β)} (h : l.lookup k = some v) : (k, v) ∈ l := by
  induction l with
  | nil => simp at h
  | cons x l ih =>
    obtain ⟨k', x⟩ := x
    rw [List.lookup_cons] at h
    split at h
    · rename_i h'; simp at h' h; subst h; subst h'; simp
    · exact List.mem_cons_of_mem _ (ih h)

theorem findAlt_spec {name : Bytes} {l : List Field} {i j : Nat} {f : Field} (h : findAlt name l i = some (j, f)) :
    i ≤ j ∧ l[j - i]? = some f ∧ f.name = name := by
  induction l generalizing i with
  | nil => simp [findAlt] at h
  | cons g l ih =>
    unfold findAlt at h
    split at h
    · simp only [Option.some.injEq, Prod.mk.injEq] at h
      obtain ⟨rfl, rfl⟩ := h; simp_all
    · obtain ⟨h1, h2, h3⟩ := ih h
      refine ⟨by omega, ?_, h3⟩
      rw [show j - i = (j - (i + 1)) + 1 by omega]
      simpa using h2

theorem findAlt_mem {name : Bytes} {l : List Field} {j : Nat} {f : Field} (h : findAlt name l 0 = some (j, f)) : f ∈ l := by
  have := (findAlt_spec h).2.1
  exact List.mem_of_getElem? this

section
variable {T : Table} {L : Leaves}

/-- description of the state after a call of the reorderable conversion -/
def DoneR (out : Bytes) (K : List RFrame) (r : Bytes × Bool) (s : RState) : Prop :=
  s.out = out ++ r.1 ∧ s.stack = K ∧ s.skipped = r.2 ∧ s.pending = none

theorem runs_fieldsR {n : Nat} {ty : Ptr} {allow : Bool} {ms : List (Bytes × JVal)} {K : List RFrame}
    (hcall : ∀ k v f, (k, v) ∈ ms → T.Valid f → ∀ allow out K, Runs (stepR T L) ⟨out, v, K, false, some (allow, f)⟩
      (encR T L n allow f v) (DoneR out K)) (post pre : List Field)
    (hty : T.get ty = some (.struct (pre ++ post))) (hv : ∀ f ∈ post, T.Valid f.type) (out : Bytes) (recv : JVal) (sk : Bool) :
    Runs (stepR T L) ⟨out, recv, ⟨ty, allow, .obj ms, (pre.length : Int) - 1⟩ :: K, sk, none⟩
      (encRFields T (encR T L n) allow ms post sk ((pre.length : Int) - 1)) (DoneR out K) := by
  induction post generalizing pre out recv sk with
  | nil =>
    unfold encRFields
    cases hi : incInt ((pre.length : Int) - 1) with
    | error e => exact .fail (by simp [stepR, resumeR, hty, hi])
    | ok p =>
      obtain ⟨-, rfl⟩ := incInt_ok.1 hi
      refine .next (s' := ⟨out, recv, K, sk, none⟩) (by simp [stepR, resumeR, hty, hi]) (.pure ?_)
      simp [DoneR]
  | cons f fs ih =>
    unfold encRFields
    cases hi : incInt ((pre.length : Int) - 1) with
    | error e => exact .fail (by simp [stepR, resumeR, hty, hi])
    | ok p =>
      obtain ⟨-, hp⟩ := incInt_ok.1 hi
      have hp' : p = (pre.length : Int) := by omega
      clear hp; subst hp'
      have hne : ((pre.length : Int) ≠ ((pre ++ f :: fs).length : Int)) := by simp; omega
      have hget : (pre ++ f :: fs)[(pre.length : Int).toNat]? = some f := by simp
      obtain ⟨d, hd, -⟩ := hv f (by simp)
      have hty' : T.get ty = some (.struct ((pre ++ [f]) ++ fs)) := by simpa using hty
      have hpos : (pre.length : Int) = ((pre ++ [f]).length : Int) - 1 := by simp
      simp only [bind_ok]
      cases hl : ms.lookup f.name with
      | none =>
        simp only [hd]
        cases hx : (d.isExt && allow) with
        | false => exact .fail (by simp only [stepR, resumeR, hty, hi, bind_ok, hne, if_false, hget, hl, hd, hx]; rfl)
        | true =>
          refine .next (s' := ⟨out, recv, ⟨ty, allow, .obj ms, (pre.length : Int)⟩ :: K, true, none⟩) ?_ ?_
          · simp only [stepR, resumeR, hty, hi, bind_ok, hne, if_false, hget, hl, hd, hx]; rfl
          · have := ih (pre ++ [f]) hty' (fun g hg => hv g (List.mem_cons_of_mem _ hg)) out recv true
            rw [hpos]; simpa using this
      | some v =>
        simp only
        cases sk with
        | true => exact .fail (by simp only [stepR, resumeR, hty, hi, bind_ok, hne, if_false, hget, hl]; rfl)
        | false =>
          have he : (decide ((pre.length : Int) + 1 = ((pre ++ f :: fs).length : Int))) = fs.isEmpty := by
            cases fs <;> simp <;> omega
          refine .next (s' := ⟨out, v, ⟨ty, allow, .obj ms, (pre.length : Int)⟩ :: K, false, some (allow && fs.isEmpty, f.type)⟩) ?_ ?_
          · simp only [stepR, resumeR, hty, hi, bind_ok, hne, if_false, hget, hl, he]; rfl
          · simp only [Bool.false_eq_true, if_false]
            refine (hcall f.name v f.type (lookup_mem hl) (hv f (by simp)) _ out _).bind ?_
            rintro ⟨b, sk'⟩ ⟨o, rc, st, skp, pd⟩ ⟨h1, h2, h3, h4⟩
            simp only at h1 h2 h3 h4
            subst h1 h2 h3 h4
            have := ih (pre ++ [f]) hty' (fun g hg => hv g (List.mem_cons_of_mem _ hg)) (out ++ b) rc skp
            rw [← hpos] at this
            refine this.bind ?_
            rintro ⟨b', sk''⟩ s' ⟨h1, h2, h3, h4⟩
            exact .pure (by simp [DoneR, h1, h2, h3, h4])

theorem runs_elemsR {n : Nat} {ty p : Ptr} {K : List RFrame} (post pre : List JVal)
    (hcall : ∀ v ∈ post, ∀ out K, Runs (stepR T L) ⟨out, v, K, false, some (false, p)⟩
      (encR T L n false p v) (fun r s => DoneR out K r s ∧ r.2 = false))
    (hty : T.get ty = some (.array p)) (out : Bytes) (recv : JVal) :
    Runs (stepR T L) ⟨out, recv, ⟨ty, false, .arr (pre ++ post), (pre.length : Int) - 1⟩ :: K, false, none⟩
      (encRElems (encR T L n false p) post ((pre.length : Int) - 1)) (fun b s => DoneR out K (b, false) s) := by
  induction post generalizing pre out recv with
  | nil =>
    unfold encRElems
    cases hi : incInt ((pre.length : Int) - 1) with
    | error e => exact .fail (by simp [stepR, resumeR, hty, hi])
    | ok q =>
      obtain ⟨-, rfl⟩ := incInt_ok.1 hi
      refine .next (s' := ⟨out, recv, K, false, none⟩) (by simp [stepR, resumeR, hty, hi]) (.pure ?_)
      simp [DoneR]
  | cons v l ih =>
    unfold encRElems
    cases hi : incInt ((pre.length : Int) - 1) with
    | error e => exact .fail (by simp [stepR, resumeR, hty, hi])
    | ok q =>
      obtain ⟨-, hp⟩ := incInt_ok.1 hi
      have hp' : q = (pre.length : Int) := by omega
      clear hp; subst hp'
      have hne : ((pre.length : Int) ≠ ((pre ++ v :: l).length : Int)) := by simp; omega
      have hget : (pre ++ v :: l)[(pre.length : Int).toNat]? = some v := by simp
      have hpos : (pre.length : Int) = ((pre ++ [v]).length : Int) - 1 := by simp
      simp only [bind_ok]
      refine .next (s' := ⟨out, v, ⟨ty, false, .arr (pre ++ v :: l), (pre.length : Int)⟩ :: K, false, some (false, p)⟩) ?_ ?_
      · simp only [stepR, resumeR, hty, hi, bind_ok, hne, if_false, hget]; rfl
      · refine (hcall v (by simp) out _).bind ?_
        rintro ⟨b, sk'⟩ ⟨o, rc, st, skp, pd⟩ ⟨⟨h1, h2, h3, h4⟩, h5⟩
        simp only at h1 h2 h3 h4 h5
        subst h1 h2 h5 h3 h4
        have := ih (pre ++ [v]) (fun x hx => hcall x (List.mem_cons_of_mem _ hx)) (out ++ b) rc
        rw [← hpos] at this
        simp only [List.append_assoc, List.cons_append, List.nil_append] at this
        refine this.bind ?_
        rintro b' s' ⟨h1, h2, h3, h4⟩
        exact .pure ⟨by simp [h1], h2, h3, h4⟩

end

/-- nothing is skipped where extensions are not allowed -/
theorem encRFields_skip {T : Table} {E : Bool → Ptr → JVal → Res (Bytes × Bool)} {ms : List (Bytes × JVal)}
    (hE : ∀ p v b sk, E false p v = .ok (b, sk) → sk = false) :
    ∀ (fs : List Field) (sk : Bool) (pos : Int) (b : Bytes) (sk' : Bool),
      encRFields T E false ms fs sk pos = .ok (b, sk') → sk' = sk := by
  intro fs
  induction fs with
  | nil =>
    intro sk pos b sk' h
    unfold encRFields at h
    obtain ⟨_, _, h⟩ := bind_eq_ok.1 h
    simp at h; exact h.2.symm
  | cons f fs ih =>
    intro sk pos b sk' h
    unfold encRFields at h
    obtain ⟨pos, _, h⟩ := bind_eq_ok.1 h
    split at h
    · split at h <;> simp at h
    · split at h
      · simp at h
      · rename_i hsk
        obtain ⟨⟨b1, s1⟩, h1, h⟩ := bind_eq_ok.1 h
        obtain ⟨⟨b2, s2⟩, h2, h⟩ := bind_eq_ok.1 h
        simp only [Except.ok.injEq, Prod.mk.injEq] at h
        obtain ⟨-, rfl⟩ := h
        have e1 := hE _ _ _ _ h1
        have e2 := ih _ _ _ _ h2
        simp only [Bool.not_eq_true] at hsk
        simp_all

theorem encR_skip {T : Table} {L : Leaves} : ∀ (n : Nat) (ty : Ptr) (v : JVal) (b : Bytes) (sk : Bool),
    encR T L n false ty v = .ok (b, sk) → sk = false := by
  intro n
  induction n with
  | zero => intro ty v b sk h; simp [encR] at h
  | succ n ih =>
    intro ty v b sk h
    unfold encR at h
    split at h
    · obtain ⟨_, _, h⟩ := bind_eq_ok.1 h; simp at h; exact h.2
    · split at h
      · simp at h; exact h.2
      · obtain ⟨⟨b1, s1⟩, h1, h⟩ := bind_eq_ok.1 h
        simp at h; rw [← h.2]; exact ih _ _ _ _ h1
    · exact ih _ _ _ _ h
    · split at h
      · exact encRFields_skip (fun p v b sk => ih p v b sk) _ _ _ _ _ h
      · simp at h
    · split at h
      · obtain ⟨_, _, h⟩ := bind_eq_ok.1 h
        obtain ⟨_, _, h⟩ := bind_eq_ok.1 h
        simp at h; exact h.2
      · simp at h
    · split at h
      · split at h
        · simp at h
        · obtain ⟨_, _, h⟩ := bind_eq_ok.1 h
          obtain ⟨⟨b1, s1⟩, h1, h⟩ := bind_eq_ok.1 h
          simp at h; rw [← h.2]; exact ih _ _ _ _ h1
      · simp at h
    · simp at h

/-- The loop, started on a call for any resolved type and any value, computes `encR`. -/
theorem runs_callR {T : Table} {L : Leaves} (wf : T.WF) : ∀ (n : Nat) (v : JVal) (ty : Ptr),
    T.Valid ty → 3 * v.height + T.rank ty < n → ∀ (allow : Bool) (out : Bytes) (K : List RFrame),
    Runs (stepR T L) ⟨out, v, K, false, some (allow, ty)⟩ (encR T L n allow ty v) (DoneR out K) := by
  intro n
  induction n with
  | zero => intro v ty _ h; omega
  | succ n ih =>
    intro v ty hval hn allow out K
    obtain ⟨d, hd, ht⟩ := hval
    unfold encR
    cases d with
    | aliasDef _ => simp [TData.isTarget] at ht
    | structDef _ => simp [TData.isTarget] at ht
    | variantDef _ => simp [TData.isTarget] at ht
    | alias _ => simp [TData.isTarget] at ht
    | builtin b =>
      simp only [hd]
      cases hx : leafEnc L b v with
      | error e => exact .fail (by simp [stepR, startR, hd, hx])
      | ok x =>
        refine .next (s' := ⟨out ++ x, v, K, false, none⟩) (by simp [stepR, startR, hd, hx]) (.pure ?_)
        simp [DoneR]
    | optional p =>
      simp only [hd]
      obtain ⟨hp, hr, hr'⟩ := wf.optional hd
      cases hx : v.isNull with
      | true =>
        refine .next (s' := ⟨out ++ [0], v, K, false, none⟩) (by simp [stepR, startR, hd, hx]) (.pure ?_)
        simp [DoneR]
      | false =>
        refine .next (s' := ⟨out ++ [1], v, K, false, some (allow, p)⟩) (by simp [stepR, startR, hd, hx]) ?_
        refine (ih v p hp (by omega) allow _ K).bind ?_
        rintro ⟨b, sk'⟩ s' ⟨h1, h2, h3, h4⟩
        exact .pure (by simp_all [DoneR])
    | extension p =>
      simp only [hd]
      obtain ⟨hp, hr, hr'⟩ := wf.extension hd
      refine .next (s' := ⟨out, v, K, false, some (allow, p)⟩) (by simp [stepR, startR, hd]) ?_
      exact ih v p hp (by omega) allow _ K
    | struct fs =>
      simp only [hd]
      cases v with
      | obj ms =>
        refine .next (s' := ⟨out, .obj ms, ⟨ty, allow, .obj ms, -1⟩ :: K, false, none⟩) (by simp [stepR, startR, hd]) ?_
        refine runs_fieldsR (pre := []) ?_ fs (by simpa using hd) (wf.struct hd) out _ false
        intro k v f hm hf allow out K
        have h1 := JVal.height_goM_le hm
        have h2 := T.rank_le f
        simp only [JVal.height] at hn
        exact ih v f hf (by omega) allow out K
      | null => exact .fail (by simp [stepR, startR, hd])
      | bool => exact .fail (by simp [stepR, startR, hd])
      | str => exact .fail (by simp [stepR, startR, hd])
      | arr => exact .fail (by simp [stepR, startR, hd])
    | array p =>
      simp only [hd]
      obtain ⟨hp, hr, hr'⟩ := wf.array hd
      cases v with
      | arr l =>
        simp only
        cases hc : varuint32ToBin l.length with
        | error e => exact .fail (by simp [stepR, startR, hd, hc])
        | ok c =>
          refine .next (s' := ⟨out ++ c, .arr l, ⟨ty, false, .arr l, -1⟩ :: K, false, none⟩) (by simp [stepR, startR, hd, hc]) ?_
          simp only [bind_ok]
          refine (runs_elemsR (pre := []) l ?_ hd (out ++ c) (.arr l)).bind ?_
          · intro v hm out K
            have h1 := JVal.height_go_le hm
            simp only [JVal.height] at hn
            have := ih v p hp (by omega) false out K
            exact this.mono' fun r s' hr hd => ⟨hd, encR_skip n p v r.1 r.2 hr⟩
          · rintro b s' ⟨h1, h2, h3, h4⟩
            exact .pure (by simp_all [DoneR])
      | null => exact .fail (by simp [stepR, startR, hd])
      | bool => exact .fail (by simp [stepR, startR, hd])
      | str => exact .fail (by simp [stepR, startR, hd])
      | obj => exact .fail (by simp [stepR, startR, hd])
    | variant alts =>
      simp only [hd]
      split
      · rename_i name x
        refine .next (s' := ⟨out, .arr [.str name, x], ⟨ty, allow, .arr [.str name, x], 0⟩ :: K, false, none⟩) (by simp [stepR, startR, hd]) ?_
        cases hf : findAlt name alts 0 with
        | none => exact .fail (by simp [stepR, resumeR, hd, hf])
        | some r =>
          obtain ⟨i, f⟩ := r
          simp only
          cases hc : varuint32ToBin i with
          | error e => exact .fail (by simp [stepR, resumeR, hd, hf, hc])
          | ok c =>
            simp only [bind_ok]
            refine .next (s' := ⟨out ++ c, x, ⟨ty, allow, .arr [.str name, x], 1⟩ :: K, false, some (allow, f.type)⟩)
              (by simp [stepR, resumeR, hd, hf, hc]) ?_
            have hh : x.height < (JVal.arr [.str name, x]).height := by simp [JVal.height, JVal.height.go]
            have hr := T.rank_le f.type
            refine (ih x f.type (wf.variant hd f (findAlt_mem hf)) (by omega) allow (out ++ c) _).bind ?_
            rintro ⟨b, sk⟩ ⟨o, rc, st, skp, pd⟩ ⟨h1, h2, h3, h4⟩
            simp only at h1 h2 h3 h4
            subst h1 h2 h3 h4
            refine .next (s' := ⟨out ++ c ++ b, rc, K, skp, none⟩) (by simp [stepR, resumeR, hd]) (.pure ?_)
            simp [DoneR]
      · rename_i hne
        refine .fail ?_
        simp only [stepR, startR, hd]
        rfl

/-- The reorderable conversion of a jvalue, as a function. -/
theorem jvalueToBin_iff {T : Table} {L : Leaves} (wf : T.WF) {ty : Ptr} (hty : T.Valid ty) (v : JVal) (n : Nat)
    (hn : 3 * v.height + 2 < n) (r : Res Bytes) :
    JvalueToBin T L ty v r ↔ r = (encR T L n true ty v).map (·.1) := by
  have hr := T.rank_le ty
  refine (runs_callR wf n v ty hty (by omega) true [] []).ends_iff (g := (·.1)) ?_ r
  rintro ⟨b, sk⟩ ⟨o, rc, st, skp, pd⟩ ⟨h1, h2, h3, h4⟩
  simp only at h1 h2 h3 h4
  subst h1 h2 h3 h4
  simp [stepR]

end Abieos
