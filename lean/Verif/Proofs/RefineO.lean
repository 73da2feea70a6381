import Verif.Proofs.RefineR
/-
The ordered conversion loop computes `encO`.
-/
namespace Abieos

/-- the bytes written directly -/
def rawOf : List Piece → Bytes
  | [] => []
  | .raw b :: ps => b ++ rawOf ps
  | .size _ :: ps => rawOf ps

/-- the recorded size insertions, when `off` bytes were written before -/
def insOf (off : Nat) : List Piece → List (Nat × Nat)
  | [] => []
  | .raw b :: ps => insOf (off + b.length) ps
  | .size n :: ps => (off, n) :: insOf off ps

/-- the final bytes -/
def flat : List Piece → Bytes
  | [] => []
  | .raw b :: ps => b ++ flat ps
  | .size n :: ps => varuintLoop n ++ flat ps

theorem rawOf_append (p q : List Piece) : rawOf (p ++ q) = rawOf p ++ rawOf q := by
  induction p with
  | nil => rfl
  | cons x p ih => cases x <;> simp [rawOf, ih]

theorem flat_append (p q : List Piece) : flat (p ++ q) = flat p ++ flat q := by
  induction p with
  | nil => rfl
  | cons x p ih => cases x <;> simp [flat, ih]

theorem insOf_append (off : Nat) (p q : List Piece) : insOf off (p ++ q) = insOf off p ++ insOf (off + (rawOf p).length) q := by
  induction p generalizing off with
  | nil => rfl
  | cons x p ih => cases x <;> simp [insOf, rawOf, ih, Nat.add_assoc]

theorem splice_eq (A : Bytes) (pos : Nat) (h : pos ≤ A.length) (ps : List Piece) :
    splice (A ++ rawOf ps) pos (insOf A.length ps) = A.drop pos ++ flat ps := by
  induction ps generalizing A pos with
  | nil => simp [rawOf, insOf, flat, splice]
  | cons x ps ih =>
    cases x with
    | raw b =>
      have := ih (A ++ b) pos (by simp; omega)
      simp only [rawOf, insOf, flat]
      rw [List.length_append] at this
      rw [← List.append_assoc, this, List.drop_append_of_le_length h, List.append_assoc]
    | size n =>
      have := ih A A.length (by omega)
      simp only [rawOf, insOf, flat, splice]
      rw [this]
      simp [List.append_assoc]

/-- nothing is skipped where extensions are not allowed -/
theorem encOMembers_skip {T : Table} {E : Bool → Ptr → JVal → Res (List Piece × Bool)} {lvl : Nat}
    (hE : ∀ p v b sk, E false p v = .ok (b, sk) → sk = false) :
    ∀ (ms : List (Bytes × JVal)) (fs : List Field) (pos : Int) (b : List Piece) (sk' : Bool),
      encOMembers T E lvl false fs ms pos = .ok (b, sk') → sk' = false := by
  intro ms
  induction ms with
  | nil =>
    intro fs pos b sk' h
    unfold encOMembers at h
    obtain ⟨_, _, h⟩ := bind_eq_ok.1 h
    split at h
    · simp at h; exact h.2
    · split at h <;> simp at h
  | cons m ms ih =>
    obtain ⟨k, v⟩ := m
    intro fs pos b sk' h
    unfold encOMembers at h
    obtain ⟨pos, _, h⟩ := bind_eq_ok.1 h
    split at h
    · simp at h
    · split at h
      · split at h
        · obtain ⟨⟨b1, s1⟩, h1, h⟩ := bind_eq_ok.1 h
          obtain ⟨⟨b2, s2⟩, h2, h⟩ := bind_eq_ok.1 h
          have e1 := hE _ _ _ _ h1
          have e2 := ih _ _ _ _ h2
          simp only [Except.ok.injEq, Prod.mk.injEq] at h
          rw [← h.2, e1, e2]; rfl
        · simp at h
      · simp at h

theorem encO_skip {T : Table} {L : Leaves} : ∀ (n lvl : Nat) (ty : Ptr) (v : JVal) (b : List Piece) (sk : Bool),
    encO T L n lvl false ty v = .ok (b, sk) → sk = false := by
  intro n
  induction n with
  | zero => intro lvl ty v b sk h; simp [encO] at h
  | succ n ih =>
    intro lvl ty v b sk h
    unfold encO at h
    split at h
    · obtain ⟨_, _, h⟩ := bind_eq_ok.1 h; simp at h; exact h.2
    · split at h
      · simp at h; exact h.2
      · obtain ⟨⟨b1, s1⟩, h1, h⟩ := bind_eq_ok.1 h
        simp at h; rw [← h.2]; exact ih _ _ _ _ _ h1
    · exact ih _ _ _ _ _ h
    · split at h
      · exact encOMembers_skip (fun p v b sk => ih _ p v b sk) _ _ _ _ _ h
      · simp at h
    · split at h
      · split at h
        · obtain ⟨_, _, h⟩ := bind_eq_ok.1 h
          simp at h; exact h.2
        · simp at h
      · simp at h
    · split at h
      · split at h
        · split at h
          · simp at h
          · split at h
            · simp at h
            · obtain ⟨_, _, h⟩ := bind_eq_ok.1 h
              split at h
              · simp at h
              · obtain ⟨⟨b1, s1⟩, h1, h⟩ := bind_eq_ok.1 h
                split at h
                · simp at h; rw [← h.2]; exact ih _ _ _ _ _ h1
                · simp at h
          · simp at h
        · simp at h
      · simp at h
    · simp at h

/-- first token of a value -/
theorem JVal.toks_cons (v : JVal) : ∃ t ts, v.toks = t :: ts ∧ (∀ k, t ≠ .key k) ∧ t ≠ .endObj ∧ t ≠ .endArr ∧
    (v.isNull = true ↔ t = .null) := by
  cases v <;> simp [JVal.toks, JVal.isNull]

section
variable {T : Table} {L : Leaves}

/-- description of the state after a call of the ordered conversion -/
def DoneO (ts : List Tok) (out : Bytes) (ins : List (Nat × Nat)) (K : List OFrame) (sk : Bool) (r : List Piece × Bool)
    (s : OState) : Prop :=
  s = ⟨ts, out ++ rawOf r.1, ins ++ insOf out.length r.1, K, sk || r.2, none⟩

theorem runs_membersO {n : Nat} {ty : Ptr} {allow : Bool} {K : List OFrame} {ts : List Tok} {ms : List (Bytes × JVal)}
    (hcall : ∀ f, T.Valid f → ∀ k v, (k, v) ∈ ms → ∀ allow ts out ins K', K'.length = K.length + 1 →
      Runs (stepO T L) ⟨v.toks ++ ts, out, ins, K', false, some (allow, f)⟩ (encO T L n (K.length + 1) allow f v)
        (DoneO ts out ins K' false)) :
    ∀ (ms' : List (Bytes × JVal)) (hms : ∀ m ∈ ms', m ∈ ms) (post pre : List Field)
    (hty : T.get ty = some (.struct (pre ++ post))) (hv : ∀ f ∈ post, T.Valid f.type) (sk : Bool) (hsk : sk = true → post = [])
    (out : Bytes) (ins : List (Nat × Nat)) (s : OState)
    (hs : stepO T L s = some <$> objectO T ⟨JVal.toks.goM ms' ++ .endObj :: ts, out, ins, s.stack, sk, none⟩
      ⟨ty, allow, (pre.length : Int) - 1, 0, 0⟩ K (pre ++ post)),
    Runs (stepO T L) s (encOMembers T (encO T L n (K.length + 1)) K.length allow post ms' ((pre.length : Int) - 1))
      (DoneO ts out ins K sk) := by
  intro ms'
  induction ms' with
  | nil =>
    intro hms post pre hty hv sk hsk out ins s hs
    unfold encOMembers
    cases hi : incInt ((pre.length : Int) - 1) with
    | error e => exact .fail (by simp [hs, JVal.toks.goM, objectO, hi])
    | ok p =>
      obtain ⟨-, hp⟩ := incInt_ok.1 hi
      have hp' : p = (pre.length : Int) := by omega
      clear hp; subst hp'
      simp only [bind_ok]
      cases post with
      | nil =>
        refine .next (s' := ⟨ts, out, ins, K, sk, none⟩) (by simp [hs, JVal.toks.goM, objectO, hi]) (.pure ?_)
        simp [DoneO, rawOf, insOf]
      | cons f fs =>
        obtain ⟨d, hd, -⟩ := hv f (by simp)
        have hsk' : sk = false := by cases sk <;> simp_all
        have hne : ¬ ((pre.length : Int) = ((pre ++ f :: fs).length : Int)) := by simp; omega
        have hget : (pre ++ f :: fs)[(pre.length : Int).toNat]? = some f := by simp
        simp only [hd]
        cases hx : (d.isExt && allow) with
        | true =>
          refine .next (s' := ⟨ts, out, ins, K, true, none⟩) ?_ (.pure ?_)
          · simp only [hs, JVal.toks.goM, objectO, hi, List.nil_append, bind_ok, if_neg hne, hget, hd, hx]; rfl
          · simp [DoneO, rawOf, insOf]
        | false =>
          refine .fail ?_
          simp only [hs, JVal.toks.goM, objectO, hi, List.nil_append, bind_ok, if_neg hne, hget, hd, hx]; rfl
  | cons m ms' ih =>
    obtain ⟨k, v⟩ := m
    intro hms post pre hty hv sk hsk out ins s hs
    unfold encOMembers
    cases hi : incInt ((pre.length : Int) - 1) with
    | error e => exact .fail (by simp [hs, JVal.toks.goM, objectO, hi])
    | ok p =>
      obtain ⟨-, hp⟩ := incInt_ok.1 hi
      have hp' : p = (pre.length : Int) := by omega
      clear hp; subst hp'
      simp only [bind_ok]
      cases post with
      | nil => exact .fail (by simp [hs, JVal.toks.goM, objectO, hi])
      | cons f fs =>
        have hsk' : sk = false := by cases sk <;> simp_all
        subst hsk'
        have hne : ¬ ((pre.length : Int) ≥ ((pre ++ f :: fs).length : Int) ∨ false = true) := by simp; omega
        have hget : (pre ++ f :: fs)[(pre.length : Int).toNat]? = some f := by simp
        have hty' : T.get ty = some (.struct ((pre ++ [f]) ++ fs)) := by simpa using hty
        have hpos : (pre.length : Int) = ((pre ++ [f]).length : Int) - 1 := by simp
        by_cases hk : k = f.name
        · simp only [if_pos hk]
          refine .next (s' := ⟨v.toks ++ (JVal.toks.goM ms' ++ .endObj :: ts), out, ins, ⟨ty, allow, (pre.length : Int), 0, 0⟩ :: K, false, none⟩) ?_ ?_
          · simp only [hs, JVal.toks.goM, objectO, hi, List.cons_append, List.append_assoc, bind_ok]
            rw [if_neg hne]
            simp only [hget, if_pos hk]; rfl
          · by_cases hl : K.length + 1 ≤ maxStack
            · rw [if_pos hl]
              obtain ⟨t, tl, ht, h1, h2, h3, h4⟩ := v.toks_cons
              have he : (decide ((pre.length : Int) + 1 = ((pre ++ f :: fs).length : Int))) = fs.isEmpty := by
                cases fs <;> simp <;> omega
              refine .next (s' := ⟨v.toks ++ (JVal.toks.goM ms' ++ .endObj :: ts), out, ins, ⟨ty, allow, (pre.length : Int), 0, 0⟩ :: K, false, some (allow && fs.isEmpty, f.type)⟩) ?_ ?_
              · have : ¬ ((pre.length : Int) < 0) := by omega
                simp only [stepO, List.length_cons, hl, if_true, resumeO, hty, ht, List.cons_append]
                unfold objectO
                cases t with
                | key k => exact absurd rfl (h1 k)
                | endObj => exact absurd rfl h2
                | _ => simp only [hget, he, if_neg this]; rfl
              · refine (hcall f.type (hv f (by simp)) k v (hms _ (by simp)) _ _ out ins _ (by simp)).bind' ?_
                rintro ⟨ps, sk⟩ s' hr hs'
                have hsk2 : sk = true → fs = [] := by
                  intro hskt
                  cases fs with
                  | nil => rfl
                  | cons g gs =>
                    simp only [List.isEmpty_cons, Bool.and_false] at hr
                    rw [encO_skip _ _ _ _ _ _ hr] at hskt
                    exact absurd hskt (by simp)
                have hpos' := congrArg (fun x => encOMembers T (encO T L n (K.length + 1)) K.length allow fs ms' x) hpos
                rw [hpos']
                refine (ih (fun m hm => hms m (List.mem_cons_of_mem _ hm)) fs (pre ++ [f]) hty'
                  (fun g hg => hv g (List.mem_cons_of_mem _ hg)) sk hsk2 (out ++ rawOf ps) (ins ++ insOf out.length ps) s' ?_).bind ?_
                · subst hs'
                  simp only [stepO, List.length_cons, hl, if_true, resumeO, hty', Bool.false_or, hpos]
                  rfl
                · rintro ⟨ps', sk'⟩ s'' rfl
                  refine .pure ?_
                  simp [DoneO, rawOf_append, insOf_append]
            · rw [if_neg hl]
              exact .fail (by simp [stepO, hl])
        · simp only [if_neg hk]
          refine .fail ?_
          simp only [hs, JVal.toks.goM, objectO, hi, List.cons_append, List.append_assoc, bind_ok]
          rw [if_neg hne]
          simp only [hget, if_neg hk]; rfl

theorem setSize_append (ins js : List (Nat × Nat)) (a b n : Nat) :
    setSize ins.length n (ins ++ (a, b) :: js) = ins ++ (a, n) :: js := by
  unfold setSize
  induction ins with
  | nil => simp
  | cons x ins ih => simpa using ih

theorem runs_elemsO {n : Nat} {ty p : Ptr} {K : List OFrame} {ts : List Tok} {idx : Nat} (hl : K.length + 1 ≤ maxStack)
    (hty : T.get ty = some (.array p)) : ∀ (l : List JVal)
    (_ : ∀ v ∈ l, ∀ ts out ins K', K'.length = K.length + 1 →
      Runs (stepO T L) ⟨v.toks ++ ts, out, ins, K', false, some (false, p)⟩ (encO T L n (K.length + 1) false p v)
        (DoneO ts out ins K' false)) (i : Nat) (out : Bytes) (ins : List (Nat × Nat)),
    Runs (stepO T L) ⟨JVal.toks.go l ++ .endArr :: ts, out, ins, ⟨ty, false, (i : Int) - 1, idx, 0⟩ :: K, false, none⟩
      (encOElems (encO T L n (K.length + 1) false p) l ((i : Int) - 1))
      (fun ps s => s = ⟨ts, out ++ rawOf ps, setSize idx (i + l.length) (ins ++ insOf out.length ps), K, false, none⟩) := by
  intro l
  induction l with
  | nil =>
    intro hcall i out ins
    unfold encOElems
    cases hi : incInt ((i : Int) - 1) with
    | error e => exact .fail (by simp [stepO, hl, resumeO, hty, JVal.toks.go, hi])
    | ok q =>
      obtain ⟨-, hp⟩ := incInt_ok.1 hi
      have hp' : q = (i : Int) := by omega
      clear hp; subst hp'
      refine .next (s' := ⟨ts, out, setSize idx i ins, K, false, none⟩) (by simp [stepO, hl, resumeO, hty, JVal.toks.go, hi]) (.pure ?_)
      simp [rawOf, insOf]
  | cons v l ih =>
    intro hcall i out ins
    unfold encOElems
    obtain ⟨t, tl, ht, h1, h2, h3, h4⟩ := v.toks_cons
    cases hi : incInt ((i : Int) - 1) with
    | error e =>
      refine .fail ?_
      simp only [stepO, List.length_cons, hl, if_true, resumeO, hty, JVal.toks.go, ht, List.cons_append]
      cases t <;> first | (exact absurd rfl h3) | (simp only [hi]; rfl)
    | ok q =>
      obtain ⟨-, hp⟩ := incInt_ok.1 hi
      have hp' : q = (i : Int) := by omega
      clear hp; subst hp'
      refine .next (s' := ⟨v.toks ++ (JVal.toks.go l ++ .endArr :: ts), out, ins, ⟨ty, false, (i : Int), idx, 0⟩ :: K, false, some (false, p)⟩) ?_ ?_
      · simp only [stepO, List.length_cons, hl, if_true, resumeO, hty, JVal.toks.go, ht, List.cons_append, List.append_assoc]
        cases t <;> first | (exact absurd rfl h3) | (simp only [hi]; rfl)
      · simp only [bind_ok]
        refine (hcall v (by simp) _ out ins _ (by simp)).bind' ?_
        rintro ⟨ps, sk⟩ s' hr rfl
        obtain rfl := encO_skip _ _ _ _ _ _ hr
        have := ih (fun v hv => hcall v (List.mem_cons_of_mem _ hv)) (i + 1) (out ++ rawOf ps) (ins ++ insOf out.length ps)
        rw [show ((i + 1 : Nat) : Int) - 1 = (i : Int) by omega] at this
        refine this.bind ?_
        rintro ps' s' rfl
        refine .pure ?_
        rw [show i + 1 + l.length = i + (v :: l).length by simp; omega]
        simp [rawOf_append, insOf_append]

end

/-- The loop, started on a call for any resolved type and any value, computes `encO`. -/
theorem runs_callO {T : Table} {L : Leaves} (wf : T.WF) : ∀ (n : Nat) (v : JVal) (ty : Ptr),
    T.Valid ty → 3 * v.height + T.rank ty < n → ∀ (allow : Bool) (ts : List Tok) (out : Bytes) (ins : List (Nat × Nat))
    (K : List OFrame),
    Runs (stepO T L) ⟨v.toks ++ ts, out, ins, K, false, some (allow, ty)⟩ (encO T L n K.length allow ty v)
      (DoneO ts out ins K false) := by
  intro n
  induction n with
  | zero => intro v ty _ h; omega
  | succ n ih =>
    intro v ty hval hn allow ts out ins K
    obtain ⟨d, hd, ht⟩ := hval
    unfold encO
    cases d with
    | aliasDef _ => simp [TData.isTarget] at ht
    | structDef _ => simp [TData.isTarget] at ht
    | variantDef _ => simp [TData.isTarget] at ht
    | alias _ => simp [TData.isTarget] at ht
    | builtin b =>
      simp only [hd]
      cases v with
      | null => exact .fail (by simp [stepO, startO, hd, JVal.toks])
      | arr => exact .fail (by simp [stepO, startO, hd, JVal.toks])
      | obj => exact .fail (by simp [stepO, startO, hd, JVal.toks])
      | bool x =>
        simp only [leafEnc]
        cases hx : L.toBin b (.bool x) with
        | error e => exact .fail (by simp [stepO, startO, hd, hx, JVal.toks])
        | ok y =>
          refine .next (s' := ⟨ts, out ++ y, ins, K, false, none⟩) (by simp [stepO, startO, hd, hx, JVal.toks]) (.pure ?_)
          simp [DoneO, rawOf, insOf]
      | str x =>
        simp only [leafEnc]
        cases hx : L.toBin b (.str x) with
        | error e => exact .fail (by simp [stepO, startO, hd, hx, JVal.toks])
        | ok y =>
          refine .next (s' := ⟨ts, out ++ y, ins, K, false, none⟩) (by simp [stepO, startO, hd, hx, JVal.toks]) (.pure ?_)
          simp [DoneO, rawOf, insOf]
    | optional p =>
      simp only [hd]
      obtain ⟨hp, hr, hr'⟩ := wf.optional hd
      cases hx : v.isNull with
      | true =>
        have hv : v = .null := by cases v <;> simp_all [JVal.isNull]
        subst hv
        refine .next (s' := ⟨ts, out ++ [0], ins, K, false, none⟩) (by simp [stepO, startO, hd, JVal.toks]) (.pure ?_)
        simp [DoneO, rawOf, insOf]
      | false =>
        refine .next (s' := ⟨v.toks ++ ts, out ++ [1], ins, K, false, some (allow, p)⟩) ?_ ?_
        · obtain ⟨t, tl, ht, h1, h2, h3, h4⟩ := v.toks_cons
          simp only [stepO, startO, hd, ht, List.cons_append]
          cases t with
          | null => simp [hx] at h4
          | _ => rfl
        · refine (ih v p hp (by omega) allow ts _ ins K).bind ?_
          rintro ⟨ps, sk'⟩ s' rfl
          exact .pure (by simp [DoneO, rawOf, insOf])
    | extension p =>
      simp only [hd]
      obtain ⟨hp, hr, hr'⟩ := wf.extension hd
      refine .next (s' := ⟨v.toks ++ ts, out, ins, K, false, some (allow, p)⟩) (by simp [stepO, startO, hd]) ?_
      exact ih v p hp (by omega) allow ts out ins K
    | struct fs =>
      simp only [hd]
      cases v with
      | obj ms =>
        refine runs_membersO (pre := []) (ms := ms) ?_ ms (fun _ h => h) fs (by simpa using hd) (wf.struct hd) false (by simp) out ins _ ?_
        · intro f hf k v hm allow ts out ins K' hK'
          have h1 := JVal.height_goM_le hm
          have h2 := T.rank_le f
          simp only [JVal.height] at hn
          have := ih v f hf (by omega) allow ts out ins K'
          rwa [hK'] at this
        · simp [stepO, startO, hd, JVal.toks]
      | null => exact .fail (by simp [stepO, startO, hd, JVal.toks])
      | bool => exact .fail (by simp [stepO, startO, hd, JVal.toks])
      | str => exact .fail (by simp [stepO, startO, hd, JVal.toks])
      | arr => exact .fail (by simp [stepO, startO, hd, JVal.toks])
    | array p =>
      simp only [hd]
      obtain ⟨hp, hr, hr'⟩ := wf.array hd
      cases v with
      | arr l =>
        simp only
        refine .next (s' := ⟨JVal.toks.go l ++ .endArr :: ts, out, ins ++ [(out.length, 0)], ⟨ty, false, -1, ins.length, 0⟩ :: K, false, none⟩)
          (by simp [stepO, startO, hd, JVal.toks]) ?_
        by_cases hl : K.length + 1 ≤ maxStack
        · rw [if_pos hl]
          have := runs_elemsO (L := L) (n := n) (ts := ts) (idx := ins.length) hl hd l ?_ 0 out (ins ++ [(out.length, 0)])
          · refine Runs.bind this ?_
            rintro ps s' rfl
            refine .pure ?_
            rw [List.append_assoc, List.singleton_append, setSize_append]
            simp [DoneO, rawOf, insOf]
          · intro v hm ts out ins K' hK'
            have h1 := JVal.height_go_le hm
            simp only [JVal.height] at hn
            have := ih v p hp (by omega) false ts out ins K'
            rwa [hK'] at this
        · rw [if_neg hl]
          exact .fail (by simp [stepO, hl])
      | null => exact .fail (by simp [stepO, startO, hd, JVal.toks])
      | bool => exact .fail (by simp [stepO, startO, hd, JVal.toks])
      | str => exact .fail (by simp [stepO, startO, hd, JVal.toks])
      | obj => exact .fail (by simp [stepO, startO, hd, JVal.toks])
    | variant alts =>
      simp only [hd]
      cases v with
      | arr l =>
        simp only
        refine .next (s' := ⟨JVal.toks.go l ++ .endArr :: ts, out, ins, ⟨ty, allow, -1, 0, 0⟩ :: K, false, none⟩)
          (by simp [stepO, startO, hd, JVal.toks]) ?_
        by_cases hl : K.length + 1 ≤ maxStack
        · rw [if_pos hl]
          cases l with
          | nil => exact .fail (by simp [stepO, hl, resumeO, hd, JVal.toks.go, incInt])
          | cons x l =>
            cases x with
            | null => exact .fail (by simp [stepO, hl, resumeO, hd, JVal.toks.go, incInt, JVal.toks])
            | bool => exact .fail (by simp [stepO, hl, resumeO, hd, JVal.toks.go, incInt, JVal.toks])
            | arr => exact .fail (by simp [stepO, hl, resumeO, hd, JVal.toks.go, incInt, JVal.toks])
            | obj => exact .fail (by simp [stepO, hl, resumeO, hd, JVal.toks.go, incInt, JVal.toks])
            | str name =>
              simp only
              cases hf : findAlt name alts 0 with
              | none => exact .fail (by simp [stepO, hl, resumeO, hd, JVal.toks.go, incInt, JVal.toks, hf])
              | some r =>
                obtain ⟨i, f⟩ := r
                simp only
                cases hc : varuint32ToBin i with
                | error e => exact .fail (by simp [stepO, hl, resumeO, hd, JVal.toks.go, incInt, JVal.toks, hf, hc])
                | ok c =>
                  refine .next (s' := ⟨JVal.toks.go l ++ .endArr :: ts, out ++ c, ins, ⟨ty, allow, 0, 0, i⟩ :: K, false, none⟩)
                    (by simp [stepO, hl, resumeO, hd, JVal.toks.go, incInt, JVal.toks, hf, hc]) ?_
                  simp only [bind_ok]
                  cases l with
                  | nil => exact .fail (by simp [stepO, hl, resumeO, hd, JVal.toks.go, incInt])
                  | cons x l =>
                    simp only
                    obtain ⟨t, tl, ht, h1, h2, h3, h4⟩ := x.toks_cons
                    have hget : alts[i]? = some f := by simpa using (findAlt_spec hf).2.1
                    refine .next (s' := ⟨x.toks ++ (JVal.toks.go l ++ .endArr :: ts), out ++ c, ins, ⟨ty, allow, 1, 0, i⟩ :: K, false, some (allow, f.type)⟩) ?_ ?_
                    · simp only [stepO, List.length_cons, hl, if_true, resumeO, hd, JVal.toks.go, ht, List.cons_append, List.append_assoc, incInt]
                      cases t with
                      | endArr => exact absurd rfl h3
                      | _ => simp [hget]
                    · have hh : x.height < (JVal.arr (.str name :: x :: l)).height := by
                        simp [JVal.height, JVal.height.go]; omega
                      have hr := T.rank_le f.type
                      refine Runs.bind (ih x f.type (wf.variant hd f (findAlt_mem hf)) (by omega) allow
                        (JVal.toks.go l ++ .endArr :: ts) (out ++ c) ins (⟨ty, allow, 1, 0, i⟩ :: K)) ?_
                      rintro ⟨ps, sk⟩ s' rfl
                      cases l with
                      | nil =>
                        simp only
                        refine .next (s' := ⟨ts, out ++ c ++ rawOf ps, ins ++ insOf (out ++ c).length ps, K, false || sk, none⟩)
                          (by simp [stepO, hl, resumeO, hd, JVal.toks.go, incInt]) (.pure ?_)
                        simp [DoneO, rawOf, insOf]
                      | cons y l =>
                        obtain ⟨t, tl, ht, h1, h2, h3, h4⟩ := y.toks_cons
                        refine .fail ?_
                        simp only [stepO, List.length_cons, hl, if_true, resumeO, hd, JVal.toks.go, ht, List.cons_append, List.append_assoc, incInt]
                        cases t with
                        | endArr => exact absurd rfl h3
                        | _ => simp
        · rw [if_neg hl]
          exact .fail (by simp [stepO, hl])
      | null => exact .fail (by simp [stepO, startO, hd, JVal.toks])
      | bool => exact .fail (by simp [stepO, startO, hd, JVal.toks])
      | str => exact .fail (by simp [stepO, startO, hd, JVal.toks])
      | obj => exact .fail (by simp [stepO, startO, hd, JVal.toks])

/-- The ordered conversion of a document, as a function. -/
theorem jsonToBin_iff {T : Table} {L : Leaves} (wf : T.WF) {ty : Ptr} (hty : T.Valid ty) (v : JVal) (n : Nat)
    (hn : 3 * v.height + 2 < n) (r : Res Bytes) :
    JsonToBin T L ty v r ↔ r = (encO T L n 0 true ty v).map (fun x => flat x.1) := by
  have hr := T.rank_le ty
  have h := runs_callO (L := L) wf n v ty hty (by omega) true [] [] [] []
  simp only [List.append_nil, List.length_nil] at h
  unfold JsonToBin TokensToBin initO
  cases he : encO T L n 0 true ty v with
  | error e =>
    rw [he] at h
    constructor
    · rintro ⟨r', h1, rfl⟩
      rw [← Ends.unique h h1]; rfl
    · rintro rfl
      exact ⟨_, h, rfl⟩
  | ok a =>
    rw [he] at h
    obtain ⟨s', h1, rfl⟩ := h
    have he : Ends (stepO T L) _ (.ok _) := h1.ends ⟨1, by simp [iter, stepO]; rfl⟩
    have hfin := splice_eq [] 0 (by simp) a.1
    simp only [List.nil_append, List.length_nil, List.drop_nil] at hfin
    constructor
    · rintro ⟨r', h5, rfl⟩
      rw [← Ends.unique he h5]; simp [Except.map, Except.bind, finishO, hfin]
    · rintro rfl
      exact ⟨_, he, by simp [Except.map, Except.bind, finishO, hfin]⟩

end Abieos
