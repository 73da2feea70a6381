import Verif.Proofs.RefineR
/-
The bin_to_json loop computes `dec`.
-/
namespace Abieos

section
variable {T : Table} {L : Leaves}

/-- description of the state after a call of bin_to_json -/
def DoneD (out : Bytes) (K : List DFrame) (r : Bytes × Bytes) (s : DState) : Prop :=
  s = ⟨r.2, out ++ r.1, K, none⟩

theorem runs_fieldsD {n : Nat} {ty : Ptr} {allow : Bool} {K : List DFrame} (hK : K.length + 1 ≤ maxStack)
    (hcall : ∀ f, T.Valid f → ∀ allow out bin K', K'.length = K.length + 1 →
      Runs (stepD T L) ⟨bin, out, K', some (allow, f)⟩ (dec T L n (K.length + 1) allow f bin) (DoneD out K'))
    (post pre : List Field) (hty : T.get ty = some (.struct (pre ++ post))) (hv : ∀ f ∈ post, T.Valid f.type)
    (out bin : Bytes) :
    Runs (stepD T L) ⟨bin, out, ⟨ty, allow, (pre.length : Int) - 1, 0⟩ :: K, none⟩
      (decFields T (dec T L n (K.length + 1)) allow post ((pre.length : Int) - 1) bin) (DoneD out K) := by
  induction post generalizing pre out bin with
  | nil =>
    unfold decFields
    cases hi : incInt ((pre.length : Int) - 1) with
    | error e => exact .fail (by simp [stepD, resumeD, hty, hi, hK])
    | ok p =>
      obtain ⟨-, rfl⟩ := incInt_ok.1 hi
      refine .next (s' := ⟨bin, out ++ str "}", K, none⟩) (by simp [stepD, resumeD, hty, hi, hK]) (.pure ?_)
      simp [DoneD]
  | cons f fs ih =>
    unfold decFields
    cases hi : incInt ((pre.length : Int) - 1) with
    | error e => exact .fail (by simp [stepD, resumeD, hty, hi, hK])
    | ok p =>
      obtain ⟨-, hp⟩ := incInt_ok.1 hi
      have hp' : p = (pre.length : Int) := by omega
      clear hp; subst hp'
      have hne : ((pre.length : Int) < ((pre ++ f :: fs).length : Int)) := by simp; omega
      have hget : (pre ++ f :: fs)[(pre.length : Int).toNat]? = some f := by simp
      obtain ⟨d, hd, -⟩ := hv f (by simp)
      have hty' : T.get ty = some (.struct ((pre ++ [f]) ++ fs)) := by simpa using hty
      have hpos : (pre.length : Int) = ((pre ++ [f]).length : Int) - 1 := by simp
      have hl : (⟨ty, allow, (pre.length : Int) - 1, 0⟩ :: K : List DFrame).length ≤ maxStack := by simpa using hK
      simp only [bind_ok, hd]
      by_cases hx : bin = [] ∧ d.isExt = true ∧ allow = true
      · rw [if_pos hx]
        refine .next (s' := ⟨bin, out, ⟨ty, allow, (pre.length : Int), 0⟩ :: K, none⟩) ?_ ?_
        · simp only [stepD, resumeD, hty, hi, hl, bind_ok, if_pos hne, hget, hd, if_pos hx, if_true]; rfl
        · have := ih (pre ++ [f]) hty' (fun g hg => hv g (List.mem_cons_of_mem _ hg)) out bin
          rw [hpos]; simpa using this
      · simp only [if_neg hx]
        have he : (decide ((pre.length : Int) + 1 = ((pre ++ f :: fs).length : Int))) = fs.isEmpty := by
          cases fs <;> simp <;> omega
        refine .next (s' := ⟨bin, out ++ (if (pre.length : Int) ≠ 0 then str "," else []) ++ jsonString f.name ++ str ":",
          ⟨ty, allow, (pre.length : Int), 0⟩ :: K, some (allow && fs.isEmpty, f.type)⟩) ?_ ?_
        · simp only [stepD, resumeD, hty, hi, hl, bind_ok, if_pos hne, hget, hd, if_neg hx, he]; rfl
        · refine (hcall f.type (hv f (by simp)) _ _ bin _ (by simp)).bind ?_
          rintro ⟨t, rest⟩ s' rfl
          have := ih (pre ++ [f]) hty' (fun g hg => hv g (List.mem_cons_of_mem _ hg))
            (out ++ (if (pre.length : Int) ≠ 0 then str "," else []) ++ jsonString f.name ++ str ":" ++ t) rest
          rw [← hpos] at this
          refine this.bind ?_
          rintro ⟨b', sk''⟩ s' rfl
          exact .pure (by simp [DoneD])

theorem runs_elemsD {n : Nat} {ty p : Ptr} {K : List DFrame} (hK : K.length + 1 ≤ maxStack)
    (hcall : ∀ out bin K', K'.length = K.length + 1 →
      Runs (stepD T L) ⟨bin, out, K', some (false, p)⟩ (dec T L n (K.length + 1) false p bin) (DoneD out K'))
    (hty : T.get ty = some (.array p)) (size k i : Nat) (hk : i + k = size) (out bin : Bytes) :
    Runs (stepD T L) ⟨bin, out, ⟨ty, false, (i : Int) - 1, size⟩ :: K, none⟩
      (decElems (dec T L n (K.length + 1) false p) k ((i : Int) - 1) bin) (DoneD out K) := by
  have hl : ∀ i, (⟨ty, false, i, size⟩ :: K : List DFrame).length ≤ maxStack := by intro i; simpa using hK
  induction k generalizing i out bin with
  | zero =>
    unfold decElems
    cases hi : incInt ((i : Int) - 1) with
    | error e => exact .fail (by simp only [stepD, resumeD, hty, hi, hl]; rfl)
    | ok q =>
      obtain ⟨-, rfl⟩ := incInt_ok.1 hi
      refine .next (s' := ⟨bin, out ++ str "]", K, none⟩) ?_ (.pure ?_)
      · have hne : ¬ ((i : Int) - 1 + 1 < (size : Int)) := by omega
        simp only [stepD, resumeD, hty, hi, hl, if_true, bind_ok, if_neg hne]; rfl
      · simp [DoneD]
  | succ k ih =>
    unfold decElems
    cases hi : incInt ((i : Int) - 1) with
    | error e => exact .fail (by simp only [stepD, resumeD, hty, hi, hl]; rfl)
    | ok q =>
      obtain ⟨-, hp⟩ := incInt_ok.1 hi
      have hp' : q = (i : Int) := by omega
      clear hp; subst hp'
      have hne : (i : Int) < (size : Int) := by omega
      simp only [bind_ok]
      refine .next (s' := ⟨bin, out ++ (if (i : Int) ≠ 0 then str "," else []), ⟨ty, false, (i : Int), size⟩ :: K, some (false, p)⟩) ?_ ?_
      · simp only [stepD, resumeD, hty, hi, hl, if_true, bind_ok, if_pos hne]; rfl
      · refine (hcall _ bin _ (by simp)).bind ?_
        rintro ⟨t, rest⟩ s' rfl
        have := ih (i + 1) (by omega) (out ++ (if (i : Int) ≠ 0 then str "," else []) ++ t) rest
        rw [show ((i + 1 : Nat) : Int) - 1 = (i : Int) by omega] at this
        refine this.bind ?_
        rintro ⟨b', sk''⟩ s' rfl
        exact .pure (by simp [DoneD])

end

/-- The loop, started on a call for any resolved type and any input, computes `dec`. -/
theorem runs_callD {T : Table} {L : Leaves} (wf : T.WF) : ∀ (n : Nat) (ty : Ptr) (K : List DFrame),
    T.Valid ty → K.length ≤ maxStack → 3 * (maxStack - K.length) + T.rank ty < n → ∀ (allow : Bool) (out bin : Bytes),
    Runs (stepD T L) ⟨bin, out, K, some (allow, ty)⟩ (dec T L n K.length allow ty bin) (DoneD out K) := by
  intro n
  induction n with
  | zero => intro v ty _ _ h; omega
  | succ n ih =>
    intro ty K hval hK hn allow out bin
    obtain ⟨d, hd, ht⟩ := hval
    unfold dec
    cases d with
    | aliasDef _ => simp [TData.isTarget] at ht
    | structDef _ => simp [TData.isTarget] at ht
    | variantDef _ => simp [TData.isTarget] at ht
    | alias _ => simp [TData.isTarget] at ht
    | builtin b =>
      simp only [hd]
      cases hx : L.fromBin b bin with
      | error e => exact .fail (by simp [stepD, startD, hd, hx])
      | ok x =>
        obtain ⟨t, rest⟩ := x
        refine .next (s' := ⟨rest, out ++ t, K, none⟩) (by simp [stepD, startD, hd, hx]) (.pure ?_)
        simp [DoneD]
    | optional p =>
      simp only [hd]
      obtain ⟨hp, hr, hr'⟩ := wf.optional hd
      cases hx : readU8 bin with
      | error e => exact .fail (by simp [stepD, startD, hd, hx])
      | ok x =>
        obtain ⟨c, rest⟩ := x
        simp only [bind_ok]
        by_cases hc : c ≠ 0
        · rw [if_pos hc]
          refine .next (s' := ⟨rest, out, K, some (allow, p)⟩) (by simp [stepD, startD, hd, hx, hc]) ?_
          exact ih p K hp hK (by omega) allow _ _
        · rw [if_neg hc]
          simp only [ne_eq, Decidable.not_not] at hc
          refine .next (s' := ⟨rest, out ++ str "null", K, none⟩) (by simp [stepD, startD, hd, hx, hc]) (.pure ?_)
          simp [DoneD]
    | extension p =>
      simp only [hd]
      obtain ⟨hp, hr, hr'⟩ := wf.extension hd
      refine .next (s' := ⟨bin, out, K, some (allow, p)⟩) (by simp [stepD, startD, hd]) ?_
      exact ih p K hp hK (by omega) allow _ _
    | struct fs =>
      simp only [hd]
      refine .next (s' := ⟨bin, out ++ str "{", ⟨ty, allow, -1, 0⟩ :: K, none⟩) (by simp [stepD, startD, hd]) ?_
      by_cases hl : K.length + 1 ≤ maxStack
      · rw [if_pos hl]
        refine (runs_fieldsD (pre := []) hl ?_ fs (by simpa using hd) (wf.struct hd) (out ++ str "{") bin).bind ?_
        · intro f hf allow out bin K' hK'
          have h2 := T.rank_le f
          have := ih f K' hf (by omega) (by omega) allow out bin
          rwa [hK'] at this
        · rintro ⟨t, rest⟩ s' rfl
          exact .pure (by simp [DoneD])
      · rw [if_neg hl]
        exact .fail (by simp [stepD, hl])
    | array p =>
      simp only [hd]
      obtain ⟨hp, hr, hr'⟩ := wf.array hd
      cases hc : varuint32FromBin bin with
      | error e => exact .fail (by simp [stepD, startD, hd, hc])
      | ok c =>
        obtain ⟨m, rest⟩ := c
        simp only [bind_ok]
        refine .next (s' := ⟨rest, out ++ str "[", ⟨ty, false, -1, m⟩ :: K, none⟩) (by simp [stepD, startD, hd, hc]) ?_
        by_cases hl : K.length + 1 ≤ maxStack
        · rw [if_pos hl]
          have := runs_elemsD (L := L) (n := n) hl ?_ hd m m 0 (by omega) (out ++ str "[") rest
          · refine this.bind ?_
            rintro ⟨t, rest⟩ s' rfl
            exact .pure (by simp [DoneD])
          · intro out bin K' hK'
            have := ih p K' hp (by omega) (by omega) false out bin
            rwa [hK'] at this
        · rw [if_neg hl]
          exact .fail (by simp [stepD, hl])
    | variant alts =>
      simp only [hd]
      refine .next (s' := ⟨bin, out ++ str "[", ⟨ty, allow, -1, 0⟩ :: K, none⟩) (by simp [stepD, startD, hd]) ?_
      by_cases hl : K.length + 1 ≤ maxStack
      · rw [if_pos hl]
        cases hc : varuint32FromBin bin with
        | error e => exact .fail (by simp [stepD, resumeD, incInt, hl, hd, hc])
        | ok c =>
          obtain ⟨m, rest⟩ := c
          simp only [bind_ok]
          cases hf : alts[m]? with
          | none => exact .fail (by simp [stepD, resumeD, incInt, hl, hd, hc, hf])
          | some f =>
            refine .next (s' := ⟨rest, out ++ str "[" ++ jsonString f.name ++ str ",", ⟨ty, allow, 0, 0⟩ :: K, some (allow, f.type)⟩)
              (by simp [stepD, resumeD, incInt, hl, hd, hc, hf]) ?_
            have h2 := T.rank_le f.type
            have := ih f.type (⟨ty, allow, 0, 0⟩ :: K) (wf.variant hd f (List.mem_of_getElem? hf)) (by simpa using hl)
              (by simp; omega) allow (out ++ str "[" ++ jsonString f.name ++ str ",") rest
            refine Runs.bind this ?_
            rintro ⟨t, rest⟩ s' rfl
            refine .next (s' := ⟨rest, out ++ str "[" ++ jsonString f.name ++ str "," ++ t ++ str "]", K, none⟩)
              (by simp [stepD, resumeD, incInt, hl, hd]) (.pure ?_)
            simp [DoneD]
      · rw [if_neg hl]
        exact .fail (by simp [stepD, hl])

/-- bin_to_json, as a function. -/
theorem binToJson_iff {T : Table} {L : Leaves} (wf : T.WF) {ty : Ptr} (hty : T.Valid ty) (bin : Bytes)
    (n : Nat) (hn : 3 * maxStack + 2 < n) (r : Res (Bytes × Bytes)) :
    BinToJson T L ty bin r ↔ r = dec T L n 0 true ty bin := by
  have hr := T.rank_le ty
  have h := (runs_callD (L := L) wf n ty [] hty (by simp) (by simp; omega) true [] bin).ends_iff
    (out := fun s => (s.out, s.bin)) (g := id) ?_ r
  · unfold BinToJson initD
    rw [h]
    cases dec T L n 0 true ty bin <;> simp [Except.map]
  · rintro ⟨b, rest⟩ s rfl
    simp [stepD]

end Abieos
