import Verif.Spec.Convert
namespace Abieos
open Spec

mutual
theorem same_iff : ∀ (t u : CTy), t.same u = true ↔ t = u
  | .leaf a, u => by cases u <;> simp [CTy.same]
  | .struct a, u => by cases u <;> simp [CTy.same]
  | .vec t, u => by cases u <;> simp [CTy.same, same_iff t]
  | .opt t, u => by cases u <;> simp [CTy.same, same_iff t]
  | .variant ts, u => by cases u <;> simp [CTy.same, sameAll_iff ts]
  | .ext t, u => by cases u <;> simp [CTy.same, same_iff t]
theorem sameAll_iff : ∀ (ts us : List CTy), CTy.sameAll ts us = true ↔ ts = us
  | [], us => by cases us <;> simp [CTy.sameAll]
  | t :: ts, us => by cases us <;> simp [CTy.sameAll, same_iff t, sameAll_iff ts]
end

theorem findMember_some {n : Bytes} : ∀ {us : List (Bytes × CTy)} {k i : Nat} {u : CTy}, findMember n us k = some (i, u) →
    ∃ j, i = k + j ∧ us[j]? = some (n, u)
  | [], k, i, u, h => by simp [findMember] at h
  | f :: us, k, i, u, h => by
    rw [findMember] at h
    split at h
    · rename_i e
      simp only [Option.some.injEq, Prod.mk.injEq] at h
      obtain ⟨rfl, rfl⟩ := h
      exact ⟨0, rfl, by rw [← e]; rfl⟩
    · obtain ⟨j, rfl, hj⟩ := findMember_some h
      exact ⟨j + 1, by omega, by simpa using hj⟩

theorem findMember_none {n : Bytes} : ∀ {us : List (Bytes × CTy)} {k : Nat}, findMember n us k = none ↔ n ∉ us.map (·.1)
  | [], k => by simp [findMember]
  | f :: us, k => by
    rw [findMember]
    split
    · rename_i e; simp [e]
    · rename_i e
      rw [findMember_none]
      simp only [List.map_cons, List.mem_cons, not_or]
      exact ⟨fun h => ⟨fun h' => e h'.symm, h⟩, fun h => h.2⟩

theorem names_inj {us : List (Bytes × CTy)} (hu : (us.map (·.1)).Nodup) {i j : Nat} {n : Bytes} {u w : CTy}
    (hi : us[i]? = some (n, u)) (hj : us[j]? = some (n, w)) : i = j := by
  have h1 : (us.map (·.1))[i]? = some n := by simp [hi]
  have h2 : (us.map (·.1))[j]? = some n := by simp [hj]
  have hlt : i < (us.map (·.1)).length := by
    rw [List.getElem?_eq_some_iff] at h1; exact h1.1
  exact (List.getElem?_inj hlt hu).1 (by rw [h1, h2])

theorem findMember_iff {us : List (Bytes × CTy)} (hu : (us.map (·.1)).Nodup) {n : Bytes} {i : Nat} {u : CTy} :
    findMember n us 0 = some (i, u) ↔ us[i]? = some (n, u) := by
  constructor
  · intro h
    obtain ⟨j, e, hj⟩ := findMember_some h
    simp only [Nat.zero_add] at e
    rw [e]; exact hj
  · intro h
    cases hf : findMember n us 0 with
    | none =>
      exfalso
      refine findMember_none.1 hf ?_
      exact List.mem_map.2 ⟨(n, u), List.mem_of_getElem? h, rfl⟩
    | some x =>
      obtain ⟨j, w⟩ := x
      obtain ⟨j', e, hj⟩ := findMember_some hf
      simp only [Nat.zero_add] at e
      subst e
      obtain rfl := names_inj hu h hj
      rw [h] at hj
      simp only [Option.some.injEq, Prod.mk.injEq, true_and] at hj
      rw [hj]

/-- what the loop over the members does -/
theorem loop_iff {k : ConvKind} {src : List (Bytes × (CTy → SVal → Res SVal))} {us : List (Bytes × CTy)} (hu : (us.map (·.1)).Nodup) :
    ∀ (ns : List Bytes) (d d' : List SVal), ns.Nodup → d.length = us.length →
    (convertLoop k src us ns d = .ok d' ↔
      d'.length = us.length ∧
      (∀ n ∈ ns, src.lookup n = none ∨ n ∉ us.map (·.1) → ¬ (k = .strict ∨ k = .widening)) ∧
      ∀ i n u, us[i]? = some (n, u) →
        (n ∈ ns → ∀ f, src.lookup n = some f → f u (d.getD i .unset) = .ok (d'.getD i .unset)) ∧
        (n ∉ ns ∨ src.lookup n = none → d'.getD i .unset = d.getD i .unset))
  | [], d, d', _, hd => by
    rw [convertLoop]
    constructor
    · intro h
      injection h with h
      subst h
      exact ⟨hd, by simp, fun i n u _ => ⟨by simp, fun _ => rfl⟩⟩
    · rintro ⟨h1, -, h2⟩
      have : d = d' := by
        apply List.ext_getElem (by rw [hd, h1])
        intro i hi hi'
        have hl : i < us.length := by rw [← hd]; exact hi
        have := (h2 i us[i].1 us[i].2 (by rw [List.getElem?_eq_getElem hl])).2 (.inl (by simp))
        simpa [List.getD_eq_getElem?_getD, List.getElem?_eq_getElem hi, List.getElem?_eq_getElem hi'] using this.symm
      rw [this]
  | n :: ns, d, d', hn, hd => by
    obtain ⟨hn1, hn2⟩ := List.nodup_cons.1 hn
    rw [convertLoop]
    split
    · rename_i f i u hf hm
      have hi := (findMember_iff hu).1 hm
      have hil : i < d.length := by rw [hd]; exact (List.getElem?_eq_some_iff.1 hi).1
      constructor
      · intro h
        obtain ⟨x, hx, h⟩ := bind_eq_ok.1 h
        obtain ⟨h1, h2, h3⟩ := (loop_iff hu ns (d.set i x) d' hn2 (by simp [hd])).1 h
        refine ⟨h1, ?_, ?_⟩
        · intro m hm' hk
          rcases List.mem_cons.1 hm' with rfl | hm'
          · rcases hk with hk | hk
            · rw [hf] at hk; simp at hk
            · exact absurd (List.mem_map.2 ⟨(m, u), List.mem_of_getElem? hi, rfl⟩) hk
          · exact h2 m hm' hk
        · intro j m w hj
          obtain ⟨h4, h5⟩ := h3 j m w hj
          by_cases hji : j = i
          · subst hji
            rw [hi] at hj
            simp only [Option.some.injEq, Prod.mk.injEq] at hj
            obtain ⟨rfl, rfl⟩ := hj
            have h6 := h5 (.inl hn1)
            have hx' : (d.set j x).getD j .unset = x := by simp [List.getD_eq_getElem?_getD, hil]
            rw [hx'] at h6
            refine ⟨fun _ g hg => ?_, fun hk => ?_⟩
            · rw [hf] at hg; injection hg with hg; rw [← hg, h6]; exact hx
            · rcases hk with hk | hk
              · simp at hk
              · rw [hf] at hk; simp at hk
          · have hset : (d.set i x).getD j .unset = d.getD j .unset := by
              simp [List.getD_eq_getElem?_getD, List.getElem?_set_ne (Ne.symm hji)]
            have hmn : m ≠ n := fun e => hji (names_inj hu (by rw [← e]; exact hj) hi)
            rw [hset] at h4 h5
            refine ⟨fun hm' g hg => h4 ?_ g hg, fun hk => h5 ?_⟩
            · rcases List.mem_cons.1 hm' with e | e
              · exact absurd e hmn
              · exact e
            · rcases hk with hk | hk
              · exact .inl fun h => hk (List.mem_cons_of_mem _ h)
              · exact .inr hk
      · rintro ⟨h1, h2, h3⟩
        have hx := (h3 i n u hi).1 (by simp) f hf
        refine bind_eq_ok.2 ⟨_, hx, ?_⟩
        refine (loop_iff hu ns _ d' hn2 (by simp [hd])).2 ⟨h1, fun m hm' hk => h2 m (List.mem_cons_of_mem _ hm') hk, ?_⟩
        intro j m w hj
        by_cases hji : j = i
        · subst hji
          rw [hi] at hj
          simp only [Option.some.injEq, Prod.mk.injEq] at hj
          obtain ⟨rfl, rfl⟩ := hj
          refine ⟨fun h => absurd h hn1, fun _ => ?_⟩
          simp [List.getD_eq_getElem?_getD, hil]
        · have hset : (d.set i (d'.getD i .unset)).getD j .unset = d.getD j .unset := by
            simp [List.getD_eq_getElem?_getD, List.getElem?_set_ne (Ne.symm hji)]
          have hmn : m ≠ n := fun e => hji (names_inj hu (by rw [← e]; exact hj) hi)
          rw [hset]
          obtain ⟨h4, h5⟩ := h3 j m w hj
          refine ⟨fun hm' g hg => h4 (List.mem_cons_of_mem _ hm') g hg, fun hk => h5 ?_⟩
          rcases hk with hk | hk
          · exact .inl fun h => (List.mem_cons.1 h).elim hmn hk
          · exact .inr hk
    · rename_i hno
      have hmiss : src.lookup n = none ∨ n ∉ us.map (·.1) := by
        rw [← findMember_none (k := 0)]
        cases h1 : src.lookup n with
        | none => exact .inl rfl
        | some f =>
          cases h2 : findMember n us 0 with
          | none => exact .inr rfl
          | some x => exact (hno f x.1 x.2 h1 (by rw [h2])).elim
      have hcond : ∀ (i : Nat) (m : Bytes) (u : CTy), us[i]? = some (m, u) → m = n → src.lookup n = none := by
        intro i m u hi e
        rcases hmiss with h | h
        · exact h
        · exact absurd (List.mem_map.2 ⟨(m, u), List.mem_of_getElem? hi, e⟩) h
      split
      · rename_i hk
        refine ⟨fun h => by simp at h, ?_⟩
        rintro ⟨-, h2, -⟩
        exact absurd hk (h2 n (by simp) hmiss)
      · rename_i hk
        rw [loop_iff hu ns d d' hn2 hd]
        refine and_congr_right fun h1 => and_congr ?_ ?_
        · constructor
          · intro h m hm' hk'
            rcases List.mem_cons.1 hm' with rfl | hm'
            · exact hk
            · exact h m hm' hk'
          · exact fun h m hm' => h m (List.mem_cons_of_mem _ hm')
        · constructor
          · intro h j m w hj
            obtain ⟨h4, h5⟩ := h j m w hj
            refine ⟨fun hm' g hg => ?_, fun hk' => ?_⟩
            · rcases List.mem_cons.1 hm' with e | e
              · rw [e, hcond j m w hj e] at hg; simp at hg
              · exact h4 e g hg
            · rcases hk' with hk' | hk'
              · exact h5 (.inl fun e => hk' (List.mem_cons_of_mem _ e))
              · exact h5 (.inr hk')
          · intro h j m w hj
            obtain ⟨h4, h5⟩ := h j m w hj
            refine ⟨fun hm' g hg => h4 (List.mem_cons_of_mem _ hm') g hg, fun hk' => ?_⟩
            rcases hk' with hk' | hk'
            · by_cases e : m = n
              · exact h5 (.inr (by rw [e]; exact hcond j m w hj e))
              · exact h5 (.inl fun h => (List.mem_cons.1 h).elim e hk')
            · exact h5 (.inr hk')

variable {P : Prog} {K : Bytes → Bytes → ConvKind} {c : Choice}

theorem conversions_lookup : ∀ {fs : List (Bytes × CTy)} {l : List SVal}, (fs.map (·.1)).Nodup → fs.length = l.length → ∀ {n : Bytes} {f},
    (memberConversions P K c fs l).lookup n = some f ↔ ∃ (i : Nat) (t : CTy) (v : SVal), fs[i]? = some (n, t) ∧ l[i]? = some v ∧ f = fun u d => convertV P K c t v u d
  | [], l, _, _, n, f => by simp [memberConversions]
  | g :: fs, [], _, h, n, f => by simp at h
  | g :: fs, v :: l, hn, h, n, f => by
    simp only [List.map_cons, List.nodup_cons] at hn
    simp only [List.length_cons, Nat.add_right_cancel_iff] at h
    rw [memberConversions, List.lookup_cons]
    by_cases e : n = g.1
    · have : (n == g.1) = true := by simp [e]
      rw [this]
      simp only [Option.some.injEq]
      constructor
      · intro hf
        exact ⟨0, g.2, v, by rw [e]; rfl, rfl, hf.symm⟩
      · rintro ⟨i, t, w, h1, h2, rfl⟩
        cases i with
        | zero =>
          simp only [List.getElem?_cons_zero, Option.some.injEq] at h1 h2
          rw [h1, h2]
        | succ i =>
          simp only [List.getElem?_cons_succ] at h1
          exact absurd (List.mem_map.2 ⟨(n, t), List.mem_of_getElem? h1, e⟩) hn.1
    · have : (n == g.1) = false := by simp [e]
      rw [this]
      show (memberConversions P K c fs l).lookup n = some f ↔ _
      rw [conversions_lookup hn.2 h]
      constructor
      · rintro ⟨i, t, w, h1, h2, rfl⟩
        exact ⟨i + 1, t, w, by simpa using h1, by simpa using h2, rfl⟩
      · rintro ⟨i, t, w, h1, h2, rfl⟩
        cases i with
        | zero =>
          simp only [List.getElem?_cons_zero, Option.some.injEq] at h1
          exact absurd (by rw [h1]) e
        | succ i => exact ⟨i, t, w, by simpa using h1, by simpa using h2, rfl⟩

theorem conversions_none {fs : List (Bytes × CTy)} {l : List SVal} (h : fs.length = l.length) {n : Bytes} :
    (memberConversions P K c fs l).lookup n = none ↔ n ∉ fs.map (·.1) := by
  induction fs generalizing l with
  | nil => simp [memberConversions]
  | cons g fs ih =>
    cases l with
    | nil => simp at h
    | cons v l =>
      simp only [List.length_cons, Nat.add_right_cancel_iff] at h
      rw [memberConversions, List.lookup_cons]
      by_cases e : n = g.1
      · have : (n == g.1) = true := by simp [e]
        rw [this]; simp [e]
      · have : (n == g.1) = false := by simp [e]
        rw [this]
        show (memberConversions P K c fs l).lookup n = none ↔ _
        rw [ih h]; simp [e]

theorem objects_length : ∀ {fs : List (Bytes × CTy)} {l : List SVal}, Objects P fs l → l.length = fs.length
  | _, _, .nil => rfl
  | _, _, .cons _ h => by simp [objects_length h]

theorem values_length : ∀ {fs : List (Bytes × CTy)} {l : List SVal}, Values P fs l → l.length = fs.length
  | _, _, .nil => rfl
  | _, _, .cons _ h => by simp [values_length h]

theorem object_get : ∀ {fs : List (Bytes × CTy)} {l : List SVal}, Objects P fs l → ∀ {i : Nat} {n : Bytes} {t : CTy}, fs[i]? = some (n, t) → Object P t (l.getD i .unset)
  | _, _, .nil, i, n, t, h => by simp at h
  | f :: fs, v :: l, .cons h hs, i, n, t, e => by
    cases i with
    | zero => simp only [List.getElem?_cons_zero, Option.some.injEq] at e; rw [e] at h; simpa using h
    | succ i => simp only [List.getElem?_cons_succ] at e; simpa using object_get hs e

theorem value_get : ∀ {fs : List (Bytes × CTy)} {l : List SVal}, Values P fs l → ∀ {i : Nat} {n : Bytes} {t : CTy} {v : SVal}, fs[i]? = some (n, t) → l[i]? = some v → Value P t v
  | _, _, .nil, i, n, t, v, h, _ => by simp at h
  | f :: fs, v :: l, .cons h hs, i, n, t, w, e, e' => by
    cases i with
    | zero =>
      simp only [List.getElem?_cons_zero, Option.some.injEq] at e e'
      rw [e] at h; rw [← e']; exact h
    | succ i => simp only [List.getElem?_cons_succ] at e e'; exact value_get hs e e'

theorem objects_of : ∀ {fs : List (Bytes × CTy)} {l : List SVal}, l.length = fs.length →
    (∀ i n t, fs[i]? = some (n, t) → Object P t (l.getD i .unset)) → Objects P fs l
  | [], [], _, _ => .nil
  | [], _ :: _, h, _ => by simp at h
  | _ :: _, [], h, _ => by simp at h
  | f :: fs, v :: l, h, ho => by
    refine .cons (ho 0 f.1 f.2 rfl) (objects_of (by simpa using h) fun i n t e => ?_)
    simpa using ho (i + 1) n t (by simpa using e)

theorem objects_fields {n : Bytes} {d : SVal} (h : Object P (.struct n) d) : Objects P (P.fields n) (d.fields (P.fields n).length) := by
  cases h with
  | unset =>
    refine objects_of (by simp [SVal.fields]) fun i m t _ => ?_
    have : (SVal.fields (P.fields n).length SVal.unset).getD i .unset = .unset := by
      simp only [SVal.fields, List.getD_eq_getElem?_getD, List.getElem?_replicate]
      split <;> rfl
    rw [this]
    exact .unset
  | struct h => exact h

end Abieos
