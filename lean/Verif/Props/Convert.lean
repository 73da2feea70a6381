import Verif.Proofs.Convert
import Verif.Props.StaticValue
/-!
**C63.** Converting between C++ types: a structure is converted member by member, by name; members the source does not have keep their
value; nothing is lost on the way to a type that has everything the first one has.
-/
namespace Abieos
open Spec

variable {P : Prog} {K : Bytes → Bytes → ConvKind} {c : Choice}

theorem kind_none {a b : Bytes} : conversionKind K a b = .none ↔ ¬ Declared K a b := by
  unfold conversionKind Declared
  cases K a b <;> cases K b a <;> simp [ConvKind.reverse]

theorem kind_narrowing {a b : Bytes} (h : Declared K a b) :
    ¬ (conversionKind K a b = .strict ∨ conversionKind K a b = .widening) ↔ MayDiscard K a b := by
  unfold conversionKind MayDiscard
  unfold Declared at h
  revert h
  cases K a b <;> cases K b a <;> simp [ConvKind.reverse]

theorem hasMember_iff {a n : Bytes} : HasMember P a n ↔ n ∈ (P.fields a).map (·.1) := by
  unfold HasMember
  simp

/-- The member at place `i` of an object that is a structure of `n` members. -/
def SVal.member (n : Nat) (d : SVal) (i : Nat) : SVal := (d.fields n).getD i .unset

/-- **C63.** The conversion between two structures succeeds exactly if one is declared, each member of the chosen structure that the other
one does not have may be discarded, and the common members can be converted. Then every member the source has is the converted one (it is
converted into what was there before), and all others are what they were. -/
theorem c63_members {a b : Bytes} {l : List SVal} {d out : SVal} (hab : a ≠ b) (da : DistinctMembers P a) (db : DistinctMembers P b)
    (hl : l.length = (P.fields a).length) (hd : Object P (.struct b) d) :
    convertV P K c (.struct a) (.struct l) (.struct b) d = .ok out ↔
      Declared K a b ∧ (∀ n, HasMember P (if c = .first then a else b) n → ¬ HasMember P (if c = .first then b else a) n → MayDiscard K a b) ∧
      ∃ l', out = .struct l' ∧ l'.length = (P.fields b).length ∧
        ∀ i n u, (P.fields b)[i]? = some (n, u) →
          (∀ (j : Nat) t v, (P.fields a)[j]? = some (n, t) → l[j]? = some v →
            convertV P K c t v u (d.member (P.fields b).length i) = .ok (l'.getD i .unset)) ∧
          (¬ HasMember P a n → l'.getD i .unset = d.member (P.fields b).length i) := by
  have hob := objects_fields hd
  have hol := objects_length hob
  rw [convertV.eq_def]
  simp only
  unfold convertGeneric
  have hs : CTy.same (.struct a) (.struct b) = false := by
    cases h : CTy.same (.struct a) (.struct b) with
    | false => rfl
    | true => have := (same_iff _ _).1 h; injection this with this; exact absurd this hab
  rw [hs]
  simp only [Bool.false_eq_true, if_false]
  by_cases hk : conversionKind K a b = .none
  · rw [if_pos hk]
    constructor
    · intro h; simp at h
    · rintro ⟨h, -⟩; exact absurd h (kind_none.1 hk)
  rw [if_neg hk]
  have hdec : Declared K a b := by
    by_cases h : Declared K a b
    · exact h
    · exact absurd (kind_none.2 h) hk
  have hnames : (c.names P a b).Nodup := by cases c; exacts [da, db]
  have hboth : ∀ {n}, n ∈ (P.fields a).map (·.1) → n ∈ (P.fields b).map (·.1) → n ∈ c.names P a b := by
    intro n h1 h2; cases c; exacts [h1, h2]
  have hli : ∀ {l'}, convertLoop (conversionKind K a b) (memberConversions P K c (P.fields a) l) (P.fields b) (c.names P a b)
      (d.fields (P.fields b).length) = .ok l' ↔ _ := fun {l'} => loop_iff db (c.names P a b) _ l' hnames hol
  constructor
  · intro h
    obtain ⟨l', h1, h⟩ := bind_eq_ok.1 h
    injection h with h
    obtain ⟨h2, h3, h4⟩ := hli.1 h1
    refine ⟨hdec, ?_, l', h.symm, h2, ?_⟩
    · intro n hn hn'
      refine (kind_narrowing hdec).1 (h3 n ?_ ?_)
      · cases c
        · exact hasMember_iff.1 hn
        · exact hasMember_iff.1 hn
      · cases c
        · exact .inr fun h => hn' (hasMember_iff.2 h)
        · refine .inl ((conversions_none hl.symm).2 fun h => hn' (hasMember_iff.2 h))
    · intro i n u hi
      obtain ⟨h5, h6⟩ := h4 i n u hi
      refine ⟨fun j t v hj hv => ?_, fun hn => ?_⟩
      · exact h5 (hboth (List.mem_map.2 ⟨(n, t), List.mem_of_getElem? hj, rfl⟩) (List.mem_map.2 ⟨(n, u), List.mem_of_getElem? hi, rfl⟩))
          _ ((conversions_lookup da hl.symm).2 ⟨j, t, v, hj, hv, rfl⟩)
      · exact h6 (.inr ((conversions_none hl.symm).2 fun h => hn (hasMember_iff.2 h)))
  · rintro ⟨-, h3, l', rfl, h2, h4⟩
    refine bind_eq_ok.2 ⟨l', hli.2 ⟨h2, ?_, ?_⟩, rfl⟩
    · intro n hn hm
      refine (kind_narrowing hdec).2 ?_
      cases c
      · refine h3 n (hasMember_iff.2 hn) fun h => ?_
        rcases hm with hm | hm
        · exact (conversions_none hl.symm).1 hm hn
        · exact hm (hasMember_iff.1 h)
      · refine h3 n (hasMember_iff.2 hn) fun h => ?_
        rcases hm with hm | hm
        · exact (conversions_none hl.symm).1 hm (hasMember_iff.1 h)
        · exact hm hn
    · intro i n u hi
      obtain ⟨h5, h6⟩ := h4 i n u hi
      refine ⟨fun _ f hf => ?_, fun hn => h6 fun h => ?_⟩
      · obtain ⟨j, t, v, hj, hv, rfl⟩ := (conversions_lookup da hl.symm).1 hf
        exact h5 j t v hj hv
      · have hb : n ∈ (P.fields b).map (·.1) := List.mem_map.2 ⟨(n, u), List.mem_of_getElem? hi, rfl⟩
        rcases hn with hn | hn
        · exact hn (hboth (hasMember_iff.1 h) hb)
        · exact (conversions_none hl.symm).1 hn (hasMember_iff.1 h)

theorem generic_same (t : CTy) (v : SVal) (src d) : convertGeneric P K c t t v src d = .ok v := by
  unfold convertGeneric
  rw [if_pos ((same_iff t t).2 rfl)]

mutual
theorem copy_value : ∀ (v : SVal) (t : CTy), Copyable t → Value P t v → ∀ d, convertV P K c t v t d = .ok v
  | .leaf b, t, _, _, d => by rw [convertV.eq_def]; exact generic_same ..
  | .unset, t, _, _, d => by rw [convertV.eq_def]; exact generic_same ..
  | .struct l, t, _, _, d => by
    rw [convertV.eq_def]
    cases t <;> exact generic_same ..
  | .absent, t, _, _, d => by
    rw [convertV.eq_def]
    cases t <;> first | exact generic_same .. | rfl
  | .present w, t, hc, hv, d => by
    rw [convertV.eq_def]
    cases t with
    | opt t =>
      cases hv with
      | present hw => simp only; rw [copy_value w t hc hw]; rfl
    | _ => exact generic_same ..
  | .alt i w, t, hc, hv, d => by
    rw [convertV.eq_def]
    cases t with
    | variant ts => exact hc.elim
    | _ => exact generic_same ..
  | .vec l, t, hc, hv, d => by
    rw [convertV.eq_def]
    cases t with
    | vec t =>
      cases hv with
      | vec hw => simp only; rw [copy_all l t hc hw _ (by simp [resize]; omega)]; rfl
    | _ => exact generic_same ..
theorem copy_all : ∀ (l : List SVal) (t : CTy), Copyable t → (∀ v ∈ l, Value P t v) → ∀ ds, ds.length = l.length → convertAll P K c t l t ds = .ok l
  | [], t, _, _, ds, _ => by rw [convertAll]; simp
  | v :: l, t, hc, hv, [], h => by simp at h
  | v :: l, t, hc, hv, d :: ds, h => by
    rw [convertAll, copy_value v t hc (hv v (by simp)), copy_all l t hc (fun w hw => hv w (by simp [hw])) ds (by simpa using h)]
    rfl
end

/-- **C63.** A value converted to its own type is copied, whatever was there before. -/
theorem c63_copy {t : CTy} {v : SVal} (h : Copyable t) (hv : Value P t v) (d : SVal) : convertV P K c t v t d = .ok v := copy_value v t h hv d

theorem object_of_value : ∀ {t : CTy} {v : SVal}, Value P t v → Object P t v
  | _, _, .leaf => .leaf
  | _, _, .vec h => .vec fun v hv => object_of_value (h v hv)
  | _, _, .absent => .absent
  | _, _, .present h => .present (object_of_value h)
  | _, _, .alt e h => .alt e (object_of_value h)
  | _, _, .struct h => .struct (objects_of_values h)
  | _, _, .unset => .unset
  | _, _, .ext h => .ext (object_of_value h)
where
  objects_of_values : ∀ {fs : List (Bytes × CTy)} {l : List SVal}, Values P fs l → Objects P fs l
  | _, _, .nil => .nil
  | _, _, .cons h hs => .cons (object_of_value h) (objects_of_values hs)

theorem exists_list {Q : Nat → SVal → Prop} : ∀ n, (∀ i, i < n → ∃ y, Q i y) → ∃ l : List SVal, l.length = n ∧ ∀ i, i < n → Q i (l.getD i .unset)
  | 0, _ => ⟨[], rfl, by simp⟩
  | n + 1, h => by
    obtain ⟨l, hl, hq⟩ := exists_list n fun i hi => h i (by omega)
    obtain ⟨y, hy⟩ := h n (by omega)
    refine ⟨l ++ [y], by simp [hl], fun i hi => ?_⟩
    by_cases e : i < n
    · have : (l ++ [y]).getD i .unset = l.getD i .unset := by
        simp [List.getD_eq_getElem?_getD, List.getElem?_append_left (show i < l.length by omega)]
      rw [this]; exact hq i e
    · have e : i = n := by omega
      subst e
      have : (l ++ [y]).getD i .unset = y := by
        simp [List.getD_eq_getElem?_getD, ← hl]
      rw [this]; exact hy

theorem elems_objects {u : CTy} {d : SVal} (h : Object P (.vec u) d) : ∀ x ∈ d.elems, Object P u x := by
  cases h with
  | unset => intro x hx; simp [SVal.elems] at hx
  | vec h => exact h

theorem resize_objects {u : CTy} {n : Nat} {l : List SVal} (h : ∀ x ∈ l, Object P u x) : ∀ x ∈ resize n l, Object P u x := by
  intro x hx
  rcases List.mem_append.1 hx with hx | hx
  · exact h x (List.mem_of_mem_take hx)
  · rw [(List.mem_replicate.1 hx).2]; exact .unset

theorem resize_length (n : Nat) (l : List SVal) : (resize n l).length = n := by simp [resize]; omega

/-- there and back -/
def Back (P : Prog) (K : Bytes → Bytes → ConvKind) (t : CTy) (v : SVal) (u : CTy) : Prop := ∀ d, Object P u d →
  ∃ y, convertV P K .first t v u d = .ok y ∧ Object P u y ∧ ∀ d', Object P t d' → convertV P K .second u y t d' = .ok v

theorem back_struct {R : CTy → CTy → Prop} {a b : Bytes} {l : List SVal} (hab : a ≠ b) (hk : Declared K a b) (da : DistinctMembers P a)
    (db : DistinctMembers P b) (hm : ∀ n t, (n, t) ∈ P.fields a → ∃ u, (n, u) ∈ P.fields b ∧ R t u) (hl : l.length = (P.fields a).length)
    (ih : ∀ (j : Nat) n t v u, (P.fields a)[j]? = some (n, t) → l[j]? = some v → R t u → Back P K t v u) :
    Back P K (.struct a) (.struct l) (.struct b) := by
  intro d hd
  have hob := objects_fields hd
  have key : ∀ i, i < (P.fields b).length → ∃ y, ∀ n u, (P.fields b)[i]? = some (n, u) →
      (∀ (j : Nat) t v, (P.fields a)[j]? = some (n, t) → l[j]? = some v →
        convertV P K .first t v u (d.member (P.fields b).length i) = .ok y ∧ ∀ d', Object P t d' → convertV P K .second u y t d' = .ok v) ∧
      (¬ HasMember P a n → y = d.member (P.fields b).length i) ∧ Object P u y := by
    intro i hi
    have hb : (P.fields b)[i]? = some ((P.fields b)[i].1, (P.fields b)[i].2) := by rw [List.getElem?_eq_getElem hi]
    generalize (P.fields b)[i].1 = n at hb
    generalize (P.fields b)[i].2 = u at hb
    have hold := object_get hob hb
    by_cases hn : HasMember P a n
    · obtain ⟨t, ht⟩ := hn
      obtain ⟨u', hu', hr⟩ := hm n t ht
      obtain ⟨i', hi'⟩ := List.mem_iff_getElem?.1 hu'
      obtain rfl := names_inj db hb hi'
      rw [hb] at hi'
      simp only [Option.some.injEq, Prod.mk.injEq, true_and] at hi'
      subst hi'
      obtain ⟨j, hj⟩ := List.mem_iff_getElem?.1 ht
      have hjl : j < l.length := by rw [hl]; exact (List.getElem?_eq_some_iff.1 hj).1
      obtain ⟨y, hy1, hy2, hy3⟩ := ih j n t l[j] u hj (List.getElem?_eq_getElem hjl) hr _ hold
      refine ⟨y, fun n' u' hb' => ?_⟩
      rw [hb] at hb'
      simp only [Option.some.injEq, Prod.mk.injEq] at hb'
      obtain ⟨rfl, rfl⟩ := hb'
      refine ⟨fun j' t' v' hj' hv' => ?_, fun h => absurd ⟨t, ht⟩ h, hy2⟩
      obtain rfl := names_inj da hj hj'
      rw [hj] at hj'
      rw [List.getElem?_eq_getElem hjl] at hv'
      simp only [Option.some.injEq, Prod.mk.injEq, true_and] at hj' hv'
      subst hj' hv'
      exact ⟨hy1, hy3⟩
    · refine ⟨d.member (P.fields b).length i, fun n' u' hb' => ?_⟩
      rw [hb] at hb'
      simp only [Option.some.injEq, Prod.mk.injEq] at hb'
      obtain ⟨rfl, rfl⟩ := hb'
      refine ⟨fun j' t' v' hj' _ => ?_, fun _ => rfl, hold⟩
      exact absurd ⟨t', List.mem_of_getElem? hj'⟩ hn
  obtain ⟨l', hl', hq⟩ := exists_list _ key
  refine ⟨.struct l', ?_, ?_, ?_⟩
  · refine (c63_members hab da db hl hd).2 ⟨hk, ?_, l', rfl, hl', ?_⟩
    · rintro n ⟨t, ht⟩ hn
      obtain ⟨u, hu, -⟩ := hm n t ht
      exact absurd ⟨u, hu⟩ hn
    · intro i n u hi
      have := hq i (List.getElem?_eq_some_iff.1 hi).1 n u hi
      exact ⟨fun j t v hj hv => (this.1 j t v hj hv).1, this.2.1⟩
  · exact .struct (objects_of hl' fun i n u hi => (hq i (List.getElem?_eq_some_iff.1 hi).1 n u hi).2.2)
  · intro d' hd'
    refine (c63_members (Ne.symm hab) db da hl' hd').2 ⟨hk.symm, ?_, l, rfl, hl, ?_⟩
    · rintro n ⟨t, ht⟩ hn
      obtain ⟨u, hu, -⟩ := hm n t ht
      exact absurd ⟨u, hu⟩ hn
    · intro i n t hi
      have hil : i < l.length := by rw [hl]; exact (List.getElem?_eq_some_iff.1 hi).1
      refine ⟨fun j u y hj hy => ?_, fun hn => ?_⟩
      · have hjl := (List.getElem?_eq_some_iff.1 hj).1
        have h1 := (hq j hjl n u hj).1 i t l[i] hi (List.getElem?_eq_getElem hil)
        have hy' : l'.getD j .unset = y := by simp [List.getD_eq_getElem?_getD, hy]
        rw [hy'] at h1
        have h2 := h1.2 _ (object_get (objects_fields hd') hi)
        have h3 : l.getD i .unset = l[i] := by simp [List.getD_eq_getElem?_getD, hil]
        rw [h3]
        exact h2
      · obtain ⟨u, hu, -⟩ := hm n t (List.mem_of_getElem? hi)
        exact absurd ⟨u, hu⟩ hn

theorem back_same {t : CTy} {v : SVal} (h : Copyable t) (hv : Value P t v) : Back P K t v t :=
  fun d _ => ⟨v, copy_value v t h hv d, object_of_value hv, fun d' _ => copy_value v t h hv d'⟩

mutual
theorem back_value {R : CTy → CTy → Prop} (hR : Covers P K R) : ∀ (v : SVal) (T U : CTy), R T U → Value P T v → Back P K T v U
  | .struct l, T, U, hr, hv => by
    rcases hR T U hr with ⟨rfl, hc⟩ | ⟨t, u, rfl, rfl, -⟩ | ⟨t, u, rfl, rfl, -⟩ | ⟨a, b, rfl, rfl, hab, hk, da, db, hm⟩
    · exact back_same hc hv
    · cases hv
    · cases hv
    · cases hv with
      | struct hv => exact back_struct hab hk da db hm (values_length hv) (back_members hR l _ hv)
  | .vec l, T, U, hr, hv => by
    rcases hR T U hr with ⟨rfl, hc⟩ | ⟨t, u, rfl, rfl, hr'⟩ | ⟨t, u, rfl, rfl, -⟩ | ⟨a, b, rfl, rfl, -⟩
    · exact back_same hc hv
    · cases hv with
      | vec hv =>
        intro d hd
        obtain ⟨us, h1, h2, h3, h4⟩ := back_all hR l t u hr' hv (resize l.length d.elems) (resize_length _ _) (resize_objects (elems_objects hd))
        refine ⟨.vec us, ?_, .vec h3, fun d' hd' => ?_⟩
        · rw [convertV.eq_def]; simp only; rw [h1]; rfl
        · rw [convertV.eq_def]; simp only; rw [h4 _ (by rw [resize_length, h2]) (resize_objects (elems_objects hd'))]; rfl
    · cases hv
    · cases hv
  | .absent, T, U, hr, hv => by
    rcases hR T U hr with ⟨rfl, hc⟩ | ⟨t, u, rfl, rfl, hr⟩ | ⟨t, u, rfl, rfl, -⟩ | ⟨a, b, rfl, rfl, -⟩
    · exact back_same hc hv
    · cases hv
    · exact fun d _ => ⟨.absent, by rw [convertV.eq_def], .absent, fun d' _ => by rw [convertV.eq_def]⟩
    · cases hv
  | .present w, T, U, hr, hv => by
    rcases hR T U hr with ⟨rfl, hc⟩ | ⟨t, u, rfl, rfl, -⟩ | ⟨t, u, rfl, rfl, hr'⟩ | ⟨a, b, rfl, rfl, -⟩
    · exact back_same hc hv
    · cases hv
    · cases hv with
      | present hw =>
        intro d _
        obtain ⟨y, h1, h2, h3⟩ := back_value hR w t u hr' hw .unset .unset
        refine ⟨.present y, ?_, .present h2, fun d' _ => ?_⟩
        · rw [convertV.eq_def]; simp only; rw [h1]; rfl
        · rw [convertV.eq_def]; simp only; rw [h3 _ .unset]; rfl
    · cases hv
  | .leaf b, T, U, hr, hv => by
    rcases hR T U hr with ⟨rfl, hc⟩ | ⟨t, u, rfl, rfl, -⟩ | ⟨t, u, rfl, rfl, hr⟩ | ⟨a, b, rfl, rfl, -⟩
    · exact back_same hc hv
    all_goals cases hv
  | .unset, T, U, hr, hv => by
    rcases hR T U hr with ⟨rfl, hc⟩ | ⟨t, u, rfl, rfl, -⟩ | ⟨t, u, rfl, rfl, hr⟩ | ⟨a, b, rfl, rfl, -⟩
    · exact back_same hc hv
    all_goals cases hv
  | .alt i w, T, U, hr, hv => by
    rcases hR T U hr with ⟨rfl, hc⟩ | ⟨t, u, rfl, rfl, -⟩ | ⟨t, u, rfl, rfl, hr⟩ | ⟨a, b, rfl, rfl, -⟩
    · exact back_same hc hv
    all_goals cases hv
theorem back_all {R : CTy → CTy → Prop} (hR : Covers P K R) : ∀ (l : List SVal) (t u : CTy), R t u → (∀ v ∈ l, Value P t v) → ∀ ds : List SVal, ds.length = l.length →
    (∀ x ∈ ds, Object P u x) → ∃ us, convertAll P K .first t l u ds = .ok us ∧ us.length = l.length ∧ (∀ x ∈ us, Object P u x) ∧
      ∀ ds' : List SVal, ds'.length = l.length → (∀ x ∈ ds', Object P t x) → convertAll P K .second u us t ds' = .ok l
  | [], t, u, _, _, ds, _, _ => ⟨[], by rw [convertAll]; simp, rfl, by simp, fun ds' _ _ => by rw [convertAll]; simp⟩
  | v :: l, t, u, _, _, [], h, _ => by simp at h
  | v :: l, t, u, hr, hv, d :: ds, h, ho => by
    obtain ⟨y, h1, h2, h3⟩ := back_value hR v t u hr (hv v (by simp)) d (ho d (by simp))
    obtain ⟨us, h4, h5, h6, h7⟩ := back_all hR l t u hr (fun w hw => hv w (by simp [hw])) ds (by simpa using h) (fun x hx => ho x (by simp [hx]))
    refine ⟨y :: us, by rw [convertAll, h1]; simp only [bind_ok]; rw [h4]; rfl, by simp [h5], ?_, ?_⟩
    · intro x hx
      rcases List.mem_cons.1 hx with rfl | hx
      · exact h2
      · exact h6 x hx
    · intro ds' hd' ho'
      cases ds' with
      | nil => simp at hd'
      | cons d' ds' =>
        rw [convertAll, h3 d' (ho' d' (by simp))]
        simp only [bind_ok]
        rw [h7 ds' (by simpa using hd') fun x hx => ho' x (by simp [hx])]
        rfl
theorem back_members {R : CTy → CTy → Prop} (hR : Covers P K R) : ∀ (l : List SVal) (fs : List (Bytes × CTy)), Values P fs l →
    ∀ (j : Nat) n t v u, fs[j]? = some (n, t) → l[j]? = some v → R t u → Back P K t v u
  | [], fs, _, j, n, t, v, u, _, e, _ => by simp at e
  | w :: l, fs, h, j, n, t, v, u, e1, e2, hr => by
    cases h with
    | cons hw hs =>
      cases j with
      | zero =>
        simp only [List.getElem?_cons_zero, Option.some.injEq] at e1 e2
        rw [e1] at hw
        rw [← e2]
        exact back_value hR w t u hr hw
      | succ j =>
        simp only [List.getElem?_cons_succ] at e1 e2
        exact back_members hR l _ hs j n t v u e1 e2 hr
end

/-- **C63.** There and back: a value converted to a type that has everything its type has, into any object, and back again, into any object,
is the value. (The first conversion goes over the members of the first type, `choose_first`, the second over those of the second,
`choose_second`, as in the code: always those of the smaller one.) -/
theorem c63_there_and_back {R : CTy → CTy → Prop} (hR : Covers P K R) {T U : CTy} (h : R T U) {v : SVal} (hv : Value P T v) {d : SVal}
    (hd : Object P U d) : ∃ y, convertV P K .first T v U d = .ok y ∧ Object P U y ∧
      ∀ d', Object P T d' → convertV P K .second U y T d' = .ok v := back_value hR v T U h hv d hd

theorem not_variant_same {T : CTy} {ts : List CTy} (h : ∀ us, T ≠ .variant us) : T.same (.variant ts) = false := by
  cases hs : T.same (.variant ts) with
  | false => rfl
  | true => exact absurd ((same_iff _ _).1 hs) (h ts)

theorem to_variant_generic {T : CTy} {ts : List CTy} (h : ∀ us, T ≠ .variant us) (v : SVal) (src d) :
    convertGeneric P K c T (.variant ts) v src d = .error .ub := by
  unfold convertGeneric
  rw [not_variant_same h]
  cases T <;> rfl

/-- **C63.** Nothing converts to a variant, not even a variant of the same type: a program with such a member does not compile. -/
theorem c63_no_variant_target : ∀ {v : SVal} {T : CTy}, Value P T v → ∀ (ts : List CTy) (d : SVal), convertV P K c T v (.variant ts) d = .error .ub
  | .alt i w, T, hv, ts, d => by
    rw [convertV.eq_def]
    cases T with
    | variant us =>
      cases hv with
      | alt e hw =>
        simp only
        rw [e]
        exact c63_no_variant_target hw ts d
    | _ => exact to_variant_generic (by simp) ..
  | .vec l, T, hv, ts, d => by
    rw [convertV.eq_def]
    cases T with
    | variant us => cases hv
    | _ => exact to_variant_generic (by simp) ..
  | .absent, T, hv, ts, d => by
    rw [convertV.eq_def]
    cases T with
    | variant us => cases hv
    | _ => exact to_variant_generic (by simp) ..
  | .present w, T, hv, ts, d => by
    rw [convertV.eq_def]
    cases T with
    | variant us => cases hv
    | _ => exact to_variant_generic (by simp) ..
  | .struct l, T, hv, ts, d => by
    rw [convertV.eq_def]
    cases T with
    | variant us => cases hv
    | _ => exact to_variant_generic (by simp) ..
  | .leaf b, T, hv, ts, d => by
    rw [convertV.eq_def]
    cases T with
    | variant us => cases hv
    | _ => exact to_variant_generic (by simp) ..
  | .unset, T, hv, ts, d => by
    rw [convertV.eq_def]
    cases T with
    | variant us => cases hv
    | _ => exact to_variant_generic (by simp) ..

theorem value_of_stored : ∀ {t : CTy} {v : SVal} {b : Bytes}, Stored P t v b → Value P t v
  | _, _, _, .leaf _ => .leaf
  | _, _, _, .vec _ h => .vec (values_of_all h)
  | _, _, _, .absent => .absent
  | _, _, _, .present h => .present (value_of_stored h)
  | _, _, _, .alt e _ h => .alt e (value_of_stored h)
  | _, _, _, .struct h => .struct (values_of_fields h)
  | _, _, _, .ext h _ => .ext (value_of_stored h)
where
  values_of_all : ∀ {t : CTy} {l : List SVal} {b : Bytes}, StoredAll P t l b → ∀ v ∈ l, Value P t v
  | _, _, _, .nil => List.forall_mem_nil _
  | _, _, _, .cons h hs => List.forall_mem_cons.2 ⟨value_of_stored h, values_of_all hs⟩
  values_of_fields : ∀ {fs : List (Bytes × CTy)} {l : List SVal} {b : Bytes}, StoredFields P fs l b → Values P fs l
  | _, _, _, .nil => .nil
  | _, _, _, .cons h hs => .cons (value_of_stored h) (values_of_fields hs)

/-- **C63.** Reading a structure through the type `S` that `serialize_as` names: exactly one object results, what follows is left, and nothing
that was in the bytes is lost: converted back to `S` the object is the value that was written. -/
theorem c63_serialize_as {R : CTy → CTy → Prop} (hR : Covers P K R) {S T : CTy} (h : R S T) {v obj : SVal} {b rest : Bytes} (hv : Stored P S v b)
    (ho : Object P T obj) : ∃ out, (∀ out' rest', ReadAs P K S T (b ++ rest) obj out' rest' ↔ out' = out ∧ rest' = rest) ∧
      ∀ d, Object P S d → convertV P K .second T out S d = .ok v := by
  obtain ⟨y, h1, -, h3⟩ := c63_there_and_back hR h (value_of_stored hv) ho
  obtain ⟨n, hn⟩ := stored_read hv
  have hf : FromBin P S (b ++ rest) v rest := ⟨n, hn n (Nat.le_refl n) rest⟩
  refine ⟨y, fun out' rest' => ⟨?_, ?_⟩, h3⟩
  · rintro ⟨temp, hf', hc⟩
    obtain ⟨rfl, rfl⟩ := fromBin_unique hf hf'
    rw [h1] at hc
    injection hc with hc
    exact ⟨hc.symm, rfl⟩
  · rintro ⟨rfl, rfl⟩
    exact ⟨v, hf, h1⟩

namespace ConvertExample

/-- `struct small { uint8 x; std::optional<name> y; std::vector<small> next; }` and `struct big { std::vector<big> next; string z; uint8 x; std::optional<name> y; }` -/
def prog : Prog := [(str "small", [(str "x", .leaf .uint8), (str "y", .opt (.leaf .name)), (str "next", .vec (.struct (str "small")))]),
  (str "big", [(str "next", .vec (.struct (str "big"))), (str "z", .leaf .string), (str "x", .leaf .uint8), (str "y", .opt (.leaf .name))])]

/-- `widening_conversion conversion_kind(small, big);` -/
def kinds : Bytes → Bytes → ConvKind := fun a b => if a = str "small" ∧ b = str "big" then .widening else .none

inductive Rel : CTy → CTy → Prop
  | top : Rel (.struct (str "small")) (.struct (str "big"))
  | x : Rel (.leaf .uint8) (.leaf .uint8)
  | y : Rel (.opt (.leaf .name)) (.opt (.leaf .name))
  | next : Rel (.vec (.struct (str "small"))) (.vec (.struct (str "big")))

theorem covers : Covers prog kinds Rel := by
  intro T U h
  cases h with
  | top =>
    refine .inr (.inr (.inr ⟨_, _, rfl, rfl, by decide, .inl (by decide), by unfold DistinctMembers; decide, by unfold DistinctMembers; decide, ?_⟩))
    intro n t hm
    have hm : (n, t) ∈ [(str "x", CTy.leaf .uint8), (str "y", .opt (.leaf .name)), (str "next", .vec (.struct (str "small")))] := hm
    simp only [List.mem_cons, Prod.mk.injEq, List.not_mem_nil, or_false] at hm
    have hb : prog.fields (str "big") = [(str "next", .vec (.struct (str "big"))), (str "z", .leaf .string), (str "x", .leaf .uint8), (str "y", .opt (.leaf .name))] := rfl
    rw [hb]
    rcases hm with ⟨rfl, rfl⟩ | ⟨rfl, rfl⟩ | ⟨rfl, rfl⟩
    · exact ⟨.leaf .uint8, by simp, .x⟩
    · exact ⟨_, by simp, .y⟩
    · exact ⟨_, by simp, .next⟩
  | x => exact .inl ⟨rfl, trivial⟩
  | y => exact .inl ⟨rfl, trivial⟩
  | next => exact .inr (.inl ⟨_, _, rfl, rfl, .top⟩)

/-- a value of `small` -/
def inner : SVal := .struct [.leaf [7], .absent, .vec []]
def value : SVal := .struct [.leaf [1], .present (.leaf [0, 0, 0, 0, 0, 0, 0, 0]), .vec [inner]]

example : Value prog (.struct (str "small")) value :=
  .struct (.cons .leaf (.cons (.present .leaf) (.cons (.vec fun v hv => by
    obtain rfl := List.mem_singleton.1 hv
    exact .struct (.cons .leaf (.cons .absent (.cons (.vec fun v hv => by simp at hv) .nil)))) .nil)))

/-- The elements of a vector keep what their type alone has: here `z`, which was 5 in the first element of the destination. -/
example : convertV prog kinds .first (.struct (str "small")) value (.struct (str "big"))
      (.struct [.vec [.struct [.vec [], .leaf [5], .leaf [0], .absent]], .leaf [9], .leaf [0], .absent]) =
    .ok (.struct [.vec [.struct [.vec [], .leaf [5], .leaf [7], .absent]], .leaf [9], .leaf [1], .present (.leaf [0, 0, 0, 0, 0, 0, 0, 0])]) := by
  rfl

end ConvertExample

end Abieos
