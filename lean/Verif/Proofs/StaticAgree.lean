import Verif.Props.StaticValue
import Verif.Props.StaticRead
import Verif.Props.Encode
import Verif.Props.Limits
/-! Conversions of C++ types, and those of their descriptions in a type table. -/
namespace Abieos
open Spec

section
variable {P : Prog} {T : Table} {F : Floats}

theorem described_sub {t u : CTy} (h : Described P T t) (hs : ∀ w, Uses P u w → Uses P t w) : Described P T u := fun w hw => h w (hs w hw)

theorem isExt_shape {t : CTy} (h : Described P T t) (hx : IsExt T (typeText t)) : ∃ u, t = .ext u := by
  obtain ⟨q, hq⟩ := hx
  rw [h t .self] at hq
  cases t with
  | ext u => exact ⟨u, rfl⟩
  | _ => simp [shape] at hq

theorem findAlt_names {name : Bytes} : ∀ (ts : List CTy) (i : Nat), findAlt name (ts.map fun t => ⟨typeText t, typeText t⟩) i =
    (findName name ts i).map fun x => (x.1, ⟨typeText x.2, typeText x.2⟩)
  | [], i => rfl
  | t :: ts, i => by
    simp only [List.map_cons, findAlt, findName, name_eq t, findAlt_names ts (i + 1)]
    split <;> rfl

/-! ## JSON to binary: what the table's conversion accepts -/

theorem encFields_given {E : Bool → Ptr → JVal → Bytes → Prop} {allow : Bool} {ms : List (Bytes × JVal)} : ∀ (fs : List (Bytes × CTy)) (b : Bytes),
    (∀ f ∈ fs, Described P T f.2) → (∀ f ∈ fs, NoExt P f.2) →
    (∀ f ∈ fs, ∀ a x b, lastValue f.1 ms = some x → E a (typeText f.2) x b → ∃ v, Given P F f.2 x v ∧ binOf P f.2 v = .ok b ∧ Short v) →
    EncFields T E allow ms (fs.map fun f => ⟨f.1, typeText f.2⟩) b →
    ∃ vs, vs.length = fs.length ∧ binMembers P fs vs = .ok b ∧ ShortAll vs ∧
      ∀ (i : Nat) (m : Bytes) (t : CTy) (v : SVal), fs[i]? = some (m, t) → vs[i]? = some v → ∃ x, lastValue m ms = some x ∧ Given P F t x v
  | [], b, _, _, _, h => ⟨[], rfl, by rw [show b = [] from h]; rw [binMembers], trivial, by simp⟩
  | f :: fs, b, hd, hx, hE, h => by
    rcases h with ⟨-, h1, -⟩ | ⟨x, b1, b2, h1, h2, h3, rfl⟩
    · exfalso
      have := (h1 ⟨f.1, typeText f.2⟩ (by simp)).1
      obtain ⟨u, hu⟩ := isExt_shape (hd f (by simp)) this
      exact hx f (by simp) u (hu ▸ .self)
    · obtain ⟨v, k1, k2, k3⟩ := hE f (by simp) _ x b1 h1 h2
      obtain ⟨vs, l1, l2, l3, l4⟩ := encFields_given fs b2 (fun g hg => hd g (by simp [hg])) (fun g hg => hx g (by simp [hg])) (fun g hg => hE g (by simp [hg])) h3
      refine ⟨v :: vs, by simp [l1], by rw [binMembers, k2, bind_ok, l2, bind_ok], ⟨k3, l3⟩, ?_⟩
      intro i m t w e1 e2
      cases i with
      | zero =>
        simp only [List.getElem?_cons_zero, Option.some.injEq] at e1 e2
        subst e1 e2
        exact ⟨x, h1, k1⟩
      | succ i => exact l4 i m t w (by simpa using e1) (by simpa using e2)

theorem encElems_given {E : JVal → Bytes → Prop} {t : CTy} : ∀ (l : List JVal) (b : Bytes),
    (∀ d ∈ l, ∀ b, E d b → ∃ v, Given P F t d v ∧ binOf P t v = .ok b ∧ Short v) → EncElems E l b →
    ∃ vs, vs.length = l.length ∧ GivenAll P F t l vs ∧ binElems P t vs = .ok b ∧ ShortAll vs
  | [], b, _, h => ⟨[], rfl, .nil, by rw [show b = [] from h]; rw [binElems], trivial⟩
  | d :: l, b, hE, ⟨b1, b2, h1, h2, e⟩ => by
    subst e
    obtain ⟨v, k1, k2, k3⟩ := hE d (by simp) b1 h1
    obtain ⟨vs, l1, l2, l3, l4⟩ := encElems_given l b2 (fun g hg => hE g (by simp [hg])) h2
    exact ⟨v :: vs, by simp [l1], .cons k1 l2, by rw [binElems, k2, bind_ok, l3, bind_ok], ⟨k3, l4⟩⟩

theorem nodup_firstField {fs : List (Bytes × CTy)} (hnd : (fs.map Prod.fst).Nodup) {i : Nat} {m : Bytes} {t : CTy} (h : fs[i]? = some (m, t)) : FirstField fs i m := by
  intro j u hj hu
  have hi : i < (fs.map Prod.fst).length := by
    rcases Nat.lt_or_ge i fs.length with h' | h'
    · simpa using h'
    · rw [List.getElem?_eq_none h'] at h; cases h
  have := (List.getElem?_inj (by omega : j < (fs.map Prod.fst).length) hnd (j := i)).1 (by simp [hu, h])
  omega

theorem enc_given : ∀ (n : Nat) (allow : Bool) (t : CTy) (d : JVal) (b : Bytes), Described P T t → NoExt P t → MembersDiffer P t → UniqueKeys d →
    Enc T (builtins F) n allow (typeText t) d b → ∃ v, Given P F t d v ∧ binOf P t v = .ok b ∧ Short v
  | 0, _, _, _, _, _, _, _, _, h => h.elim
  | n + 1, allow, t, d, b, hd, hx, hm, hu, h => by
    unfold Enc at h
    rw [hd t .self] at h
    cases t with
    | leaf k =>
      obtain ⟨s, rfl, h⟩ := h
      replace h : builtinToBin F k s = .ok b := h
      cases s with
      | bool x => exact ⟨.leaf b, .bool h, by simp only [binOf, CTy.strip], trivial⟩
      | str x => exact ⟨.leaf b, .str h, by simp only [binOf, CTy.strip], trivial⟩
    | opt t =>
      simp only [shape] at h
      rcases h with ⟨rfl, rfl⟩ | ⟨h1, b', rfl, h2⟩
      · exact ⟨.absent, .absent, by simp only [binOf, CTy.strip], trivial⟩
      · obtain ⟨v, k1, k2, k3⟩ := enc_given n _ t d b' (described_sub hd fun _ => .opt) (fun u hu => hx u (.opt hu)) (fun u hu => hm u (.opt hu)) hu h2
        exact ⟨.present v, .present h1 k1, by simp only [binOf, CTy.strip]; rw [k2, bind_ok], k3⟩
    | ext t => exact (hx t .self).elim
    | struct m =>
      simp only [shape] at h
      obtain ⟨ms, rfl, h⟩ := h
      simp only [UniqueKeys] at hu
      obtain ⟨vs, h1, h2, h3, h4⟩ := encFields_given (F := F) (P := P) (P.fields m) b
        (fun f hf => described_sub hd fun _ hw => .field (m := f.1) hf hw)
        (fun f hf u hu => hx u (.field (m := f.1) hf hu))
        (fun f hf a x b e1 e2 => enc_given n a f.2 x b (described_sub hd fun _ hw => .field (m := f.1) hf hw)
          (fun u hu => hx u (.field (m := f.1) hf hu)) (fun u hu => hm u (.field (m := f.1) hf hu))
          (uniqueKeys_member hu.2 f.1 x ((lastValue_mem hu.1).1 e1)) e2) h
      refine ⟨.struct vs, .struct h1 ?_ ?_, by simp only [binOf, CTy.strip]; exact h2, h3⟩
      · intro i m' t v d e1 e2 _ e4
        obtain ⟨x, e5, e6⟩ := h4 i m' t v e1 e2
        rw [nodup_member hu.1 e4 ((lastValue_mem hu.1).1 e5)]
        exact e6
      · intro i m' t v e1 e2 e3
        exfalso
        rcases e3 with e3 | e3
        · exact e3 (nodup_firstField (hm m .self) e1)
        · obtain ⟨x, e5, e6⟩ := h4 i m' t v e1 e2
          exact e3 (List.mem_map.2 ⟨_, (lastValue_mem hu.1).1 e5, rfl⟩)
    | vec t =>
      simp only [shape] at h
      obtain ⟨l, c, b', rfl, hl, h1, h2, rfl⟩ := h
      simp only [UniqueKeys] at hu
      obtain ⟨vs, k1, k2, k3, k4⟩ := encElems_given (F := F) (P := P) (t := t) l b' (fun d hd' b h => enc_given n _ t d b (described_sub hd fun _ => .vec)
        (fun u hu => hx u (.vec hu)) (fun u hu => hm u (.vec hu)) (uniqueKeys_elem hu d hd') h) h2
      exact ⟨.vec vs, .vec k2, by simp only [binOf, CTy.strip]; rw [k1, h1, bind_ok, k3, bind_ok], by rw [Short, k1]; exact ⟨hl, k4⟩⟩
    | variant ts =>
      simp only [shape] at h
      obtain ⟨name, x, i, f, c, b', rfl, h1, h2, h3, rfl⟩ := h
      rw [findAlt_names] at h1
      simp only [Option.map_eq_some_iff] at h1
      obtain ⟨⟨j, t⟩, h1, h4⟩ := h1
      simp only [Prod.mk.injEq] at h4
      obtain ⟨rfl, rfl⟩ := h4
      obtain ⟨p, rfl, h5, rfl, h6⟩ := findName_some.1 h1
      rw [Nat.zero_add] at h2
      simp only [UniqueKeys, UniqueKeys.go] at hu
      obtain ⟨v, k1, k2, k3⟩ := enc_given n _ t x b' (described_sub hd fun _ => .alt (List.mem_of_getElem? h5)) (fun u hu => hx u (.alt (List.mem_of_getElem? h5) hu))
        (fun u hu => hm u (.alt (List.mem_of_getElem? h5) hu)) hu.2.1 h3
      exact ⟨.alt p v, .alt h5 h6 k1, by simp only [binOf, CTy.strip, h5]; rw [h2, bind_ok, k2, bind_ok], k3⟩

/-! ## JSON to binary: what the C++ type accepts -/

theorem members_at : ∀ {fs : List (Bytes × CTy)} {vs : List SVal} {b : Bytes}, binMembers P fs vs = .ok b →
    ∀ (i : Nat) (m : Bytes) (t : CTy) (v : SVal), fs[i]? = some (m, t) → vs[i]? = some v → ∃ b, binOf P t v = .ok b
  | [], [], _, _, i, _, _, _, h, _ => by simp at h
  | f :: fs, v :: vs, b, h, i, m, t, w, e1, e2 => by
    rw [binMembers] at h
    obtain ⟨b1, h1, h⟩ := bind_eq_ok.1 h
    obtain ⟨b2, h2, h⟩ := bind_eq_ok.1 h
    cases i with
    | zero =>
      simp only [List.getElem?_cons_zero, Option.some.injEq] at e1 e2
      subst e1 e2
      exact ⟨b1, h1⟩
    | succ i => exact members_at h2 i m t w (by simpa using e1) (by simpa using e2)
  | [], _ :: _, _, h, _, _, _, _, _, _ => by simp [binMembers] at h
  | _ :: _, [], _, h, _, _, _, _, _, _ => by simp [binMembers] at h

theorem shortAll_at : ∀ {vs : List SVal}, ShortAll vs → ∀ v ∈ vs, Short v
  | [], _, v, h => by simp at h
  | w :: vs, h, v, hv => by
    rcases List.mem_cons.1 hv with rfl | hv
    · exact h.1
    · exact shortAll_at h.2 v hv

theorem given_encFields {E : Bool → Ptr → JVal → Bytes → Prop} {allow : Bool} {ms : List (Bytes × JVal)} : ∀ (fs : List (Bytes × CTy)) (vs : List SVal) (b : Bytes),
    (∀ (i : Nat) (m : Bytes) (t : CTy) (v : SVal), fs[i]? = some (m, t) → vs[i]? = some v → ∃ x, lastValue m ms = some x ∧ ∀ a b, binOf P t v = .ok b → E a (typeText t) x b) →
    binMembers P fs vs = .ok b → EncFields T E allow ms (fs.map fun f => ⟨f.1, typeText f.2⟩) b
  | [], [], b, _, h => by rw [binMembers] at h; cases h; rfl
  | f :: fs, v :: vs, b, hE, h => by
    rw [binMembers] at h
    obtain ⟨b1, h1, h⟩ := bind_eq_ok.1 h
    obtain ⟨b2, h2, h⟩ := bind_eq_ok.1 h
    injection h with h
    obtain ⟨x, h3, h4⟩ := hE 0 f.1 f.2 v rfl rfl
    exact .inr ⟨x, b1, b2, h3, h4 _ _ h1, given_encFields fs vs b2 (fun i m t w e1 e2 => hE (i + 1) m t w (by simpa using e1) (by simpa using e2)) h2, h.symm⟩
  | [], _ :: _, _, _, h => by simp [binMembers] at h
  | _ :: _, [], _, _, h => by simp [binMembers] at h

mutual
theorem given_enc : ∀ {t : CTy} {d : JVal} {v : SVal} {b : Bytes}, Described P T t → UniqueKeys d → Given P F t d v → binOf P t v = .ok b → Short v →
    ∃ n, ∀ allow, Enc T (builtins F) n allow (typeText t) d b
  | .leaf k, _, _, b, hd, _, .bool h, hb, _ => by
    refine ⟨1, fun allow => ?_⟩
    unfold Enc; rw [hd _ .self]
    simp only [binOf, CTy.strip, Except.ok.injEq] at hb
    subst hb
    exact ⟨.bool _, rfl, h⟩
  | .leaf k, _, _, b, hd, _, .str h, hb, _ => by
    refine ⟨1, fun allow => ?_⟩
    unfold Enc; rw [hd _ .self]
    simp only [binOf, CTy.strip, Except.ok.injEq] at hb
    subst hb
    exact ⟨.str _, rfl, h⟩
  | .vec t, .arr l, .vec vs, b, hd, hu, .vec h, hb, hs => by
    simp only [binOf, CTy.strip] at hb
    obtain ⟨c, h1, hb⟩ := bind_eq_ok.1 hb
    obtain ⟨b', h2, hb⟩ := bind_eq_ok.1 hb
    injection hb with hb
    simp only [UniqueKeys] at hu
    rw [Short] at hs
    obtain ⟨h3, n, hn⟩ := given_encAll (described_sub hd fun _ => .vec) (uniqueKeys_elem hu) h h2 hs.2
    refine ⟨n + 1, fun allow => ?_⟩
    unfold Enc; rw [hd _ .self]
    exact ⟨l, c, b', rfl, by rw [← h3]; exact hs.1, by rw [← h3]; exact h1, hn false, hb.symm⟩
  | .opt t, _, _, b, hd, _, .absent, hb, _ => by
    refine ⟨1, fun allow => ?_⟩
    unfold Enc; rw [hd _ .self]
    simp only [binOf, CTy.strip, Except.ok.injEq] at hb
    exact .inl ⟨rfl, hb.symm⟩
  | .opt t, d, .present v, b, hd, hu, .present h1 h2, hb, hs => by
    simp only [binOf, CTy.strip] at hb
    obtain ⟨b', h3, hb⟩ := bind_eq_ok.1 hb
    injection hb with hb
    obtain ⟨n, hn⟩ := given_enc (described_sub hd fun _ => .opt) hu h2 h3 hs
    refine ⟨n + 1, fun allow => ?_⟩
    unfold Enc; rw [hd _ .self]
    exact .inr ⟨h1, b', hb.symm, hn allow⟩
  | _, _, _, b, hd, hu, .alt h1 h2 h3, hb, hs => by
    rename_i ts t d i v
    simp only [binOf, CTy.strip, h1] at hb
    obtain ⟨c, h4, hb⟩ := bind_eq_ok.1 hb
    obtain ⟨b', h5, hb⟩ := bind_eq_ok.1 hb
    injection hb with hb
    simp only [UniqueKeys, UniqueKeys.go] at hu
    obtain ⟨n, hn⟩ := given_enc (described_sub hd fun _ => .alt (List.mem_of_getElem? h1)) hu.2.1 h3 h5 hs
    refine ⟨n + 1, fun allow => ?_⟩
    unfold Enc; rw [hd _ .self]
    refine ⟨t.name, d, i, ⟨typeText t, typeText t⟩, c, b', rfl, ?_, h4, hn allow, hb.symm⟩
    rw [findAlt_names, findName_some.2 ⟨i, (Nat.zero_add i).symm, h1, rfl, h2⟩]
    rfl
  | .ext t, d, v, b, hd, hu, .ext h, hb, hs => by
    rw [binOf_ext] at hb
    obtain ⟨n, hn⟩ := given_enc (described_sub hd fun _ => .ext) hu h hb hs
    refine ⟨n + 1, fun allow => ?_⟩
    unfold Enc; rw [hd _ .self]
    exact hn allow
  | .struct m, .obj l, .struct vs, b, hd, hu, .struct h1 h2 h3, hb, hs => by
    simp only [binOf, CTy.strip] at hb
    simp only [UniqueKeys] at hu
    have hmem : ∀ (i : Nat) (m' : Bytes) (t : CTy) (v : SVal), (P.fields m)[i]? = some (m', t) → vs[i]? = some v → FirstField (P.fields m) i m' ∧ ∃ x, (m', x) ∈ l := by
      intro i m' t v e1 e2
      obtain ⟨c, hc⟩ := members_at hb i m' t v e1 e2
      by_cases hn : ¬ FirstField (P.fields m) i m' ∨ m' ∉ l.map Prod.fst
      · have := h3 i m' t v e1 e2 hn
        subst this
        simp [binOf] at hc
      · have hn : FirstField (P.fields m) i m' ∧ m' ∈ l.map Prod.fst := by
          constructor
          · exact Classical.byContradiction fun h => hn (.inl h)
          · exact Classical.byContradiction fun h => hn (.inr h)
        obtain ⟨⟨k, x⟩, h4, h5⟩ := List.mem_map.1 hn.2
        simp only at h5; subst h5
        exact ⟨hn.1, x, h4⟩
    have hbd : ∃ n, ∀ i, i < vs.length → ∀ m' t v x b, (P.fields m)[i]? = some (m', t) → vs[i]? = some v → (m', x) ∈ l → binOf P t v = .ok b →
        ∀ a, Enc T (builtins F) n a (typeText t) x b := by
      apply exists_bound
      · intro i n n' hn hp m' t v x b e1 e2 e3 e4 a
        exact enc_mono hn (hp m' t v x b e1 e2 e3 e4 a)
      · intro i hi
        by_cases hc : ∃ m' t v x b, (P.fields m)[i]? = some (m', t) ∧ vs[i]? = some v ∧ (m', x) ∈ l ∧ binOf P t v = .ok b
        · obtain ⟨m', t, v, x, b, e1, e2, e3, e4⟩ := hc
          obtain ⟨n, hn⟩ := given_enc (described_sub hd fun _ hw => .field (m := m') (List.mem_of_getElem? e1) hw) (uniqueKeys_member hu.2 _ _ e3)
            (h2 i m' t v x e1 e2 (hmem i m' t v e1 e2).1 e3) e4 (shortAll_at hs v (List.mem_of_getElem? e2))
          refine ⟨n, fun m'' t'' v'' d'' b'' f1 f2 f3 f4 => ?_⟩
          rw [e1] at f1; cases f1
          rw [e2] at f2; cases f2
          have : d'' = x := nodup_member hu.1 f3 e3
          subst this
          rw [e4] at f4; cases f4
          exact hn
        · exact ⟨0, fun m' t v x b e1 e2 e3 e4 => absurd ⟨m', t, v, x, b, e1, e2, e3, e4⟩ hc⟩
    obtain ⟨n, hn⟩ := hbd
    refine ⟨n + 1, fun allow => ?_⟩
    unfold Enc; rw [hd _ .self]
    refine ⟨l, rfl, given_encFields (P := P) (P.fields m) vs b ?_ hb⟩
    intro i m' t v e1 e2
    obtain ⟨e3, x, e4⟩ := hmem i m' t v e1 e2
    refine ⟨x, (lastValue_mem hu.1).2 e4, fun a b hb => hn i ?_ m' t v x b e1 e2 e4 hb a⟩
    rcases Nat.lt_or_ge i vs.length with h | h
    · exact h
    · rw [List.getElem?_eq_none h] at e2; cases e2
theorem given_encAll : ∀ {t : CTy} {l : List JVal} {vs : List SVal} {b : Bytes}, Described P T t → (∀ d ∈ l, UniqueKeys d) → GivenAll P F t l vs → binElems P t vs = .ok b → ShortAll vs →
    vs.length = l.length ∧ ∃ n, ∀ allow, EncElems (Enc T (builtins F) n allow (typeText t)) l b
  | _, [], [], b, _, _, .nil, hb, _ => ⟨rfl, 0, fun _ => by rw [binElems] at hb; cases hb; rfl⟩
  | t, d :: l, v :: vs, b, hd, hu, .cons h1 h2, hb, hs => by
    rw [binElems] at hb
    obtain ⟨b1, h3, hb⟩ := bind_eq_ok.1 hb
    obtain ⟨b2, h4, hb⟩ := bind_eq_ok.1 hb
    injection hb with hb
    obtain ⟨n, hn⟩ := given_enc hd (hu d (by simp)) h1 h3 hs.1
    obtain ⟨h5, m, hm⟩ := given_encAll hd (fun x hx => hu x (by simp [hx])) h2 h4 hs.2
    refine ⟨by simp [h5], max n m, fun allow => ⟨b1, b2, enc_mono (by omega) (hn allow), encElems_mono (fun _ _ => enc_mono (by omega)) _ _ (hm allow), hb.symm⟩⟩
end

end

end Abieos
