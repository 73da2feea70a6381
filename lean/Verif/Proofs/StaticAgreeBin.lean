import Verif.Proofs.StaticAgree
/-! Conversions of C++ types, and those of their descriptions in a type table: binary to JSON. -/
namespace Abieos
open Spec

section
variable {P : Prog} {T : Table} {F : Floats}

theorem joinComma_eq : ∀ (l : List Bytes), joinComma l = joinWith (str ",") l
  | [] => rfl
  | [t] => rfl
  | t :: u :: l => by rw [joinComma, joinWith, joinComma_eq (u :: l), List.append_assoc]; all_goals simp

theorem compact_arr (l : List Tree) : compact (.arr l) = str "[" ++ joinComma (compact.go l) ++ str "]" := by
  rw [compact, joinComma_eq, List.append_assoc]

theorem compact_obj (l : List (Bytes × Tree)) : compact (.obj l) = str "{" ++ joinComma (compact.goM l) ++ str "}" := by
  rw [compact, joinComma_eq, List.append_assoc]

theorem compact_alt (k : Bytes) (x : Tree) : compact (.arr [.atom k, x]) = str "[" ++ k ++ str "," ++ compact x ++ str "]" := by
  simp [compact, compact.go, joinWith]

theorem depth_alt (k : Bytes) (x : Tree) : (Tree.arr [.atom k, x]).depth = x.depth + 1 := by
  simp [Tree.depth, Tree.depthAll]

/-- no type that is shown is an extension -/
theorem shows_noExt {t : CTy} {v : SVal} {x : Tree} (hd : Described P T t) (h : Shows P t v x) : ¬ IsExt T (typeText t) := by
  intro hx
  obtain ⟨u, rfl⟩ := isExt_shape hd hx
  cases h

/-! ## from serialized values -/

mutual
theorem stored_dec : ∀ {t : CTy} {v : SVal} {b : Bytes} {x : Tree}, Stored P t v b → Described P T t → Shows P t v x → Short v →
    ∃ n, ∀ m, n ≤ m → ∀ allow rest, Dec T (builtins F) m allow (typeText t) (b ++ rest) (compact x) rest x.depth
  | .leaf k, _, b, _, .leaf _, hd, hx, _ => by
    cases hx with
    | @leaf _ _ t hx =>
    refine ⟨1, fun m hm allow rest => ?_⟩
    obtain ⟨m, rfl⟩ : ∃ q, m = q + 1 := ⟨m - 1, by omega⟩
    unfold Dec; rw [hd _ .self]
    obtain ⟨p, e, hp⟩ := prefix_builtin k _ _ _ hx
    rw [List.append_nil] at e; subst e
    exact ⟨by rw [compact]; exact hp rest, rfl⟩
  | .vec t, .vec l, _, _, @Stored.vec _ _ _ h b h1 h2, hd, hx, hs => by
    cases hx with
    | @vec _ _ x hx =>
    rw [Short] at hs
    obtain ⟨n, hn⟩ := stored_decAll h2 (described_sub hd fun _ => .vec) hx hs.2
    refine ⟨n + 1, fun m hm allow rest => ?_⟩
    obtain ⟨m, rfl⟩ : ∃ q, m = q + 1 := ⟨m - 1, by omega⟩
    unfold Dec; rw [hd _ .self]
    exact ⟨l.length, b ++ rest, _, _, by rw [List.append_assoc, size_read h1], hs.1, hn m (by omega) false rest, compact_arr x, by rw [Tree.depth]⟩
  | .opt t, _, _, _, .absent, hd, hx, _ => by
    cases hx
    refine ⟨1, fun m hm allow rest => ?_⟩
    obtain ⟨m, rfl⟩ : ∃ q, m = q + 1 := ⟨m - 1, by omega⟩
    unfold Dec; rw [hd _ .self]
    exact .inl ⟨rfl, by rw [compact], rfl⟩
  | .opt t, .present v, _, x, @Stored.present _ _ _ b h, hd, hx, hs => by
    cases hx with
    | present hx =>
    obtain ⟨n, hn⟩ := stored_dec h (described_sub hd fun _ => .opt) hx hs
    refine ⟨n + 1, fun m hm allow rest => ?_⟩
    obtain ⟨m, rfl⟩ : ∃ q, m = q + 1 := ⟨m - 1, by omega⟩
    unfold Dec; rw [hd _ .self]
    exact .inr ⟨1, b ++ rest, rfl, by decide, hn m (by omega) allow rest⟩
  | .variant ts, .alt i v, _, _, @Stored.alt _ _ _ t _ h b h1 h2 h3, hd, hx, hs => by
    cases hx with
    | @alt _ _ u _ x e hx =>
    rw [h1] at e; injection e with e; subst e
    obtain ⟨n, hn⟩ := stored_dec h3 (described_sub hd fun _ => .alt (List.mem_of_getElem? h1)) hx hs
    refine ⟨n + 1, fun m hm allow rest => ?_⟩
    obtain ⟨m, rfl⟩ : ∃ q, m = q + 1 := ⟨m - 1, by omega⟩
    unfold Dec; rw [hd _ .self]
    refine ⟨i, b ++ rest, ⟨typeText t, typeText t⟩, compact x, x.depth, by rw [List.append_assoc, size_read h2], by rw [List.getElem?_map, h1]; rfl, hn m (by omega) allow rest, ?_, depth_alt _ _⟩
    rw [compact_alt, name_eq]
  | .struct k, .struct l, b, _, .struct h, hd, hx, hs => by
    cases hx with
    | @struct _ _ x hx =>
    obtain ⟨n, hn⟩ := stored_decFields h (fun f hf => described_sub hd fun _ hw => .field (m := f.1) hf hw) hx hs
    refine ⟨n + 1, fun m hm allow rest => ?_⟩
    obtain ⟨m, rfl⟩ : ∃ q, m = q + 1 := ⟨m - 1, by omega⟩
    unfold Dec; rw [hd _ .self]
    exact ⟨_, _, hn m (by omega) allow rest, compact_obj x, by rw [Tree.depth]⟩
  | .ext t, v, b, x, .ext _ _, hd, hx, _ => by cases hx
theorem stored_decAll : ∀ {t : CTy} {l : List SVal} {b : Bytes} {x : List Tree}, StoredAll P t l b → Described P T t → ShowsAll P t l x → ShortAll l →
    ∃ n, ∀ m, n ≤ m → ∀ allow rest, DecElems (Dec T (builtins F) m allow (typeText t)) l.length (b ++ rest) (compact.go x) rest (Tree.depthAll x)
  | _, [], _, _, .nil, _, hx, _ => by
    cases hx
    exact ⟨0, fun m _ _ rest => ⟨by rw [compact.go], rfl, rfl⟩⟩
  | t, v :: l, _, _, @StoredAll.cons _ _ _ _ b c h1 h2, hd, hx, hs => by
    cases hx with
    | @cons _ _ _ x r x1 x2 =>
    obtain ⟨n1, e1⟩ := stored_dec h1 hd x1 hs.1
    obtain ⟨n2, e2⟩ := stored_decAll h2 hd x2 hs.2
    refine ⟨max n1 n2, fun m hm allow rest => ?_⟩
    rw [List.length_cons, DecElems, List.append_assoc]
    exact ⟨_, _, _, _, _, e1 m (by omega) allow (c ++ rest), e2 m (by omega) allow rest, by rw [compact.go], by rw [Tree.depthAll]⟩
theorem stored_decFields : ∀ {fs : List (Bytes × CTy)} {l : List SVal} {b : Bytes} {x : List (Bytes × Tree)}, StoredFields P fs l b → (∀ f ∈ fs, Described P T f.2) →
    ShowsFields P fs l x → ShortAll l →
    ∃ n, ∀ m, n ≤ m → ∀ allow rest, DecFields T (Dec T (builtins F) m) allow (fs.map fun f => ⟨f.1, typeText f.2⟩) (b ++ rest) (compact.goM x) rest (Tree.depthMembers x)
  | [], [], _, _, .nil, _, hx, _ => by
    cases hx
    exact ⟨0, fun m _ _ rest => ⟨by rw [compact.goM], rfl, rfl⟩⟩
  | (k, t) :: fs, v :: l, _, _, @StoredFields.cons _ _ _ _ _ _ b c h1 h2, hd, hx, hs => by
    cases hx with
    | @cons _ _ _ _ _ x r x1 x2 =>
    obtain ⟨n1, e1⟩ := stored_dec h1 (hd (k, t) (by simp)) x1 hs.1
    obtain ⟨n2, e2⟩ := stored_decFields h2 (fun f hf => hd f (by simp [hf])) x2 hs.2
    refine ⟨max n1 n2, fun m hm allow rest => ?_⟩
    rw [List.append_assoc]
    exact .inr ⟨fun h => shows_noExt (hd (k, t) (by simp)) x1 h.2.2, _, _, _, _, _, e1 m (by omega) _ (c ++ rest), e2 m (by omega) allow rest,
      by rw [compact.goM, List.append_assoc], by rw [Tree.depthMembers]⟩
end

/-! ## from any input -/

theorem took_short {n : Nat} {t : CTy} (hx : NoExt P t) {s r : Bytes} {v : SVal} (h : fromBinS P n t s = .ok (v, r)) (hs : s.length < 2 ^ 32) : r.length < 2 ^ 32 := by
  obtain ⟨⟨p, rfl⟩, -⟩ := fromBinS_took n t hx s v r h
  rw [List.length_append] at hs; omega

theorem varuint_short {s r : Bytes} {c : Nat} (h : varuint32FromBin s = .ok (c, r)) (hs : s.length < 2 ^ 32) : r.length < 2 ^ 32 := by
  obtain ⟨⟨p, rfl⟩, -⟩ := varuint_took h
  rw [List.length_append] at hs; omega

theorem elems_dec {D : Bytes → Bytes → Bytes → Nat → Prop} {f : Reader SVal} {t : CTy} (hlen : ∀ s v r, f s = .ok (v, r) → s.length < 2 ^ 32 → r.length < 2 ^ 32)
    (h : ∀ s v r x, f s = .ok (v, r) → s.length < 2 ^ 32 → Shows P t v x → Short v → D s (compact x) r x.depth) :
    ∀ (n : Nat) (s : Bytes) (l : List SVal) (r : Bytes) (x : List Tree), readElems f n s = .ok (l, r) → s.length < 2 ^ 32 → ShowsAll P t l x → ShortAll l →
      l.length = n ∧ DecElems D n s (compact.go x) r (Tree.depthAll x)
  | 0, s, l, r, x, e, _, hx, _ => by
    simp only [readElems, Except.ok.injEq, Prod.mk.injEq] at e
    obtain ⟨rfl, rfl⟩ := e
    cases hx
    exact ⟨rfl, by rw [compact.go], rfl, rfl⟩
  | n + 1, s, l, r, x, e, hs, hx, hsh => by
    rw [readElems] at e
    obtain ⟨⟨v, s1⟩, h1, e⟩ := bind_eq_ok.1 e
    obtain ⟨⟨l', s2⟩, h2, e⟩ := bind_eq_ok.1 e
    simp only [Except.ok.injEq, Prod.mk.injEq] at e
    obtain ⟨rfl, rfl⟩ := e
    cases hx with
    | @cons _ _ _ x r x1 x2 =>
    obtain ⟨k1, k2⟩ := elems_dec hlen h n _ _ _ _ h2 (hlen _ _ _ h1 hs) x2 hsh.2
    exact ⟨by simp [k1], _, _, _, _, _, h _ _ _ _ h1 hs x1 hsh.1, k2, by rw [compact.go], by rw [Tree.depthAll]⟩

theorem fields_dec {D : Bool → Ptr → Bytes → Bytes → Bytes → Nat → Prop} {f : CTy → Reader SVal} {allow : Bool} : ∀ (fs : List (Bytes × CTy)),
    (∀ m ∈ fs, ∀ s v r, f m.2 s = .ok (v, r) → s.length < 2 ^ 32 → r.length < 2 ^ 32) →
    (∀ m ∈ fs, Described P T m.2) →
    (∀ m ∈ fs, ∀ a s v r x, f m.2 s = .ok (v, r) → s.length < 2 ^ 32 → Shows P m.2 v x → Short v → D a (typeText m.2) s (compact x) r x.depth) →
    ∀ (s : Bytes) (l : List SVal) (r : Bytes) (x : List (Bytes × Tree)), readMembers f fs s = .ok (l, r) → s.length < 2 ^ 32 → ShowsFields P fs l x → ShortAll l →
      DecFields T D allow (fs.map fun f => ⟨f.1, typeText f.2⟩) s (compact.goM x) r (Tree.depthMembers x)
  | [], _, _, _, s, l, r, x, e, _, hx, _ => by
    simp only [readMembers, Except.ok.injEq, Prod.mk.injEq] at e
    obtain ⟨rfl, rfl⟩ := e
    cases hx
    exact ⟨by rw [compact.goM], rfl, rfl⟩
  | m :: fs, hlen, hd, h, s, l, r, x, e, hs, hx, hsh => by
    rw [readMembers] at e
    obtain ⟨⟨v, s1⟩, h1, e⟩ := bind_eq_ok.1 e
    obtain ⟨⟨l', s2⟩, h2, e⟩ := bind_eq_ok.1 e
    simp only [Except.ok.injEq, Prod.mk.injEq] at e
    obtain ⟨rfl, rfl⟩ := e
    cases hx with
    | @cons k t _ _ _ x r x1 x2 =>
    have := fields_dec (allow := allow) fs (fun g hg => hlen g (by simp [hg])) (fun g hg => hd g (by simp [hg])) (fun g hg => h g (by simp [hg])) _ _ _ _ h2 (hlen (k, t) (by simp) _ _ _ h1 hs) x2 hsh.2
    exact .inr ⟨fun hc => shows_noExt (hd (k, t) (by simp)) x1 hc.2.2, _, _, _, _, _, h (k, t) (by simp) _ _ _ _ _ h1 hs x1 hsh.1, this,
      by rw [compact.goM, List.append_assoc], by rw [Tree.depthMembers]⟩

theorem vec_bitwise {t : CTy} (h : NoNumberVectors P (.vec t)) : t.bitwise = none := by
  cases e : t.bitwise with
  | none => rfl
  | some z =>
    obtain ⟨k, rfl, h1, -⟩ := bitwise_some e
    exact (h k .self h1).elim

/-- what is read and shown statically is read and shown dynamically -/
theorem show_dec : ∀ (n : Nat) (t : CTy) (allow : Bool) (s : Bytes) (v : SVal) (r : Bytes) (x : Tree), Described P T t → NoExt P t → NoNumberVectors P t →
    s.length < 2 ^ 32 → fromBinS P n t s = .ok (v, r) → Shows P t v x → Short v → Dec T (builtins F) n allow (typeText t) s (compact x) r x.depth
  | 0, t, _, s, v, r, x, _, _, _, _, h, _, _ => by simp [fromBinS] at h
  | n + 1, .leaf k, allow, s, v, r, x, hd, _, _, hs, h, hx, _ => by
    rw [fromBinS] at h
    cases hx with
    | leaf hx =>
    unfold Dec; rw [hd _ .self]
    exact ⟨by rw [compact]; exact (leaf_show hs).2 ⟨_, h, hx⟩, rfl⟩
  | n + 1, .vec t, allow, s, v, r, x, hd, hne, hnv, hs, h, hx, hsh => by
    rw [fromBinS, vec_bitwise hnv] at h
    obtain ⟨⟨c, s1⟩, h1, h⟩ := bind_eq_ok.1 h
    obtain ⟨⟨l, s2⟩, h2, h⟩ := bind_eq_ok.1 h
    simp only [Except.ok.injEq, Prod.mk.injEq] at h
    obtain ⟨rfl, rfl⟩ := h
    cases hx with
    | @vec _ _ x hx =>
    rw [Short] at hsh
    have hne' : NoExt P t := fun u hu => hne u (.vec hu)
    obtain ⟨k1, k2⟩ := elems_dec (P := P) (t := t) (D := Dec T (builtins F) n false (typeText t)) (fun s v r h hs => took_short hne' h hs)
      (fun s v r x h hs hx hv => show_dec n t false s v r x (described_sub hd fun _ => .vec) hne' (fun k hk => hnv k (.vec hk)) hs h hx hv)
      _ _ _ _ _ h2 (varuint_short h1 hs) hx hsh.2
    unfold Dec; rw [hd _ .self]
    refine ⟨c, s1, _, _, h1, ?_, k2, compact_arr x, by rw [Tree.depth]⟩
    rw [← k1]; exact hsh.1
  | n + 1, .opt t, allow, s, v, r, x, hd, hne, hnv, hs, h, hx, hsh => by
    rw [fromBinS] at h
    obtain ⟨⟨c, s1⟩, h1, h⟩ := bind_eq_ok.1 h
    replace h1 := readU8_ok h1
    unfold Dec; rw [hd _ .self]
    simp only at h
    split at h
    · rename_i hc
      simp only [Except.ok.injEq, Prod.mk.injEq] at h
      obtain ⟨rfl, rfl⟩ := h
      cases hx
      exact .inl ⟨by rw [h1, hc], by rw [compact], rfl⟩
    · rename_i hc
      obtain ⟨⟨w, s2⟩, h2, h⟩ := bind_eq_ok.1 h
      simp only [Except.ok.injEq, Prod.mk.injEq] at h
      obtain ⟨rfl, rfl⟩ := h
      cases hx with
      | present hx =>
      exact .inr ⟨c, s1, h1, hc, show_dec n t allow s1 w s2 x (described_sub hd fun _ => .opt) (fun u hu => hne u (.opt hu)) (fun k hk => hnv k (.opt hk))
        (by rw [h1, List.length_cons] at hs; omega) h2 hx hsh⟩
  | n + 1, .variant ts, allow, s, v, r, x, hd, hne, hnv, hs, h, hx, hsh => by
    rw [fromBinS] at h
    obtain ⟨⟨c, s1⟩, h1, h⟩ := bind_eq_ok.1 h
    simp only at h
    split at h
    · simp at h
    · rename_i t ht
      obtain ⟨⟨w, s2⟩, h2, h⟩ := bind_eq_ok.1 h
      simp only [Except.ok.injEq, Prod.mk.injEq] at h
      obtain ⟨rfl, rfl⟩ := h
      cases hx with
      | @alt _ _ u _ x e hx =>
      rw [ht] at e; injection e with e; subst e
      unfold Dec; rw [hd _ .self]
      refine ⟨c, s1, ⟨typeText t, typeText t⟩, compact x, x.depth, h1, by rw [List.getElem?_map, ht]; rfl,
        show_dec n t allow s1 w s2 x (described_sub hd fun _ => .alt (List.mem_of_getElem? ht)) (fun u hu => hne u (.alt (List.mem_of_getElem? ht) hu))
          (fun k hk => hnv k (.alt (List.mem_of_getElem? ht) hk)) (varuint_short h1 hs) h2 hx hsh, ?_, depth_alt _ _⟩
      rw [compact_alt, name_eq]
  | n + 1, .struct m, allow, s, v, r, x, hd, hne, hnv, hs, h, hx, hsh => by
    rw [fromBinS] at h
    obtain ⟨⟨l, s1⟩, h1, h⟩ := bind_eq_ok.1 h
    simp only [Except.ok.injEq, Prod.mk.injEq] at h
    obtain ⟨rfl, rfl⟩ := h
    cases hx with
    | @struct _ _ x hx =>
    unfold Dec; rw [hd _ .self]
    exact ⟨_, _, fields_dec (P := P) (P.fields m) (fun f hf s v r h hs => took_short (fun u hu => hne u (.field (m := f.1) hf hu)) h hs)
      (fun f hf => described_sub hd fun _ hw => .field (m := f.1) hf hw)
      (fun f hf a s v r x h hs hx hv => show_dec n f.2 a s v r x (described_sub hd fun _ hw => .field (m := f.1) hf hw) (fun u hu => hne u (.field (m := f.1) hf hu))
        (fun k hk => hnv k (.field (m := f.1) hf hk)) hs h hx hv) _ _ _ _ h1 hs hx hsh, compact_obj x, by rw [Tree.depth]⟩
  | n + 1, .ext t, _, _, _, _, _, _, hne, _, _, _, _, _ => (hne t .self).elim

theorem dec_elems {D : Bytes → Bytes → Bytes → Nat → Prop} {f : Reader SVal} {t : CTy} (hlen : ∀ s v r, f s = .ok (v, r) → s.length < 2 ^ 32 → r.length < 2 ^ 32)
    (h : ∀ s t' r d, s.length < 2 ^ 32 → D s t' r d → ∃ v x, f s = .ok (v, r) ∧ Shows P t v x ∧ compact x = t' ∧ x.depth = d ∧ Short v) :
    ∀ (n : Nat) (s : Bytes) (ts : List Bytes) (r : Bytes) (d : Nat), s.length < 2 ^ 32 → DecElems D n s ts r d →
      ∃ l x, readElems f n s = .ok (l, r) ∧ ShowsAll P t l x ∧ compact.go x = ts ∧ Tree.depthAll x = d ∧ ShortAll l ∧ l.length = n
  | 0, s, ts, r, d, _, ⟨h1, h2, h3⟩ => ⟨[], [], by rw [readElems, h2], .nil, by rw [compact.go, h1], by rw [Tree.depthAll, h3], trivial, rfl⟩
  | n + 1, s, ts, r, d, hs, ⟨t', mid, d1, ts', d2, h1, h2, h3, h4⟩ => by
    obtain ⟨v, x, k1, k2, k3, k4, k5⟩ := h s t' mid d1 hs h1
    obtain ⟨l, y, l1, l2, l3, l4, l5, l6⟩ := dec_elems hlen h n mid ts' r d2 (hlen _ _ _ k1 hs) h2
    refine ⟨v :: l, x :: y, ?_, .cons k2 l2, by rw [compact.go, k3, l3, h3], by rw [Tree.depthAll, k4, l4, h4], ⟨k5, l5⟩, by simp [l6]⟩
    rw [readElems, k1, bind_ok]
    simp only
    rw [l1, bind_ok]

theorem dec_fields {D : Bool → Ptr → Bytes → Bytes → Bytes → Nat → Prop} {f : CTy → Reader SVal} {allow : Bool} : ∀ (fs : List (Bytes × CTy)),
    (∀ m ∈ fs, ∀ s v r, f m.2 s = .ok (v, r) → s.length < 2 ^ 32 → r.length < 2 ^ 32) →
    (∀ m ∈ fs, Described P T m.2) → (∀ m ∈ fs, NoExt P m.2) →
    (∀ m ∈ fs, ∀ a s t' r d, s.length < 2 ^ 32 → D a (typeText m.2) s t' r d → ∃ v x, f m.2 s = .ok (v, r) ∧ Shows P m.2 v x ∧ compact x = t' ∧ x.depth = d ∧ Short v) →
    ∀ (s : Bytes) (ts : List Bytes) (r : Bytes) (d : Nat), s.length < 2 ^ 32 → DecFields T D allow (fs.map fun f => ⟨f.1, typeText f.2⟩) s ts r d →
      ∃ l x, readMembers f fs s = .ok (l, r) ∧ ShowsFields P fs l x ∧ compact.goM x = ts ∧ Tree.depthMembers x = d ∧ ShortAll l
  | [], _, _, _, _, s, ts, r, d, _, ⟨h1, h2, h3⟩ => ⟨[], [], by rw [readMembers, h2], .nil, by rw [compact.goM, h1], by rw [Tree.depthMembers, h3], trivial⟩
  | m :: fs, hlen, hd, hne, h, s, ts, r, d, hs, h0 => by
    rcases h0 with ⟨-, -, h1, -⟩ | ⟨-, t', mid, d1, ts', d2, h1, h2, h3, h4⟩
    · exfalso
      obtain ⟨u, hu⟩ := isExt_shape (hd m (by simp)) (h1 ⟨m.1, typeText m.2⟩ (by simp))
      exact hne m (by simp) u (hu ▸ .self)
    · obtain ⟨v, x, k1, k2, k3, k4, k5⟩ := h m (by simp) _ s t' mid d1 hs h1
      obtain ⟨l, y, l1, l2, l3, l4, l5⟩ := dec_fields fs (fun g hg => hlen g (by simp [hg])) (fun g hg => hd g (by simp [hg])) (fun g hg => hne g (by simp [hg])) (fun g hg => h g (by simp [hg]))
        mid ts' r d2 (hlen m (by simp) _ _ _ k1 hs) h2
      refine ⟨v :: l, (jsonString m.1, x) :: y, ?_, .cons k2 l2, by rw [compact.goM, k3, l3, h3, List.append_assoc], by rw [Tree.depthMembers, k4, l4, h4], ⟨k5, l5⟩⟩
      rw [readMembers, k1, bind_ok]
      simp only
      rw [l1, bind_ok]

/-- what is read and shown dynamically is read and shown statically -/
theorem dec_show : ∀ (n : Nat) (t : CTy) (allow : Bool) (s text r : Bytes) (d : Nat), Described P T t → NoExt P t → NoNumberVectors P t →
    s.length < 2 ^ 32 → Dec T (builtins F) n allow (typeText t) s text r d →
    ∃ v x, fromBinS P n t s = .ok (v, r) ∧ Shows P t v x ∧ compact x = text ∧ x.depth = d ∧ Short v
  | 0, _, _, _, _, _, _, _, _, _, _, h => h.elim
  | n + 1, t, allow, s, text, r, d, hd, hne, hnv, hs, h => by
    unfold Dec at h
    rw [hd t .self] at h
    cases t with
    | leaf k =>
      obtain ⟨h1, rfl⟩ := h
      obtain ⟨b, h2, h3⟩ := (leaf_show hs).1 h1
      exact ⟨_, _, by rw [fromBinS]; exact h2, .leaf h3, by rw [compact], rfl, trivial⟩
    | vec t =>
      obtain ⟨c, mid, ts, d', h1, h2, h3, rfl, rfl⟩ := h
      have hne' : NoExt P t := fun u hu => hne u (.vec hu)
      obtain ⟨l, x, k1, k2, k3, k4, k5, k6⟩ := dec_elems (P := P) (t := t) (f := fromBinS P n t) (fun s v r h hs => took_short hne' h hs)
        (fun s t' r d hs h => dec_show n t false s t' r d (described_sub hd fun _ => .vec) hne' (fun k hk => hnv k (.vec hk)) hs h) c mid ts r d' (varuint_short h1 hs) h3
      refine ⟨.vec l, .arr x, ?_, .vec k2, by rw [compact_arr, k3], by rw [Tree.depth, k4], by rw [Short, k6]; exact ⟨h2, k5⟩⟩
      rw [fromBinS, vec_bitwise hnv]
      simp only
      rw [h1, bind_ok]
      simp only
      rw [k1, bind_ok]
    | opt t =>
      rcases h with ⟨rfl, rfl, rfl⟩ | ⟨c, bin, rfl, h1, h2⟩
      · exact ⟨_, _, by rw [fromBinS]; rfl, .absent, by rw [compact], rfl, trivial⟩
      · obtain ⟨v, x, k1, k2, k3, k4, k5⟩ := dec_show n t allow bin text r d (described_sub hd fun _ => .opt) (fun u hu => hne u (.opt hu)) (fun k hk => hnv k (.opt hk))
          (by rw [List.length_cons] at hs; omega) h2
        refine ⟨.present v, x, ?_, .present k2, k3, k4, k5⟩
        rw [fromBinS]
        simp only [readU8, bind_ok]
        rw [if_neg h1, k1, bind_ok]
    | ext t => exact (hne t .self).elim
    | struct m =>
      obtain ⟨ms, d', h1, rfl, rfl⟩ := h
      obtain ⟨l, x, k1, k2, k3, k4, k5⟩ := dec_fields (P := P) (P.fields m) (f := fromBinS P n) (fun f hf s v r h hs => took_short (fun u hu => hne u (.field (m := f.1) hf hu)) h hs)
        (fun f hf => described_sub hd fun _ hw => .field (m := f.1) hf hw) (fun f hf u hu => hne u (.field (m := f.1) hf hu))
        (fun f hf a s t' r d hs h => dec_show n f.2 a s t' r d (described_sub hd fun _ hw => .field (m := f.1) hf hw) (fun u hu => hne u (.field (m := f.1) hf hu))
          (fun k hk => hnv k (.field (m := f.1) hf hk)) hs h) s ms r d' hs h1
      refine ⟨.struct l, .obj x, ?_, .struct k2, by rw [compact_obj, k3], by rw [Tree.depth, k4], k5⟩
      rw [fromBinS]
      simp only
      rw [k1, bind_ok]
    | variant ts =>
      obtain ⟨i, mid, f, t', d', h1, h2, h3, rfl, rfl⟩ := h
      rw [List.getElem?_map, Option.map_eq_some_iff] at h2
      obtain ⟨t, ht, rfl⟩ := h2
      obtain ⟨v, x, k1, k2, k3, k4, k5⟩ := dec_show n t allow mid t' r d' (described_sub hd fun _ => .alt (List.mem_of_getElem? ht)) (fun u hu => hne u (.alt (List.mem_of_getElem? ht) hu))
        (fun k hk => hnv k (.alt (List.mem_of_getElem? ht) hk)) (varuint_short h1 hs) h3
      refine ⟨.alt i v, _, ?_, .alt ht k2, by rw [compact_alt, k3, name_eq], by rw [depth_alt, k4], k5⟩
      rw [fromBinS]
      simp only
      rw [h1, bind_ok]
      simp only [ht]
      rw [k1, bind_ok]

end

end Abieos
