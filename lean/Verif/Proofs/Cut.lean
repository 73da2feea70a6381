import Verif.Proofs.Online
/-! A reader that is given only the beginning of data it can read runs out of bytes, or stops with nothing left over. -/
namespace Abieos
open Spec

/-- Given the beginning `pre` of data it can read, the reader runs out of bytes, or reads the same value and leaves the rest of `pre`, or
reads all of `pre`. -/
structure Cut {α : Type} (f : Bytes → Res (α × Bytes)) : Prop where
  nil : ∀ v r, f [] = .ok (v, r) → r = []
  cut : ∀ pre suf v r, f (pre ++ suf) = .ok (v, r) →
    f pre = .error .overrun ∨ (∃ r', f pre = .ok (v, r') ∧ r = r' ++ suf) ∨ ∃ v', f pre = .ok (v', [])

theorem Online.cuts {α : Type} {f : Bytes → Res (α × Bytes)} (hf : Online f) : Cut f := by
  refine ⟨fun v r h => ?_, fun pre suf v r h => ?_⟩
  · obtain ⟨p, hp, -⟩ := hf.reads _ _ _ h
    exact (List.append_eq_nil_iff.1 hp.symm).2
  · rcases hf.cut h with h | h
    · exact .inl h
    · exact .inr (.inl h)

/-- on no bytes at all -/
theorem Cut.empty {α : Type} {f : Bytes → Res (α × Bytes)} (hf : Cut f) {s : Bytes} {v : α} {r : Bytes} (h : f s = .ok (v, r)) :
    f [] = .error .overrun ∨ ∃ v', f [] = .ok (v', []) := by
  rcases hf.cut [] s v r h with h | ⟨r', h, -⟩ | h
  · exact .inl h
  · cases hf.nil _ _ h
    exact .inr ⟨_, h⟩
  · exact .inr h

theorem cut_bind {α β : Type} {f : Bytes → Res (α × Bytes)} {g : α → Bytes → Res (β × Bytes)} (hf : Online f)
    (hg : ∀ a, Cut (g a)) : Cut (fun s => f s >>= fun x => g x.1 x.2) := by
  refine ⟨fun v r h => ?_, fun pre suf v r h => ?_⟩
  · obtain ⟨⟨a, s1⟩, h1, h2⟩ := bind_eq_ok.1 h
    cases hf.cuts.nil _ _ h1
    exact (hg a).nil _ _ h2
  · obtain ⟨⟨a, s1⟩, h1, h2⟩ := bind_eq_ok.1 h
    rcases hf.cut h1 with h1 | ⟨r', g1, rfl⟩
    · rw [h1]; exact .inl rfl
    · rw [g1, bind_ok]
      exact (hg a).cut _ _ _ _ h2

theorem cut_seq {α β γ : Type} {f : Bytes → Res (α × Bytes)} {g : Bytes → Res (β × Bytes)} (k : α → β → γ) (hf : Cut f) (hg : Cut g) :
    Cut (fun s => f s >>= fun x => g x.2 >>= fun y => .ok (k x.1 y.1, y.2)) := by
  refine ⟨fun v r h => ?_, fun pre suf v r h => ?_⟩
  · obtain ⟨⟨a, s1⟩, h1, h2⟩ := bind_eq_ok.1 h
    obtain ⟨⟨b, s2⟩, h2, h3⟩ := bind_eq_ok.1 h2
    cases hf.nil _ _ h1
    cases hg.nil _ _ h2
    cases h3
    rfl
  · obtain ⟨⟨a, s1⟩, h1, h2⟩ := bind_eq_ok.1 h
    obtain ⟨⟨b, s2⟩, k2, h3⟩ := bind_eq_ok.1 h2
    cases h3
    rcases hf.cut _ _ _ _ h1 with h1 | ⟨r', g1, rfl⟩ | ⟨a', h1⟩
    · rw [h1]; exact .inl rfl
    · rw [g1, bind_ok]
      simp only
      rcases hg.cut _ _ _ _ k2 with h2 | ⟨r'', g2, rfl⟩ | ⟨b', h2⟩
      · rw [h2]; exact .inl rfl
      · rw [g2]; exact .inr (.inl ⟨_, rfl, rfl⟩)
      · rw [h2]; exact .inr (.inr ⟨_, rfl⟩)
    · rw [h1, bind_ok]
      simp only
      rcases hg.empty k2 with h2 | ⟨b', h2⟩
      · rw [h2]; exact .inl rfl
      · rw [h2]; exact .inr (.inr ⟨_, rfl⟩)

theorem cut_map {α β : Type} {f : Bytes → Res (α × Bytes)} (k : α → β) (hf : Cut f) : Cut (fun s => f s >>= fun x => .ok (k x.1, x.2)) :=
  cut_seq (g := fun s => .ok ((), s)) (fun a _ => k a) hf (online_ok ()).cuts

theorem cut_check {α : Type} {f : Bytes → Res (α × Bytes)} (b : Bool) (e : Err) (hf : Cut f) : Cut (fun s => check b e >>= fun _ => f s) := by
  cases b
  · exact (online_error e).cuts
  · exact hf

theorem cut_maybe {f : Reader BVal} (d : BVal) (hf : Cut f) : Cut (fun s => if s = [] then .ok (d, s) else f s) := by
  refine ⟨fun v r h => ?_, fun pre suf v r h => ?_⟩
  · rw [if_pos rfl] at h; cases h; rfl
  · beta_reduce at h ⊢
    by_cases hp : pre = []
    · rw [if_pos hp, hp]; exact .inr (.inr ⟨_, rfl⟩)
    · rw [if_neg hp]
      rw [if_neg fun h => hp (List.append_eq_nil_iff.1 h).1] at h
      exact hf.cut _ _ _ _ h

theorem cut_readN {f : Reader BVal} (hf : Cut f) : ∀ n, Cut (readN f n)
  | 0 => (online_ok _).cuts
  | n + 1 => cut_seq (g := readN f n) List.cons hf (cut_readN hf n)

theorem readAssoc_empty {lt : BVal → BVal → Bool} {f : Reader BVal} (hf : Cut f) : ∀ n acc acc' s l r, readAssoc lt f n acc s = .ok (l, r) →
    readAssoc lt f n acc' [] = .error .overrun ∨ ∃ l', readAssoc lt f n acc' [] = .ok (l', [])
  | 0, acc, acc', s, l, r, h => .inr ⟨_, rfl⟩
  | n + 1, acc, acc', s, l, r, h => by
    obtain ⟨⟨v, s1⟩, h1, h2⟩ := bind_eq_ok.1 h
    rw [readAssoc]
    rcases hf.empty h1 with h1 | ⟨v', h1⟩
    · rw [h1]; exact .inl rfl
    · rw [h1, bind_ok]
      exact readAssoc_empty hf n _ _ _ _ _ h2

theorem cut_readAssoc {lt : BVal → BVal → Bool} {f : Reader BVal} (hf : Cut f) : ∀ n acc, Cut (readAssoc lt f n acc)
  | 0, _ => (online_ok _).cuts
  | n + 1, acc => by
    refine ⟨fun v r h => ?_, fun pre suf v r h => ?_⟩
    · obtain ⟨⟨a, s1⟩, h1, h2⟩ := bind_eq_ok.1 h
      cases hf.nil _ _ h1
      exact (cut_readAssoc hf n _).nil _ _ h2
    · obtain ⟨⟨a, s1⟩, h1, h2⟩ := bind_eq_ok.1 h
      rw [readAssoc]
      rcases hf.cut _ _ _ _ h1 with h1 | ⟨r', g1, rfl⟩ | ⟨a', h1⟩
      · rw [h1]; exact .inl rfl
      · rw [g1, bind_ok]
        exact (cut_readAssoc hf n _).cut _ _ _ _ h2
      · rw [h1, bind_ok]
        rcases readAssoc_empty hf n _ (emplaceSorted lt a' acc) _ _ _ h2 with h2 | h2
        · exact .inl h2
        · exact .inr (.inr h2)

mutual
theorem cut_fromBin : ∀ (t : BTy), Cut (fromBin t)
  | .raw n => (online_fromBin (.raw n) (by simp [NoMaybe])).cuts
  | .bool => (online_fromBin .bool (by simp [NoMaybe])).cuts
  | .varuint32 => (online_fromBin .varuint32 (by simp [NoMaybe])).cuts
  | .varint32 => (online_fromBin .varint32 (by simp [NoMaybe])).cuts
  | .str => (online_fromBin .str (by simp [NoMaybe])).cuts
  | .rawVec n => (online_fromBin (.rawVec n) (by simp [NoMaybe])).cuts
  | .stream => (online_fromBin .stream (by simp [NoMaybe])).cuts
  | .vec t => by
      rw [fromBin]
      exact cut_bind (g := fun n s => readN (fromBin t) n s >>= fun x => .ok (BVal.list x.1, x.2)) online_varuint32
        (fun n => cut_map BVal.list (cut_readN (cut_fromBin t) n))
  | .set lt t => by
      rw [fromBin]
      exact cut_bind (g := fun n s => readAssoc lt (fromBin t) n [] s >>= fun x => .ok (BVal.list x.1, x.2)) online_varuint32
        (fun n => cut_map BVal.list (cut_readAssoc (cut_fromBin t) n _))
  | .map lt k v => by
      rw [fromBin]
      refine cut_bind (g := fun n s => readAssoc (ltKey lt) (fun s => fromBin k s >>= fun x => fromBin v x.2 >>= fun y =>
        .ok (.list [x.1, y.1], y.2)) n [] s >>= fun x => .ok (BVal.list x.1, x.2)) online_varuint32
        (fun n => cut_map BVal.list (cut_readAssoc ?_ n _))
      exact cut_seq (fun a b => BVal.list [a, b]) (cut_fromBin k) (cut_fromBin v)
  | .carr n t => by
      rw [fromBin]
      exact cut_bind (g := fun k s => check (k == n) .array_size_mismatch >>= fun _ => readN (fromBin t) k s >>= fun x => .ok (BVal.list x.1, x.2))
        online_varuint32 (fun k => cut_check _ _ (cut_map BVal.list (cut_readN (cut_fromBin t) k)))
  | .arr n t => by
      rw [fromBin]
      exact cut_map BVal.list (cut_readN (cut_fromBin t) n)
  | .opt t => by
      rw [fromBin]
      refine cut_bind (g := fun p s => if p = 0 then .ok (BVal.none, s) else fromBin t s >>= fun x => .ok (BVal.some x.1, x.2)) online_readU8
        (fun p => ?_)
      by_cases hp : p = 0
      · simp only [hp, if_true]; exact (online_ok _).cuts
      · simp only [hp, if_false]; exact cut_map BVal.some (cut_fromBin t)
  | .variant ts => by
      rw [fromBin]
      exact cut_bind (g := fun u s => variantFromBin ts u s >>= fun x => .ok (BVal.alt u x.1, x.2)) online_varuint32
        (fun u => cut_map (BVal.alt u) (cut_variantFromBin ts u))
  | .struct ts => by
      rw [fromBin]
      exact cut_map BVal.list (cut_fromBinFields ts)
  | .maybe d t => by rw [fromBin]; exact cut_maybe d (cut_fromBin t)
theorem cut_variantFromBin : ∀ (ts : List BTy), ∀ i, Cut (variantFromBin ts i)
  | [], i => by rw [variantFromBin]; exact (online_error _).cuts
  | t :: ts, 0 => by rw [variantFromBin]; exact cut_fromBin t
  | t :: ts, i + 1 => by rw [variantFromBin]; exact cut_variantFromBin ts i
theorem cut_fromBinFields : ∀ (ts : List BTy), Cut (fromBinFields ts)
  | [] => by rw [fromBinFields]; exact (online_ok _).cuts
  | t :: ts => by
      rw [fromBinFields]
      exact cut_seq List.cons (cut_fromBin t) (cut_fromBinFields ts)
end

/-! ## The decoder -/

theorem cut_decFields {T : Table} {E : Bool → Ptr → Bytes → Res (Bytes × Bytes)} (hE : ∀ a f, Cut (E a f)) {allow : Bool} :
    ∀ (fs : List Field) (pos : Int), Cut (decFields T E allow fs pos)
  | [], pos => (online_decFields_nil pos).cuts
  | f :: fs, pos => by
    cases hq : incInt pos with
    | error e =>
      have : decFields T E allow (f :: fs) pos = fun _ => .error e := by funext bin; rw [decFields, hq]; rfl
      rw [this]; exact (online_error e).cuts
    | ok q =>
      have ih := cut_decFields hE (T := T) (allow := allow) fs q
      cases hd : T.get f.type with
      | none =>
        have : decFields T E allow (f :: fs) pos = fun _ => .error .ub := by funext bin; rw [decFields, hq, bind_ok, hd]
        rw [this]; exact (online_error _).cuts
      | some d =>
        have : decFields T E allow (f :: fs) pos = fun bin => if bin = [] ∧ d.isExt ∧ allow then decFields T E allow fs q bin else
            E (allow && fs.isEmpty) f.type bin >>= fun r => decFields T E allow fs q r.2 >>= fun r' =>
            .ok ((if q ≠ 0 then str "," else []) ++ jsonString f.name ++ str ":" ++ r.1 ++ r'.1, r'.2) := by
          funext bin
          rw [decFields, hq, bind_ok, hd]
        rw [this]
        have hs := cut_seq (fun t t' => (if q ≠ 0 then str "," else []) ++ jsonString f.name ++ str ":" ++ t ++ t') (hE (allow && fs.isEmpty) f.type) ih
        refine ⟨fun v r h => ?_, fun pre suf v r h => ?_⟩
        · beta_reduce at h
          split at h
          · exact ih.nil _ _ h
          · exact hs.nil _ _ h
        · beta_reduce at h ⊢
          split at h
          · rename_i hc
            obtain ⟨rfl, rfl⟩ := List.append_eq_nil_iff.1 hc.1
            rw [if_pos ⟨rfl, hc.2⟩]
            exact .inr (.inl ⟨r, h, by simp⟩)
          · split
            · rename_i hc
              obtain ⟨⟨t1, r1⟩, -, h2⟩ := bind_eq_ok.1 h
              obtain ⟨⟨t2, r2⟩, h2, h3⟩ := bind_eq_ok.1 h2
              rw [hc.1]
              rcases ih.empty h2 with h | h
              · exact .inl h
              · exact .inr (.inr h)
            · exact hs.cut _ _ _ _ h
where
  online_decFields_nil {T : Table} {E : Bool → Ptr → Bytes → Res (Bytes × Bytes)} {allow : Bool} (pos : Int) : Online (decFields T E allow [] pos) := by
    cases hq : incInt pos with
    | error e =>
      have : decFields T E allow [] pos = fun _ => .error e := by funext bin; rw [decFields, hq]; rfl
      rw [this]; exact online_error e
    | ok q =>
      have : decFields T E allow [] pos = fun bin => .ok (str "}", bin) := by funext bin; rw [decFields, hq]; rfl
      rw [this]; exact online_ok _

theorem cut_decElems {E : Bytes → Res (Bytes × Bytes)} (hE : Cut E) : ∀ (k : Nat) (pos : Int), Cut (decElems E k pos)
  | 0, pos => by
    cases hq : incInt pos with
    | error e =>
      have : decElems E 0 pos = fun _ => .error e := by funext bin; rw [decElems, hq]; rfl
      rw [this]; exact (online_error e).cuts
    | ok q =>
      have : decElems E 0 pos = fun bin => .ok (str "]", bin) := by funext bin; rw [decElems, hq]; rfl
      rw [this]; exact (online_ok _).cuts
  | k + 1, pos => by
    cases hq : incInt pos with
    | error e =>
      have : decElems E (k + 1) pos = fun _ => .error e := by funext bin; rw [decElems, hq]; rfl
      rw [this]; exact (online_error e).cuts
    | ok q =>
      have : decElems E (k + 1) pos = fun bin => E bin >>= fun r => decElems E k q r.2 >>= fun r' =>
          .ok ((if q ≠ 0 then str "," else []) ++ r.1 ++ r'.1, r'.2) := by funext bin; rw [decElems, hq]; rfl
      rw [this]
      exact cut_seq (fun t t' => (if q ≠ 0 then str "," else []) ++ t ++ t') hE (cut_decElems hE k q)

theorem cut_dec {T : Table} {L : Leaves} (hL : ∀ k, Online (L.fromBin k)) : ∀ (n lvl : Nat) (allow : Bool) (ty : Ptr),
    Cut (dec T L n lvl allow ty)
  | 0, lvl, allow, ty => by
    have : dec T L 0 lvl allow ty = fun _ => .error .ub := by funext bin; rw [dec]
    rw [this]; exact (online_error _).cuts
  | n + 1, lvl, allow, ty => by
    have ih := cut_dec (T := T) hL n
    have e : dec T L (n + 1) lvl allow ty = fun bin => dec T L (n + 1) lvl allow ty bin := rfl
    rw [e]
    simp only [dec]
    cases hd : T.get ty with
    | none => exact (online_error _).cuts
    | some d =>
      cases d with
      | builtin b => exact (hL b).cuts
      | optional p =>
        refine cut_bind (g := fun c s => if c ≠ 0 then dec T L n lvl allow p s else .ok (str "null", s)) online_readU8 fun c => ?_
        by_cases hc : c ≠ 0
        · simp only [if_pos hc]; exact ih lvl allow p
        · simp only [if_neg hc]; exact (online_ok _).cuts
      | extension p => exact ih lvl allow p
      | struct fs =>
        by_cases hl : lvl + 1 ≤ maxStack
        · simp only [if_pos hl]
          exact cut_map (fun t => str "{" ++ t) (cut_decFields (fun a f => ih (lvl + 1) a f) fs _)
        · simp only [if_neg hl]; exact (online_error _).cuts
      | array p =>
        by_cases hl : lvl + 1 ≤ maxStack
        · simp only [if_pos hl]
          exact cut_bind (g := fun c s => decElems (dec T L n (lvl + 1) false p) c (-1) s >>= fun r => .ok (str "[" ++ r.1, r.2)) online_varuint32
            fun c => cut_map (fun t => str "[" ++ t) (cut_decElems (ih _ _ _) _ _)
        · simp only [if_neg hl]
          exact (online_bind (g := fun c s => .error .recursion_limit_reached) online_varuint32 fun c => online_error _).cuts
      | variant alts =>
        by_cases hl : lvl + 1 ≤ maxStack
        · simp only [if_pos hl]
          refine cut_bind (g := fun i s => match alts[i]? with
            | none => .error .bad_variant_index
            | some f => dec T L n (lvl + 1) allow f.type s >>= fun r => .ok (str "[" ++ jsonString f.name ++ str "," ++ r.1 ++ str "]", r.2)) online_varuint32
            fun i => ?_
          cases ha : alts[i]? with
          | none => exact (online_error _).cuts
          | some f => exact cut_map (fun t => str "[" ++ jsonString f.name ++ str "," ++ t ++ str "]") (ih (lvl + 1) allow f.type)
        · simp only [if_neg hl]; exact (online_error _).cuts
      | aliasDef => exact (online_error _).cuts
      | structDef => exact (online_error _).cuts
      | variantDef => exact (online_error _).cuts
      | «alias» => exact (online_error _).cuts

end Abieos
