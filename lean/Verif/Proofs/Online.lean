import Verif.Proofs.LeafPrefix
/-! An error other than `Stream overrun` does not depend on the bytes that follow. -/
namespace Abieos
open Spec

/-- A reader that looks only at the bytes it consumes, and whose errors other than `Stream overrun` are not changed by further bytes. -/
structure Online {α : Type} (f : Bytes → Res (α × Bytes)) : Prop where
  reads : PrefixReader f
  final : ∀ s e, f s = .error e → e ≠ .overrun → ∀ more, f (s ++ more) = .error e

theorem Online.cut {α : Type} {f : Bytes → Res (α × Bytes)} (hf : Online f) {pre suf : Bytes} {v : α} {r : Bytes} (h : f (pre ++ suf) = .ok (v, r)) :
    f pre = .error .overrun ∨ ∃ r', f pre = .ok (v, r') ∧ r = r' ++ suf := by
  cases hp : f pre with
  | error e =>
    by_cases he : e = .overrun
    · subst he; exact .inl rfl
    · have := hf.final _ _ hp he suf
      rw [h] at this; cases this
  | ok x =>
    obtain ⟨v', r'⟩ := x
    obtain ⟨p, rfl, hp'⟩ := hf.reads _ _ _ hp
    have := hp' (r' ++ suf)
    rw [← List.append_assoc, h] at this
    cases this
    exact .inr ⟨_, rfl, rfl⟩

theorem online_ok {α : Type} (v : α) : Online (fun s => .ok (v, s)) := ⟨prefix_ok v, fun s e h => by cases h⟩

theorem online_error {α : Type} (e : Err) : Online (α := α) (fun _ => .error e) := ⟨prefix_error e, fun _ _ h _ _ => h⟩

theorem online_bind {α β : Type} {f : Bytes → Res (α × Bytes)} {g : α → Bytes → Res (β × Bytes)} (hf : Online f)
    (hg : ∀ a, Online (g a)) : Online (fun s => f s >>= fun x => g x.1 x.2) := by
  refine ⟨prefix_bind hf.reads fun a => (hg a).reads, fun s e h he more => ?_⟩
  beta_reduce at h ⊢
  cases h1 : f s with
  | error e' =>
    rw [h1] at h
    cases h
    rw [hf.final _ _ h1 he more]
    rfl
  | ok x =>
    obtain ⟨a, s1⟩ := x
    rw [h1] at h
    obtain ⟨p, rfl, hp⟩ := hf.reads _ _ _ h1
    rw [List.append_assoc, hp, bind_ok]
    exact (hg a).final _ _ h he more

theorem online_map {α β : Type} {f : Bytes → Res (α × Bytes)} (g : α → β) (hf : Online f) :
    Online (fun s => f s >>= fun x => .ok (g x.1, x.2)) := online_bind (g := fun a s => .ok (g a, s)) hf (fun _ => online_ok _)

theorem online_res {α : Type} (x : Res α) : Online (fun s => x >>= fun t => .ok (t, s)) := by
  cases x with
  | error e => exact online_error e
  | ok t => exact online_ok t

theorem online_check {α : Type} {f : Bytes → Res (α × Bytes)} (b : Bool) (e : Err) (hf : Online f) :
    Online (fun s => check b e >>= fun _ => f s) := by
  cases b
  · exact online_error e
  · exact hf

theorem online_readBytes (n : Nat) : Online (readBytes n) := by
  refine ⟨prefix_readBytes n, fun s e h he => ?_⟩
  unfold readBytes at h
  split at h
  · cases h
  · cases h; exact absurd rfl he

theorem online_readU8 : Online readU8 := by
  refine ⟨prefix_readU8, fun s e h he => ?_⟩
  cases s with
  | nil => cases h; exact absurd rfl he
  | cons => cases h

theorem final_varuintLoop (w lim : Nat) : ∀ (s : Bytes) (sh dest : Nat) (e : Err), varuintFromBinLoop w lim sh dest s = .error e → e ≠ .overrun →
    ∀ more, varuintFromBinLoop w lim sh dest (s ++ more) = .error e := by
  intro s
  induction s with
  | nil =>
    intro sh dest e h he more
    rw [varuintFromBinLoop] at h
    split at h
    · cases h; exact absurd rfl he
    · rename_i hs
      rw [varuintFromBinLoop.eq_def]
      simp only
      rw [dif_neg hs]
      exact h
  | cons b s ih =>
    intro sh dest e h he more
    rw [varuintFromBinLoop] at h
    rw [List.cons_append, varuintFromBinLoop]
    split at h
    · rename_i hs
      rw [dif_pos hs]
      simp only at h ⊢
      split at h
      · rename_i hb
        rw [if_pos hb]
        exact ih _ _ _ h he more
      · cases h
    · rename_i hs
      rw [dif_neg hs]
      exact h

theorem online_varuint32 : Online varuint32FromBin := ⟨prefix_varuint32, fun s e h he more => final_varuintLoop _ _ s 0 0 e h he more⟩
theorem online_varuint64 : Online varuint64FromBin := ⟨prefix_varuint64, fun s e h he more => final_varuintLoop _ _ s 0 0 e h he more⟩

theorem online_readN {f : Reader BVal} (hf : Online f) : ∀ n, Online (readN f n)
  | 0 => online_ok _
  | n + 1 => online_bind (g := fun v s => readN f n s >>= fun x => .ok (v :: x.1, x.2)) hf
      (fun v => online_map (fun l => v :: l) (online_readN hf n))

theorem online_readAssoc {lt : BVal → BVal → Bool} {f : Reader BVal} (hf : Online f) : ∀ n acc, Online (readAssoc lt f n acc)
  | 0, _ => online_ok _
  | n + 1, acc => online_bind (g := fun v s => readAssoc lt f n (emplaceSorted lt v acc) s) hf (fun _ => online_readAssoc hf n _)

/-- a check that the bytes to be read are there -/
theorem online_room {α : Type} {n : Nat} {f : Bytes → Res (α × Bytes)} (hf : Online f)
    (hn : ∀ s v r, f s = .ok (v, r) → s.length = n + r.length) :
    Online (fun s => check (decide (n ≤ s.length)) .overrun >>= fun _ => f s) := by
  refine ⟨prefix_room hf.reads hn, fun s e h he more => ?_⟩
  beta_reduce at h ⊢
  by_cases hl : n ≤ s.length
  · rw [decide_eq_true hl, check_true, bind_ok] at h
    rw [decide_eq_true (by rw [List.length_append]; omega), check_true, bind_ok]
    exact hf.final _ _ h he more
  · rw [decide_eq_false hl, check_false] at h
    cases h; exact absurd rfl he

mutual
theorem online_fromBin : ∀ (t : BTy), NoMaybe t → Online (fromBin t)
  | .raw n, _ => by rw [fromBin]; exact online_map BVal.raw (online_readBytes n)
  | .bool, _ => by rw [fromBin]; exact online_map (fun b => BVal.raw [if b = 0 then 0 else 1]) online_readU8
  | .varuint32, _ => by rw [fromBin]; exact online_map BVal.num online_varuint32
  | .varint32, _ => by
      rw [fromBin]
      refine online_map (fun n : BitVec 32 => BVal.num n.toNat) ?_
      exact online_map (fun v => unzigzag (BitVec.ofNat 32 v)) online_varuint32
  | .str, _ => by
      rw [fromBin]
      exact online_bind (g := fun n s => readBytes n s >>= fun x => .ok (BVal.raw x.1, x.2)) online_varuint32
        (fun n => online_map BVal.raw (online_readBytes n))
  | .rawVec n, _ => by
      rw [fromBin]
      refine online_bind (g := fun k s => check (decide (k * n % 2 ^ 64 ≤ s.length)) .overrun >>= fun _ =>
        check (decide (k ≤ vectorMax n)) .alloc >>= fun _ => readBytes (k * n % 2 ^ 64) s >>= fun x => .ok (BVal.raw x.1, x.2)) online_varuint64
        (fun k => online_room (online_check _ _ (online_map BVal.raw (online_readBytes _))) ?_)
      intro s v r h
      obtain ⟨_, -, h⟩ := bind_eq_ok.1 h
      obtain ⟨⟨b, s1⟩, h1, h2⟩ := bind_eq_ok.1 h
      obtain ⟨rfl, hl⟩ := readBytes_ok h1
      simp only [Except.ok.injEq, Prod.mk.injEq] at h2
      rw [List.length_append, hl, h2.2]
  | .vec t, h => by
      rw [fromBin]; rw [NoMaybe] at h
      exact online_bind (g := fun n s => readN (fromBin t) n s >>= fun x => .ok (BVal.list x.1, x.2)) online_varuint32
        (fun n => online_map BVal.list (online_readN (online_fromBin t h) n))
  | .set lt t, h => by
      rw [fromBin]; rw [NoMaybe] at h
      exact online_bind (g := fun n s => readAssoc lt (fromBin t) n [] s >>= fun x => .ok (BVal.list x.1, x.2)) online_varuint32
        (fun n => online_map BVal.list (online_readAssoc (online_fromBin t h) n _))
  | .map lt k v, h => by
      rw [fromBin]; rw [NoMaybe] at h
      refine online_bind (g := fun n s => readAssoc (ltKey lt) (fun s => fromBin k s >>= fun x => fromBin v x.2 >>= fun y =>
        .ok (.list [x.1, y.1], y.2)) n [] s >>= fun x => .ok (BVal.list x.1, x.2)) online_varuint32
        (fun n => online_map BVal.list (online_readAssoc ?_ n _))
      exact online_bind (g := fun a s => fromBin v s >>= fun y => .ok (BVal.list [a, y.1], y.2)) (online_fromBin k h.1)
        (fun a => online_map (fun b => BVal.list [a, b]) (online_fromBin v h.2))
  | .stream, _ => by
      rw [fromBin]
      refine online_bind (g := fun n s => check (decide (n ≤ s.length)) .overrun >>= fun _ =>
        readBytes n s >>= fun x => .ok (BVal.raw x.1, x.2)) online_varuint64
        (fun k => online_room (online_map BVal.raw (online_readBytes _)) ?_)
      intro s v r h
      obtain ⟨⟨b, s1⟩, h1, h2⟩ := bind_eq_ok.1 h
      obtain ⟨rfl, hl⟩ := readBytes_ok h1
      simp only [Except.ok.injEq, Prod.mk.injEq] at h2
      rw [List.length_append, hl, h2.2]
  | .carr n t, h => by
      rw [fromBin]; rw [NoMaybe] at h
      exact online_bind (g := fun k s => check (k == n) .array_size_mismatch >>= fun _ => readN (fromBin t) k s >>= fun x => .ok (BVal.list x.1, x.2))
        online_varuint32 (fun k => online_check _ _ (online_map BVal.list (online_readN (online_fromBin t h) k)))
  | .arr n t, h => by
      rw [fromBin]; rw [NoMaybe] at h
      exact online_map BVal.list (online_readN (online_fromBin t h) n)
  | .opt t, h => by
      rw [fromBin]; rw [NoMaybe] at h
      refine online_bind (g := fun p s => if p = 0 then .ok (BVal.none, s) else fromBin t s >>= fun x => .ok (BVal.some x.1, x.2)) online_readU8
        (fun p => ?_)
      by_cases hp : p = 0
      · simp only [hp, if_true]; exact online_ok _
      · simp only [hp, if_false]; exact online_map BVal.some (online_fromBin t h)
  | .variant ts, h => by
      rw [fromBin]; rw [NoMaybe] at h
      exact online_bind (g := fun u s => variantFromBin ts u s >>= fun x => .ok (BVal.alt u x.1, x.2)) online_varuint32
        (fun u => online_map (BVal.alt u) (online_variantFromBin ts h u))
  | .struct ts, h => by
      rw [fromBin]; rw [NoMaybe] at h
      exact online_map BVal.list (online_fromBinFields ts h)
  | .maybe _ _, h => by rw [NoMaybe] at h; exact h.elim
theorem online_variantFromBin : ∀ (ts : List BTy), NoMaybes ts → ∀ i, Online (variantFromBin ts i)
  | [], _, i => by rw [variantFromBin]; exact online_error _
  | t :: ts, h, 0 => by rw [variantFromBin]; rw [NoMaybes] at h; exact online_fromBin t h.1
  | t :: ts, h, i + 1 => by rw [variantFromBin]; rw [NoMaybes] at h; exact online_variantFromBin ts h.2 i
theorem online_fromBinFields : ∀ (ts : List BTy), NoMaybes ts → Online (fromBinFields ts)
  | [], _ => by rw [fromBinFields]; exact online_ok _
  | t :: ts, h => by
      rw [fromBinFields]; rw [NoMaybes] at h
      exact online_bind (g := fun v s => fromBinFields ts s >>= fun x => .ok (v :: x.1, x.2)) (online_fromBin t h.1)
        (fun v => online_map (fun l => v :: l) (online_fromBinFields ts h.2))
end

/-! ## The builtin types -/

theorem online_then {α : Type} {f : Bytes → Res (α × Bytes)} (g : α → Res Bytes) (hf : Online f) :
    Online (fun s => f s >>= fun x => g x.1 >>= fun t => .ok (t, x.2)) :=
  online_bind (g := fun a s => g a >>= fun t => .ok (t, s)) hf fun a => online_res (g a)

theorem online_decInt (t : IntTy) : Online (decInt t) :=
  online_map (intToJson t) (online_map (fun a => t.wrap (leVal a)) (online_readBytes (t.bits / 8)))

theorem online_decWord (n : Nat) (print : Nat → Bytes) : Online (decWord n print) :=
  online_map (fun a => jsonString (print (leVal a))) (online_readBytes n)

theorem online_decFixed (n : Nat) : Online (decFixed n) :=
  online_map (fun a => 34 :: (hexEncode a ++ [34])) (online_readBytes n)

theorem online_decFloat (n : Nat) (d : Nat → Nat) : Online (decFloat n d) :=
  online_then (fun a => fpToJson (d (leVal a))) (online_readBytes n)

theorem online_decKey {t : BTy} (h : NoMaybe t) (toStr : BVal → Res Bytes) : Online (decKey t toStr) :=
  online_bind (g := fun v s => toStr v >>= fun u => .ok (jsonString u, s)) (online_fromBin t h) fun v => by
    cases h : toStr v with
    | error e => exact online_error e
    | ok u => exact online_ok (jsonString u)

theorem online_builtin (k : Builtin) : Online (builtinFromBin k) := by
  cases k with
  | bool => exact online_map (fun b => if b ≠ 0 then str "true" else str "false") online_readU8
  | int8 => exact online_decInt _
  | uint8 => exact online_decInt _
  | int16 => exact online_decInt _
  | uint16 => exact online_decInt _
  | int32 => exact online_decInt _
  | uint32 => exact online_decInt _
  | int64 => exact online_decInt _
  | uint64 => exact online_decInt _
  | int128 => exact online_decInt _
  | uint128 => exact online_decInt _
  | varuint32 => exact online_map (fun v : Nat => intToJson ⟨false, 32⟩ v) online_varuint32
  | varint32 => exact online_map (fun v : BitVec 32 => intToJson ⟨true, 32⟩ v.toInt) (online_map (fun v => unzigzag (BitVec.ofNat 32 v)) online_varuint32)
  | float32 => exact online_decFloat _ _
  | float64 => exact online_decFloat _ _
  | float128 => exact online_decFixed _
  | time_point =>
    have e : builtinFromBin .time_point = decWord 8 (fun v => microsecondsToStr (toI64 v)) := by funext bin; simp only [builtinFromBin]
    rw [e]; exact online_decWord _ _
  | time_point_sec =>
    have e : builtinFromBin .time_point_sec = decWord 4 timePointSecToText := by funext bin; simp only [builtinFromBin]
    rw [e]; exact online_decWord _ _
  | block_timestamp =>
    have e : builtinFromBin .block_timestamp = decWord 4 slotToText := by funext bin; simp only [builtinFromBin]
    rw [e]; exact online_decWord _ _
  | name =>
    have e : builtinFromBin .name = decWord 8 nameToString := by funext bin; simp only [builtinFromBin]
    rw [e]; exact online_decWord _ _
  | bytes => exact online_bind (g := fun n s => readBytes n s >>= fun x => .ok (34 :: (hexEncode x.1 ++ [34]), x.2)) online_varuint64 fun n => online_map (fun a => 34 :: (hexEncode a ++ [34])) (online_readBytes n)
  | string => exact online_bind (g := fun n s => readBytes n s >>= fun x => .ok (jsonString x.1, x.2)) online_varuint32 fun n => online_map jsonString (online_readBytes n)
  | checksum160 => exact online_decFixed _
  | checksum256 => exact online_decFixed _
  | checksum512 => exact online_decFixed _
  | public_key => exact online_decKey (by simp [publicKeyTy, charArray, NoMaybe, NoMaybes]) _
  | private_key => exact online_decKey (by simp [privateKeyTy, charArray, NoMaybe, NoMaybes]) _
  | signature => exact online_decKey (by simp [signatureTy, charArray, NoMaybe, NoMaybes]) _
  | symbol =>
    have e : builtinFromBin .symbol = decWord 8 symbolToString := by funext bin; simp only [builtinFromBin]
    rw [e]; exact online_decWord _ _
  | symbol_code =>
    have e : builtinFromBin .symbol_code = decWord 8 symbolCodeToString := by funext bin; simp only [builtinFromBin]
    rw [e]; exact online_decWord _ _
  | asset =>
    refine online_bind (g := fun a s => readBytes 8 s >>= fun x => assetToString a (leVal x.1) >>= fun t => .ok (jsonString t, x.2))
      (online_map (fun a => IntTy.wrap ⟨true, 64⟩ (leVal a)) (online_readBytes 8)) fun a => ?_
    refine online_bind (g := fun y s => assetToString a (leVal y) >>= fun t => .ok (jsonString t, s)) (online_readBytes 8) fun y => ?_
    cases h : assetToString a (leVal y) with
    | error e => exact online_error e
    | ok t => exact online_ok (jsonString t)

/-! ## The decoder -/

/-- No struct of the table has a field with a binary extension type. -/
def NoExtFields (T : Table) : Prop := ∀ p fs, T.get p = some (.struct fs) → ∀ f ∈ fs, ¬ IsExt T f.type

theorem online_decFields {T : Table} {E : Bool → Ptr → Bytes → Res (Bytes × Bytes)} (hE : ∀ a f, Online (E a f)) {allow : Bool} :
    ∀ (fs : List Field) (pos : Int), (∀ f ∈ fs, ¬ IsExt T f.type) → Online (decFields T E allow fs pos)
  | [], pos, _ => by
    cases hq : incInt pos with
    | error e =>
      have : decFields T E allow [] pos = fun _ => .error e := by funext bin; rw [decFields, hq]; rfl
      rw [this]; exact online_error e
    | ok q =>
      have : decFields T E allow [] pos = fun bin => .ok (str "}", bin) := by funext bin; rw [decFields, hq]; rfl
      rw [this]; exact online_ok _
  | f :: fs, pos, hx => by
    cases hq : incInt pos with
    | error e =>
      have : decFields T E allow (f :: fs) pos = fun _ => .error e := by funext bin; rw [decFields, hq]; rfl
      rw [this]; exact online_error e
    | ok q =>
      cases hd : T.get f.type with
      | none =>
        have : decFields T E allow (f :: fs) pos = fun _ => .error .ub := by funext bin; rw [decFields, hq, bind_ok, hd]
        rw [this]; exact online_error _
      | some d =>
        have hne : ¬ d.isExt = true := fun h => hx f (by simp) ((isExt_iff hd).2 h)
        have : decFields T E allow (f :: fs) pos = fun bin => E (allow && fs.isEmpty) f.type bin >>= fun r => decFields T E allow fs q r.2 >>= fun r' =>
            .ok ((if q ≠ 0 then str "," else []) ++ jsonString f.name ++ str ":" ++ r.1 ++ r'.1, r'.2) := by
          funext bin
          rw [decFields, hq, bind_ok, hd]
          simp only
          rw [if_neg fun h => hne h.2.1]
        rw [this]
        exact online_bind (g := fun t s => decFields T E allow fs q s >>= fun r' =>
            .ok ((if q ≠ 0 then str "," else []) ++ jsonString f.name ++ str ":" ++ t ++ r'.1, r'.2)) (hE _ _)
          fun t => online_map (fun t' => (if q ≠ 0 then str "," else []) ++ jsonString f.name ++ str ":" ++ t ++ t')
            (online_decFields hE fs q fun g hg => hx g (by simp [hg]))

theorem online_decElems {E : Bytes → Res (Bytes × Bytes)} (hE : Online E) : ∀ (k : Nat) (pos : Int), Online (decElems E k pos)
  | 0, pos => by
    cases hq : incInt pos with
    | error e =>
      have : decElems E 0 pos = fun _ => .error e := by funext bin; rw [decElems, hq]; rfl
      rw [this]; exact online_error e
    | ok q =>
      have : decElems E 0 pos = fun bin => .ok (str "]", bin) := by funext bin; rw [decElems, hq]; rfl
      rw [this]; exact online_ok _
  | k + 1, pos => by
    cases hq : incInt pos with
    | error e =>
      have : decElems E (k + 1) pos = fun _ => .error e := by funext bin; rw [decElems, hq]; rfl
      rw [this]; exact online_error e
    | ok q =>
      have : decElems E (k + 1) pos = fun bin => E bin >>= fun r => decElems E k q r.2 >>= fun r' =>
          .ok ((if q ≠ 0 then str "," else []) ++ r.1 ++ r'.1, r'.2) := by funext bin; rw [decElems, hq]; rfl
      rw [this]
      exact online_bind (g := fun t s => decElems E k q s >>= fun r' => .ok ((if q ≠ 0 then str "," else []) ++ t ++ r'.1, r'.2)) hE
        fun t => online_map (fun t' => (if q ≠ 0 then str "," else []) ++ t ++ t') (online_decElems hE k q)

theorem online_dec {T : Table} {L : Leaves} (hT : NoExtFields T) (hL : ∀ k, Online (L.fromBin k)) : ∀ (n lvl : Nat) (allow : Bool) (ty : Ptr),
    Online (dec T L n lvl allow ty)
  | 0, lvl, allow, ty => by
    have : dec T L 0 lvl allow ty = fun _ => .error .ub := by funext bin; rw [dec]
    rw [this]; exact online_error _
  | n + 1, lvl, allow, ty => by
    have ih := online_dec hT hL n
    have e : dec T L (n + 1) lvl allow ty = fun bin => dec T L (n + 1) lvl allow ty bin := rfl
    rw [e]
    simp only [dec]
    cases hd : T.get ty with
    | none => exact online_error _
    | some d =>
      cases d with
      | builtin b => exact hL b
      | optional p =>
        refine online_bind (g := fun c s => if c ≠ 0 then dec T L n lvl allow p s else .ok (str "null", s)) online_readU8 fun c => ?_
        by_cases hc : c ≠ 0
        · simp only [if_pos hc]; exact ih lvl allow p
        · simp only [if_neg hc]; exact online_ok _
      | extension p => exact ih lvl allow p
      | struct fs =>
        by_cases hl : lvl + 1 ≤ maxStack
        · simp only [if_pos hl]
          exact online_map (fun t => str "{" ++ t) (online_decFields (fun a f => ih (lvl + 1) a f) fs _ (hT _ _ hd))
        · simp only [if_neg hl]; exact online_error _
      | array p =>
        by_cases hl : lvl + 1 ≤ maxStack
        · simp only [if_pos hl]
          exact online_bind (g := fun c s => decElems (dec T L n (lvl + 1) false p) c (-1) s >>= fun r => .ok (str "[" ++ r.1, r.2)) online_varuint32
            fun c => online_map (fun t => str "[" ++ t) (online_decElems (ih _ _ _) _ _)
        · simp only [if_neg hl]
          exact online_bind (g := fun c s => .error .recursion_limit_reached) online_varuint32 fun c => online_error _
      | variant alts =>
        by_cases hl : lvl + 1 ≤ maxStack
        · simp only [if_pos hl]
          refine online_bind (g := fun i s => match alts[i]? with
            | none => .error .bad_variant_index
            | some f => dec T L n (lvl + 1) allow f.type s >>= fun r => .ok (str "[" ++ jsonString f.name ++ str "," ++ r.1 ++ str "]", r.2)) online_varuint32
            fun i => ?_
          cases ha : alts[i]? with
          | none => exact online_error _
          | some f => exact online_map (fun t => str "[" ++ jsonString f.name ++ str "," ++ t ++ str "]") (ih (lvl + 1) allow f.type)
        · simp only [if_neg hl]; exact online_error _
      | aliasDef => exact online_error _
      | structDef => exact online_error _
      | variantDef => exact online_error _
      | «alias» => exact online_error _

end Abieos
