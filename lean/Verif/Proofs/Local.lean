import Verif.Proofs.DecPrefix
import Verif.Proofs.StaticBin
/-! `from_bin` looks only at the bytes it consumes. -/
namespace Abieos
open Spec

mutual
/-- The type has no `might_not_exist` in it. -/
def NoMaybe : BTy → Prop
  | .vec t => NoMaybe t
  | .set _ t => NoMaybe t
  | .map _ k v => NoMaybe k ∧ NoMaybe v
  | .carr _ t => NoMaybe t
  | .arr _ t => NoMaybe t
  | .opt t => NoMaybe t
  | .variant ts => NoMaybes ts
  | .struct ts => NoMaybes ts
  | .maybe _ _ => False
  | _ => True
def NoMaybes : List BTy → Prop
  | [] => True
  | t :: ts => NoMaybe t ∧ NoMaybes ts
end

theorem prefix_ok {α : Type} (v : α) : PrefixReader (fun s => .ok (v, s)) := by
  intro s v' r h
  simp only [Except.ok.injEq, Prod.mk.injEq] at h
  obtain ⟨rfl, rfl⟩ := h
  exact ⟨[], rfl, fun r' => rfl⟩

theorem prefix_error {α : Type} (e : Err) : PrefixReader (α := α) (fun _ => .error e) := by
  intro s v' r h; simp at h

theorem prefix_bind {α β : Type} {f : Bytes → Res (α × Bytes)} {g : α → Bytes → Res (β × Bytes)} (hf : PrefixReader f)
    (hg : ∀ a, PrefixReader (g a)) : PrefixReader (fun s => f s >>= fun x => g x.1 x.2) := by
  intro s v r h
  obtain ⟨⟨a, s1⟩, h1, h2⟩ := bind_eq_ok.1 h
  obtain ⟨p1, rfl, hp1⟩ := hf _ _ _ h1
  obtain ⟨p2, rfl, hp2⟩ := hg _ _ _ _ h2
  refine ⟨p1 ++ p2, by simp, fun r' => ?_⟩
  beta_reduce
  rw [List.append_assoc, hp1, bind_ok]
  exact hp2 r'

theorem prefix_map {α β : Type} {f : Bytes → Res (α × Bytes)} (g : α → β) (hf : PrefixReader f) :
    PrefixReader (fun s => f s >>= fun x => .ok (g x.1, x.2)) := prefix_bind (g := fun a s => .ok (g a, s)) hf (fun _ => prefix_ok _)

theorem prefix_check {α : Type} {f : Bytes → Res (α × Bytes)} (b : Bool) (e : Err) (hf : PrefixReader f) :
    PrefixReader (fun s => check b e >>= fun _ => f s) := by
  intro s v r h
  cases b
  · simp [check, bind_error] at h
  · simp only [check, if_true, bind_ok] at h ⊢
    exact hf _ _ _ h

theorem prefix_readBytes (n : Nat) : PrefixReader (readBytes n) := by
  intro s v r h
  obtain ⟨rfl, hl⟩ := readBytes_ok h
  exact ⟨v, rfl, fun r' => readBytes_append n v r' hl⟩

theorem prefix_varuint64 : PrefixReader varuint64FromBin := fun s v r h => prefix_varuintLoop _ _ s 0 0 v r h

theorem prefix_readN {f : Reader BVal} (hf : PrefixReader f) : ∀ n, PrefixReader (readN f n)
  | 0 => prefix_ok _
  | n + 1 => prefix_bind (g := fun v s => readN f n s >>= fun x => .ok (v :: x.1, x.2)) hf
      (fun v => prefix_map (fun l => v :: l) (prefix_readN hf n))

theorem prefix_readAssoc {lt : BVal → BVal → Bool} {f : Reader BVal} (hf : PrefixReader f) : ∀ n acc, PrefixReader (readAssoc lt f n acc)
  | 0, _ => prefix_ok _
  | n + 1, acc => prefix_bind (g := fun v s => readAssoc lt f n (emplaceSorted lt v acc) s) hf (fun _ => prefix_readAssoc hf n _)

/-- a check that the bytes to be read are there -/
theorem prefix_room {α : Type} {n : Nat} {e : Err} {f : Bytes → Res (α × Bytes)} (hf : PrefixReader f)
    (hn : ∀ s v r, f s = .ok (v, r) → s.length = n + r.length) :
    PrefixReader (fun s => check (decide (n ≤ s.length)) e >>= fun _ => f s) := by
  intro s v r h
  obtain ⟨_, hc, h⟩ := bind_eq_ok.1 h
  obtain ⟨p, rfl, hp⟩ := hf _ _ _ h
  refine ⟨p, rfl, fun r' => ?_⟩
  have := hn _ _ _ (hp r')
  beta_reduce
  rw [show check (decide (n ≤ (p ++ r').length)) e = .ok () by rw [this]; simp [check], bind_ok]
  exact hp r'

mutual
theorem prefix_fromBin : ∀ (t : BTy), NoMaybe t → PrefixReader (fromBin t)
  | .raw n, _ => by rw [fromBin]; exact prefix_map BVal.raw (prefix_readBytes n)
  | .bool, _ => by rw [fromBin]; exact prefix_map (fun b => BVal.raw [if b = 0 then 0 else 1]) prefix_readU8
  | .varuint32, _ => by rw [fromBin]; exact prefix_map BVal.num prefix_varuint32
  | .varint32, _ => by
      rw [fromBin]
      refine prefix_map (fun n : BitVec 32 => BVal.num n.toNat) ?_
      exact prefix_map (fun v => unzigzag (BitVec.ofNat 32 v)) prefix_varuint32
  | .str, _ => by
      rw [fromBin]
      exact prefix_bind (g := fun n s => readBytes n s >>= fun x => .ok (BVal.raw x.1, x.2)) prefix_varuint32
        (fun n => prefix_map BVal.raw (prefix_readBytes n))
  | .rawVec n, _ => by
      rw [fromBin]
      refine prefix_bind (g := fun k s => check (decide (k * n % 2 ^ 64 ≤ s.length)) .overrun >>= fun _ =>
        check (decide (k ≤ vectorMax n)) .alloc >>= fun _ => readBytes (k * n % 2 ^ 64) s >>= fun x => .ok (BVal.raw x.1, x.2)) prefix_varuint64
        (fun k => prefix_room (prefix_check _ _ (prefix_map BVal.raw (prefix_readBytes _))) ?_)
      intro s v r h
      obtain ⟨_, -, h⟩ := bind_eq_ok.1 h
      obtain ⟨⟨b, s1⟩, h1, h2⟩ := bind_eq_ok.1 h
      obtain ⟨rfl, hl⟩ := readBytes_ok h1
      simp only [Except.ok.injEq, Prod.mk.injEq] at h2
      rw [List.length_append, hl, h2.2]
  | .vec t, h => by
      rw [fromBin]; rw [NoMaybe] at h
      exact prefix_bind (g := fun n s => readN (fromBin t) n s >>= fun x => .ok (BVal.list x.1, x.2)) prefix_varuint32
        (fun n => prefix_map BVal.list (prefix_readN (prefix_fromBin t h) n))
  | .set lt t, h => by
      rw [fromBin]; rw [NoMaybe] at h
      exact prefix_bind (g := fun n s => readAssoc lt (fromBin t) n [] s >>= fun x => .ok (BVal.list x.1, x.2)) prefix_varuint32
        (fun n => prefix_map BVal.list (prefix_readAssoc (prefix_fromBin t h) n _))
  | .map lt k v, h => by
      rw [fromBin]; rw [NoMaybe] at h
      refine prefix_bind (g := fun n s => readAssoc (ltKey lt) (fun s => fromBin k s >>= fun x => fromBin v x.2 >>= fun y =>
        .ok (.list [x.1, y.1], y.2)) n [] s >>= fun x => .ok (BVal.list x.1, x.2)) prefix_varuint32
        (fun n => prefix_map BVal.list (prefix_readAssoc ?_ n _))
      exact prefix_bind (g := fun a s => fromBin v s >>= fun y => .ok (BVal.list [a, y.1], y.2)) (prefix_fromBin k h.1)
        (fun a => prefix_map (fun b => BVal.list [a, b]) (prefix_fromBin v h.2))
  | .stream, _ => by
      rw [fromBin]
      refine prefix_bind (g := fun n s => check (decide (n ≤ s.length)) .overrun >>= fun _ =>
        readBytes n s >>= fun x => .ok (BVal.raw x.1, x.2)) prefix_varuint64
        (fun k => prefix_room (prefix_map BVal.raw (prefix_readBytes _)) ?_)
      intro s v r h
      obtain ⟨⟨b, s1⟩, h1, h2⟩ := bind_eq_ok.1 h
      obtain ⟨rfl, hl⟩ := readBytes_ok h1
      simp only [Except.ok.injEq, Prod.mk.injEq] at h2
      rw [List.length_append, hl, h2.2]
  | .carr n t, h => by
      rw [fromBin]; rw [NoMaybe] at h
      exact prefix_bind (g := fun k s => check (k == n) .array_size_mismatch >>= fun _ => readN (fromBin t) k s >>= fun x => .ok (BVal.list x.1, x.2))
        prefix_varuint32 (fun k => prefix_check _ _ (prefix_map BVal.list (prefix_readN (prefix_fromBin t h) k)))
  | .arr n t, h => by
      rw [fromBin]; rw [NoMaybe] at h
      exact prefix_map BVal.list (prefix_readN (prefix_fromBin t h) n)
  | .opt t, h => by
      rw [fromBin]; rw [NoMaybe] at h
      refine prefix_bind (g := fun p s => if p = 0 then .ok (BVal.none, s) else fromBin t s >>= fun x => .ok (BVal.some x.1, x.2)) prefix_readU8
        (fun p => ?_)
      by_cases hp : p = 0
      · simp only [hp, if_true]; exact prefix_ok _
      · simp only [hp, if_false]; exact prefix_map BVal.some (prefix_fromBin t h)
  | .variant ts, h => by
      rw [fromBin]; rw [NoMaybe] at h
      exact prefix_bind (g := fun u s => variantFromBin ts u s >>= fun x => .ok (BVal.alt u x.1, x.2)) prefix_varuint32
        (fun u => prefix_map (BVal.alt u) (prefix_variantFromBin ts h u))
  | .struct ts, h => by
      rw [fromBin]; rw [NoMaybe] at h
      exact prefix_map BVal.list (prefix_fromBinFields ts h)
  | .maybe _ _, h => by rw [NoMaybe] at h; exact h.elim
theorem prefix_variantFromBin : ∀ (ts : List BTy), NoMaybes ts → ∀ i, PrefixReader (variantFromBin ts i)
  | [], _, i => by rw [variantFromBin]; exact prefix_error _
  | t :: ts, h, 0 => by rw [variantFromBin]; rw [NoMaybes] at h; exact prefix_fromBin t h.1
  | t :: ts, h, i + 1 => by rw [variantFromBin]; rw [NoMaybes] at h; exact prefix_variantFromBin ts h.2 i
theorem prefix_fromBinFields : ∀ (ts : List BTy), NoMaybes ts → PrefixReader (fromBinFields ts)
  | [], _ => by rw [fromBinFields]; exact prefix_ok _
  | t :: ts, h => by
      rw [fromBinFields]; rw [NoMaybes] at h
      exact prefix_bind (g := fun v s => fromBinFields ts s >>= fun x => .ok (v :: x.1, x.2)) (prefix_fromBin t h.1)
        (fun v => prefix_map (fun l => v :: l) (prefix_fromBinFields ts h.2))
end

end Abieos
