import Verif.Proofs.LeafAll
/-
The readers of the builtin types read a prefix of the input, which is not empty.
-/
namespace Abieos
open Spec

theorem prefix_then {α : Type} {f : Bytes → Res (α × Bytes)} (g : α → Res Bytes) (hf : PrefixReader f) :
    PrefixReader (fun s => f s >>= fun x => g x.1 >>= fun t => .ok (t, x.2)) :=
  prefix_bind (g := fun a s => g a >>= fun t => .ok (t, s)) hf fun a => by
    cases h : g a with
    | error e => exact prefix_error e
    | ok t => exact prefix_ok t

theorem prefix_decInt (t : IntTy) : PrefixReader (decInt t) :=
  prefix_map (intToJson t) (prefix_map (fun a => t.wrap (leVal a)) (prefix_readBytes (t.bits / 8)))

theorem prefix_decWord (n : Nat) (print : Nat → Bytes) : PrefixReader (decWord n print) :=
  prefix_map (fun a => jsonString (print (leVal a))) (prefix_readBytes n)

theorem prefix_decFixed (n : Nat) : PrefixReader (decFixed n) :=
  prefix_map (fun a => 34 :: (hexEncode a ++ [34])) (prefix_readBytes n)

theorem prefix_decFloat (n : Nat) (d : Nat → Nat) : PrefixReader (decFloat n d) :=
  prefix_then (fun a => fpToJson (d (leVal a))) (prefix_readBytes n)

theorem prefix_decKey {t : BTy} (h : NoMaybe t) (toStr : BVal → Res Bytes) : PrefixReader (decKey t toStr) :=
  prefix_bind (g := fun v s => toStr v >>= fun u => .ok (jsonString u, s)) (prefix_fromBin t h) fun v => by
    cases h : toStr v with
    | error e => exact prefix_error e
    | ok u => exact prefix_ok (jsonString u)

theorem prefix_builtin (k : Builtin) : PrefixReader (builtinFromBin k) := by
  cases k with
  | bool => exact prefix_map (fun b => if b ≠ 0 then str "true" else str "false") prefix_readU8
  | int8 => exact prefix_decInt _
  | uint8 => exact prefix_decInt _
  | int16 => exact prefix_decInt _
  | uint16 => exact prefix_decInt _
  | int32 => exact prefix_decInt _
  | uint32 => exact prefix_decInt _
  | int64 => exact prefix_decInt _
  | uint64 => exact prefix_decInt _
  | int128 => exact prefix_decInt _
  | uint128 => exact prefix_decInt _
  | varuint32 => exact prefix_map (fun v : Nat => intToJson ⟨false, 32⟩ v) prefix_varuint32
  | varint32 =>
    have h : PrefixReader varint32FromBin := by
      intro s v r h
      unfold varint32FromBin at h ⊢
      obtain ⟨⟨a, r'⟩, h1, h2⟩ := bind_eq_ok.1 h
      obtain ⟨p, rfl, hp⟩ := prefix_varuint32 _ _ _ h1
      cases h2
      exact ⟨p, rfl, fun r' => by rw [hp]; rfl⟩
    exact prefix_map (fun v : BitVec 32 => intToJson ⟨true, 32⟩ v.toInt) h
  | float32 => exact prefix_decFloat _ _
  | float64 => exact prefix_decFloat _ _
  | float128 => exact prefix_decFixed _
  | time_point =>
    have e : builtinFromBin .time_point = decWord 8 (fun v => microsecondsToStr (toI64 v)) := by funext bin; simp only [builtinFromBin]
    rw [e]; exact prefix_decWord _ _
  | time_point_sec =>
    have e : builtinFromBin .time_point_sec = decWord 4 timePointSecToText := by funext bin; simp only [builtinFromBin]
    rw [e]; exact prefix_decWord _ _
  | block_timestamp =>
    have e : builtinFromBin .block_timestamp = decWord 4 slotToText := by funext bin; simp only [builtinFromBin]
    rw [e]; exact prefix_decWord _ _
  | name => 
    have e : builtinFromBin .name = decWord 8 nameToString := by funext bin; simp only [builtinFromBin]
    rw [e]; exact prefix_decWord _ _
  | bytes => exact prefix_bind (g := fun n s => readBytes n s >>= fun x => .ok (34 :: (hexEncode x.1 ++ [34]), x.2)) prefix_varuint64 fun n => prefix_map (fun a => 34 :: (hexEncode a ++ [34])) (prefix_readBytes n)
  | string => exact prefix_bind (g := fun n s => readBytes n s >>= fun x => .ok (jsonString x.1, x.2)) prefix_varuint32 fun n => prefix_map jsonString (prefix_readBytes n)
  | checksum160 => exact prefix_decFixed _
  | checksum256 => exact prefix_decFixed _
  | checksum512 => exact prefix_decFixed _
  | public_key => exact prefix_decKey (by simp [publicKeyTy, charArray, NoMaybe, NoMaybes]) _
  | private_key => exact prefix_decKey (by simp [privateKeyTy, charArray, NoMaybe, NoMaybes]) _
  | signature => exact prefix_decKey (by simp [signatureTy, charArray, NoMaybe, NoMaybes]) _
  | symbol =>
    have e : builtinFromBin .symbol = decWord 8 symbolToString := by funext bin; simp only [builtinFromBin]
    rw [e]; exact prefix_decWord _ _
  | symbol_code =>
    have e : builtinFromBin .symbol_code = decWord 8 symbolCodeToString := by funext bin; simp only [builtinFromBin]
    rw [e]; exact prefix_decWord _ _
  | asset =>
    refine prefix_bind (g := fun a s => readBytes 8 s >>= fun x => assetToString a (leVal x.1) >>= fun t => .ok (jsonString t, x.2))
      (prefix_map (fun a => IntTy.wrap ⟨true, 64⟩ (leVal a)) (prefix_readBytes 8)) fun a => ?_
    refine prefix_bind (g := fun y s => assetToString a (leVal y) >>= fun t => .ok (jsonString t, s)) (prefix_readBytes 8) fun y => ?_
    cases h : assetToString a (leVal y) with
    | error e => exact prefix_error e
    | ok t => exact prefix_ok (jsonString t)

theorem builtin_nil (k : Builtin) : ∀ x, builtinFromBin k [] ≠ .ok x := by
  intro x h
  have hb : ∀ n, 0 < n → readBytes n [] = .error .overrun := by
    intro n hn
    unfold readBytes
    rw [if_neg (by simp; omega)]
  have h32 : varuint32FromBin [] = .error .overrun := by unfold varuint32FromBin; rw [varuintFromBinLoop]; rfl
  have h64 : varuint64FromBin [] = .error .overrun := by unfold varuint64FromBin; rw [varuintFromBinLoop]; rfl
  cases k <;> simp only [builtinFromBin, decInt, intFromBin, decWord, decFixed, decFloat, decAsset, decBytes, decString, decKey, decVaruint, decVarint,
      varint32FromBin, publicKeyTy, privateKeyTy, signatureTy] at h <;>
    (first | (rw [hb _ (by decide)] at h; cases h) | (rw [h32] at h; cases h) | (rw [h64] at h; cases h) | (rw [fromBin] at h; simp only [h32, bind_error] at h; cases h) | cases h)

theorem leafPrefix_builtins (F : Floats) : LeafPrefix (builtins F) := by
  intro k s t r h
  obtain ⟨p, rfl, hp⟩ := prefix_builtin k s t r h
  refine ⟨p, ?_, rfl, hp⟩
  rintro rfl
  exact builtin_nil k _ (hp [])

end Abieos
