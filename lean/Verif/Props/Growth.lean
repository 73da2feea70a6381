import Verif.Proofs.Bounds
import Verif.Props.AbiDefBin
/-
C76: how large the results of the conversions can be.
-/
namespace Abieos
open Spec

/-! ## Bounds, for all inputs -/

section
variable {F : Floats} {h : List (Call × Ret)} {c : Ctx} (hc : Calls (libEnv F) (some Ctx.init) h (some c)) {k : Nat} {q : Call} {D : AbiDef}
  (hf : FirstLoad (libEnv F) h k q D)
include hc hf

/-- **C76, to binary.** After any history of calls, for every definition in which no struct has two fields with the same name, and for every text: the binary form
takes up at most seventeen times as many bytes as the text. -/
theorem c76_json_to_bin_reorderable (hsm : SmallDef D) (hd : DistinctDef D) {type json : Option Bytes} {c' : Option Ctx} {b : Bytes}
    (hs : Step (libEnv F) (some c) (.jsonToBinReorderable k type json) (.done c' (.bool true)))
    (hb : Step (libEnv F) c' .getBinData (.done c' (.data (some b)))) : b.length ≤ 17 * (cstr json).length := by
  obtain ⟨p, v, -, h2, -, h4⟩ := ((c60_json_to_bin_reorderable hc hf hsm hs).2 rfl b).2 hb
  have := (wire_size hd h4).1
  have := isJson_size h2
  omega

/-- **C76, to binary, ordered.** -/
theorem c76_json_to_bin (hsm : SmallDef D) (hd : DistinctDef D) (hx : ExtLastDef D) {type json : Option Bytes} {c' : Option Ctx} {b : Bytes}
    (hs : Step (libEnv F) (some c) (.jsonToBin k type json) (.done c' (.bool true)))
    (hb : Step (libEnv F) c' .getBinData (.done c' (.data (some b)))) : b.length ≤ 17 * (cstr json).length := by
  obtain ⟨p, v, -, h2, -, h4⟩ := ((c60_json_to_bin hc hf hsm hd hx hs).2 rfl b).2 hb
  have := (wire_size hd h4).1
  have := isJson_size h2
  omega

/-- **C76, to text.** After any history of calls, for every definition in which each struct has a field that is not an extension, and for all bytes: the number of characters
of the text is at most proportional to the number of bytes; the factor depends only on how long the names of the fields of a struct are. -/
theorem c76_bin_to_json (hsm : SmallDef D) (hx : ExtLastDef D) {w : Nat} (hw : NamesWithin D w) (hn : NoEmptyStruct D) {type data : Option Bytes} {c' : Option Ctx} {t : Bytes}
    (hs : Step (libEnv F) (some c) (.binToJson k type data) (.done c' (.str (some t)))) : t.length ≤ 129 * (w + 128) * (data.getD []).length := by
  obtain ⟨p, d, -, h2, h3⟩ := (c61_bin_to_json hc hf hsm hx hs t).1 rfl
  have h4 := (shown_length hw hn h3).2
  have h5 : (w + 128) * (d + 1) * (data.getD []).length ≤ (w + 128) * 129 * (data.getD []).length :=
    Nat.mul_le_mul_right _ (Nat.mul_le_mul_left _ (by omega))
  rw [Nat.mul_comm 129]
  omega

end

/-! ## Definitions for which there is no such bound -/

/-- Struct number `i` of a ladder: number 0 has the fields `bottom`, each other one has the one before it twice, as `x` and as `y`. -/
def rung (bottom : List FieldDef) (y : Bytes) : Nat → StructDef
  | 0 => ⟨[115], [], bottom⟩
  | i + 1 => ⟨List.replicate (i + 2) 115, [], [⟨str "x", List.replicate (i + 1) 115⟩, ⟨y, List.replicate (i + 1) 115⟩]⟩

/-- A definition of `n + 1` structs, named `s`, `ss`, `sss`, … -/
def ladder (bottom : List FieldDef) (y : Bytes) (n : Nat) : AbiDef :=
  { version := str "eosio::abi/1.0", types := [], structs := (List.range (n + 1)).map (rung bottom y), actions := [], tables := [], clauses := [], errors := [], extensions := [],
    variants := [] }

theorem rung_name (bottom : List FieldDef) (y : Bytes) (i : Nat) : (rung bottom y i).name = List.replicate (i + 1) 115 := by cases i <;> rfl

theorem rung_mem {bottom : List FieldDef} {y : Bytes} {n i : Nat} (hi : i ≤ n) : rung bottom y i ∈ (ladder bottom y n).structs :=
  List.mem_map.2 ⟨i, List.mem_range.2 (by omega), rfl⟩

theorem builtin_not_s (b : Builtin) (i : Nat) : List.replicate (i + 1) 115 ≠ b.typeName := by
  intro h
  have h1 : ∀ x ∈ b.typeName, x = 115 := by rw [← h]; intro x hx; exact List.eq_of_mem_replicate hx
  have h2 : b.typeName.all (· == 115) = true := List.all_eq_true.2 fun x hx => by simp [h1 x hx]
  revert h2
  cases b <;> decide

theorem ladder_names (bottom : List FieldDef) (y : Bytes) (n : Nat) : NamesOk (ladder bottom y n) := by
  have he : (ladder bottom y n).types.map (·.newName) ++ (ladder bottom y n).structs.map (·.name) ++ (ladder bottom y n).variants.map (·.name) =
      (List.range (n + 1)).map fun i => List.replicate (i + 1) 115 := by
    simp only [ladder, List.map_nil, List.nil_append, List.append_nil, List.map_map]
    exact List.map_congr_left fun i _ => rung_name bottom y i
  constructor
  · rw [he]
    refine List.Pairwise.map _ ?_ List.nodup_range
    intro a b hab e
    have := congrArg List.length e
    simp at this
    exact hab this
  · rw [he]
    intro k hk
    obtain ⟨i, -, rfl⟩ := List.mem_map.1 hk
    refine ⟨by simp, ?_, fun b => builtin_not_s b i⟩
    intro h
    have h1 : (str "extended_asset").all (· == 115) = true := List.all_eq_true.2 fun x hx => by rw [← h] at hx; simp [List.eq_of_mem_replicate hx]
    revert h1
    decide

/-- Every field of every struct has a type that is declared, and not as a typedef. -/
def PlainFields (D : AbiDef) (fs : List FieldDef) : Prop := ∀ f ∈ fs, ∃ d, Declares D f.type d ∧ ∀ t, d ≠ .aliasDef t

theorem ladder_plain {bottom : List FieldDef} {y : Bytes} {n : Nat} (hb : PlainFields (ladder bottom y n) bottom) :
    ∀ s ∈ (ladder bottom y n).structs, s.base = [] ∧ PlainFields (ladder bottom y n) s.fields := by
  intro s hs
  obtain ⟨i, hi, rfl⟩ := List.mem_map.1 hs
  have hi := List.mem_range.1 hi
  cases i with
  | zero => exact ⟨rfl, hb⟩
  | succ i =>
    refine ⟨rfl, ?_⟩
    have h1 := Declares.struct (rung_mem (bottom := bottom) (y := y) (show i ≤ n by omega))
    rw [rung_name] at h1
    intro f hf
    simp only [rung, List.mem_cons, List.not_mem_nil, or_false] at hf
    rcases hf with rfl | rfl
    · exact ⟨_, h1, by simp⟩
    · exact ⟨_, h1, by simp⟩

theorem ladder_loads {bottom : List FieldDef} {y : Bytes} {n : Nat} (hb : PlainFields (ladder bottom y n) bottom) : Usable (ladder bottom y n) := by
  refine ⟨⟨str "0", rfl⟩, c25_loads (ladder_names ..) ⟨by simp [ladder], ?_, by simp [ladder]⟩⟩
  intro s hs
  obtain ⟨h1, h2⟩ := ladder_plain hb s hs
  refine .root h1 fun f hf => ?_
  obtain ⟨d, h3, h4⟩ := h2 f hf
  exact ⟨_, .declared h3 h4⟩

/-- Fields with the names and the types of the texts. -/
def asFields (fs : List FieldDef) : List Field := fs.map fun f => ⟨f.name, f.type⟩

theorem plain_fieldsOf {D : AbiDef} : ∀ {fs : List FieldDef}, PlainFields D fs → FieldsOf D fs (asFields fs)
  | [], _ => .nil
  | f :: fs, h => by
    obtain ⟨d, h1, h2⟩ := h f (by simp)
    exact .cons (.declared h1 h2) (plain_fieldsOf fun g hg => h g (by simp [hg]))

theorem ladder_meaning {bottom : List FieldDef} {y : Bytes} {n i : Nat} (hb : PlainFields (ladder bottom y n) bottom) (hi : i ≤ n) :
    Meaning (ladder bottom y n) (List.replicate (i + 1) 115) (.struct (asFields (rung bottom y i).fields)) := by
  have h1 := rung_mem (bottom := bottom) (y := y) hi
  obtain ⟨h2, h3⟩ := ladder_plain hb _ h1
  rw [← rung_name bottom y]
  exact .struct (.struct h1) (.root h2 (plain_fieldsOf h3))

/-- What the structs of a ladder are. -/
theorem ladder_cases {bottom : List FieldDef} {y : Bytes} {n : Nat} (hb : PlainFields (ladder bottom y n) bottom) {k : Bytes} {fs : List Field}
    (h : Meaning (ladder bottom y n) k (.struct fs)) : fs = asFields [⟨str "quantity", str "asset"⟩, ⟨str "contract", str "name"⟩] ∨
      ∃ i, fs = asFields (rung bottom y i).fields ∧ PlainFields (ladder bottom y n) (rung bottom y i).fields := by
  cases h with
  | extendedAsset h =>
    generalize he : TData.struct fs = e at h
    cases h with
    | extendedAsset => cases he; exact .inl rfl
    | _ => cases he
  | struct h h' =>
    rename_i s
    generalize he : TData.structDef s = e at h
    cases h with
    | struct hs =>
      cases he
      obtain ⟨h1, h2⟩ := ladder_plain hb _ hs
      have := StructFields.unique (unique_of_namesOk (ladder_names ..)) h' (.root h1 (plain_fieldsOf h2))
      subst this
      obtain ⟨i, -, rfl⟩ := List.mem_map.1 hs
      exact .inr ⟨i, rfl, h2⟩
    | _ => cases he

theorem ladder_structs {bottom : List FieldDef} {y : Bytes} {n : Nat} (hb : PlainFields (ladder bottom y n) bottom) {k : Bytes} {fs : List Field}
    (h : Meaning (ladder bottom y n) k (.struct fs)) : fs.length ≤ bottom.length + 2 ∧ ∀ f ∈ fs, ¬ Undeclared (ladder bottom y n) f.type := by
  rcases ladder_cases hb h with rfl | ⟨i, rfl, h2⟩
  · refine ⟨by simp [asFields], ?_⟩
    intro f hf hu
    simp only [asFields, List.map_cons, List.map_nil, List.mem_cons, List.not_mem_nil, or_false] at hf
    rcases hf with rfl | rfl
    · exact hu _ (.builtin .asset)
    · exact hu _ (.builtin .name)
  · constructor
    · cases i <;> simp [rung, asFields]
    · intro f hf hu
      obtain ⟨g, hg, rfl⟩ := List.mem_map.1 hf
      obtain ⟨d, h3, -⟩ := h2 g hg
      exact hu _ h3

theorem ladder_small {bottom : List FieldDef} {y : Bytes} {n : Nat} (hb : PlainFields (ladder bottom y n) bottom) (hl : bottom.length < 2 ^ 30) :
    SmallDef (ladder bottom y n) := by
  intro k fs h
  have := (ladder_structs hb h).1
  omega

theorem ladder_extLast {bottom : List FieldDef} {y : Bytes} {n : Nat} (hb : PlainFields (ladder bottom y n) bottom) : ExtLastDef (ladder bottom y n) := by
  intro k fs h pre f post he ⟨q, hq⟩
  exact absurd (extension_undeclared hq) ((ladder_structs hb h).2 f (by simp [he]))

theorem ladder_storable {bottom : List FieldDef} {y : Bytes} {n : Nat} (hn : n ≤ 127) (hb : bottom.length < 2 ^ 32 ∧ ∀ f ∈ bottom, f.name.length < 2 ^ 32 ∧ f.type.length < 2 ^ 32)
    (hy : y.length < 2 ^ 32) : Storable (ladder bottom y n) := by
  have hs : ∀ t ∈ (ladder bottom y n).structs, Fits t.name ∧ Fits t.base ∧ Fits t.fields ∧ ∀ f ∈ t.fields, Fits f.name ∧ Fits f.type := by
    intro s hs
    obtain ⟨i, hi, rfl⟩ := List.mem_map.1 hs
    have hi := List.mem_range.1 hi
    cases i with
    | zero => exact ⟨by simp [Fits, rung], by simp [Fits, rung], hb.1, hb.2⟩
    | succ i =>
      refine ⟨by simp [Fits, rung]; omega, by simp [Fits, rung], by simp [Fits, rung], ?_⟩
      intro f hf
      simp only [rung, List.mem_cons, List.not_mem_nil, or_false] at hf
      rcases hf with rfl | rfl
      · exact ⟨by simp [Fits, str], by simp [Fits]; omega⟩
      · exact ⟨hy, by simp [Fits]; omega⟩
  refine ⟨?_, ?_, ⟨?_, hs⟩, ?_, ?_, ?_, ?_, ?_, ?_⟩ <;> first | (simp [Fits, ladder]; omega) | (simp [Fits, ladder]; decide) | simp [Fits, ladder]

/-- A definition that is usable and has a binary form can be loaded. -/
theorem load_history (F : Floats) {D : AbiDef} (hs : Storable D) (hu : Usable D) (k : Nat) : ∃ data c, abiDefToBin D = .ok data ∧
    Calls (libEnv F) (some Ctx.init) [(.setAbiBin k (some data), .bool true)] (some c) ∧
    FirstLoad (libEnv F) [(.setAbiBin k (some data), .bool true)] k (.setAbiBin k (some data)) D := by
  obtain ⟨data, h1, h2⟩ := c41_every_storable hs
  have hl : Loads (libEnv F) (.setAbiBin k (some data)) k D := ⟨hu, rfl, _, rfl, [], h2⟩
  obtain ⟨o, ho⟩ := c38_returns (env := libEnv F) (c := Ctx.init) .nil (.setAbiBin k (some data))
  have h3 := load_end (env := libEnv F) (q := .setAbiBin k (some data)) rfl ho
  have : ∃ c, o = .done (some c) (.bool true) := by
    cases h3 with
    | refused h1 h2 h3 h4 => exact absurd ⟨_, _, hl⟩ h1
    | loaded => exact ⟨_, rfl⟩
  obtain ⟨c, rfl⟩ := this
  exact ⟨data, c, h1, .cons ho .nil, hl, [], [], rfl, by simp⟩

theorem cut_s_name (n : Nat) : cstr (some (List.replicate n 115)) = List.replicate n 115 := by
  change List.takeWhile _ _ = _
  rw [List.takeWhile_replicate]
  exact if_pos (by decide)

/-! ### Text from nothing -/

theorem nothing_plain (y : Bytes) (n : Nat) : PlainFields (ladder [] y n) [] := fun _ h => by cases h

/-- No bytes are a value of struct number `i`, and the text of it has at least `2 ^ i` characters. -/
theorem nothing_shown (n : Nat) : ∀ (i : Nat), i ≤ n → ∀ last : Bool, ∃ t, Shown (ladder [] (str "y") n) libShown last (List.replicate (i + 1) 115) [] t (i + 1) ∧ 2 ^ i ≤ t.length
  | 0, hi, last => ⟨_, .struct (ladder_meaning (nothing_plain (str "y") n) hi) .nil, by simp [str]⟩
  | i + 1, hi, last => by
    have hm := ladder_meaning (nothing_plain (str "y") n) hi
    have hne : ∀ q, ¬ Meaning (ladder [] (str "y") n) (List.replicate (i + 1) 115) (.extension q) := by
      intro q h
      have := (c25_meaning_unique (ladder_names ..)).2.2 _ _ _ h (ladder_meaning (nothing_plain (str "y") n) (show i ≤ n by omega))
      cases this
    obtain ⟨t1, h1, l1⟩ := nothing_shown n i (by omega) (last && false)
    obtain ⟨t2, h2, l2⟩ := nothing_shown n i (by omega) (last && true)
    have hs := Shown.struct (S := libShown) (last := last) hm (.present (n := jsonString (str "x")) (fun ⟨_, _, q, hq⟩ => hne q hq) h1
      (.present (n := jsonString (str "y")) (fun ⟨_, _, q, hq⟩ => hne q hq) h2 .nil (jsonStr_iff.2 rfl)) (jsonStr_iff.2 rfl))
    have : max (i + 1) (max (i + 1) 0) + 1 = i + 1 + 1 := by omega
    rw [this] at hs
    refine ⟨_, hs, ?_⟩
    simp only [joinComma, List.length_append, Nat.pow_succ]
    omega

/-- **C76, text from nothing.** A definition of `n + 1` structs, in which each but the first has two fields of the type before it and the first has none, can be loaded. After any history of
calls in which it is loaded, no bytes at all are shown as a text of at least `2 ^ n` characters, for every `n` up to 127: the condition of `c76_bin_to_json` that every struct has a
field is needed. -/
theorem c76_text_from_nothing (F : Floats) {n : Nat} (hn : n ≤ 127) :
    (∃ data c, Calls (libEnv F) (some Ctx.init) [(.setAbiBin 0 (some data), .bool true)] (some c) ∧
      FirstLoad (libEnv F) [(.setAbiBin 0 (some data), .bool true)] 0 (.setAbiBin 0 (some data)) (ladder [] (str "y") n)) ∧
    ∀ {h : List (Call × Ret)} {c : Ctx}, Calls (libEnv F) (some Ctx.init) h (some c) → ∀ {k : Nat} {q : Call}, FirstLoad (libEnv F) h k q (ladder [] (str "y") n) →
      ∀ {c' : Option Ctx} {r : Ret}, Step (libEnv F) (some c) (.binToJson k (some (List.replicate (n + 1) 115)) (some [])) (.done c' r) →
        ∃ t, r = .str (some t) ∧ 2 ^ n ≤ t.length := by
  have hb := nothing_plain (str "y") n
  constructor
  · obtain ⟨data, c, -, h1, h2⟩ := load_history F (ladder_storable hn (by simp) (by simp [str])) (ladder_loads hb) 0
    exact ⟨data, c, h1, h2⟩
  · intro h c hc k q hf c' r hs
    obtain ⟨t, h1, h2⟩ := nothing_shown n n (Nat.le_refl n) true
    refine ⟨t, (c61_bin_to_json hc hf (ladder_small hb (by simp)) (ladder_extLast hb) hs t).2 ⟨_, _, ?_, ?_, h1⟩, h2⟩
    · rw [cut_s_name]
      have := Declares.struct (rung_mem (bottom := []) (y := str "y") (Nat.le_refl n))
      rw [rung_name] at this
      exact .declared this (by simp)
    · omega

/-! ### An array of nothing -/

theorem size_is_read {n : Nat} {b : Bytes} (h : Size n b) : SizeRead n b := by
  have hl : ∀ {n : Nat} {b : Bytes}, Leb n b → LebAny n b := by
    intro n b h
    induction h with
    | @last n h =>
      have e : (UInt8.ofNat n).toNat = n := by rw [UInt8.toNat_ofNat']; omega
      have := LebAny.last (c := UInt8.ofNat n) (by omega)
      rwa [e] at this
    | @more n b h hb ih =>
      have e : (UInt8.ofNat (n % 128 + 128)).toNat = n % 128 + 128 := by rw [UInt8.toNat_ofNat']; omega
      have := LebAny.more (c := UInt8.ofNat (n % 128 + 128)) (by omega) ih
      rw [e] at this
      rwa [show n % 128 + 128 - 128 + 128 * (n / 128) = n by omega] at this
  exact ⟨n, hl h.2, (size_length h).2, (Nat.mod_eq_of_lt h.1).symm⟩

theorem ladder_undeclared {bottom : List FieldDef} {y : Bytes} {n : Nat} {s : Bytes} (h1 : ∃ c ∈ s, c ≠ 115) (h2 : s ≠ str "extended_asset") (h3 : ∀ b : Builtin, s ≠ b.typeName) :
    Undeclared (ladder bottom y n) s := by
  intro d hd
  cases hd with
  | builtin b => exact h3 b rfl
  | extendedAsset => exact h2 rfl
  | typedef h => cases h
  | struct h =>
    obtain ⟨i, -, rfl⟩ := List.mem_map.1 h
    obtain ⟨c, hc, hne⟩ := h1
    rw [rung_name] at hc
    exact hne (List.eq_of_mem_replicate hc)
  | variant h => cases h

theorem nothing_elems : ∀ m : Nat, ∃ d, d ≤ 1 ∧ ShownElems (ladder [] (str "y") 0) libShown [115] [] (List.replicate m (str "{}")) d
  | 0 => ⟨0, by omega, .nil⟩
  | m + 1 => by
    obtain ⟨d, h1, h2⟩ := nothing_elems m
    exact ⟨max 1 d, by omega, .cons (b1 := []) (b2 := []) (.struct (ms := []) (ladder_meaning (nothing_plain (str "y") 0) (i := 0) (by omega)) .nil) h2⟩

theorem joinComma_pairs : ∀ m : Nat, 3 * m ≤ (joinComma (List.replicate m (str "{}"))).length + 1
  | 0 => by simp
  | 1 => by decide
  | m + 2 => by
    have := joinComma_pairs (m + 1)
    rw [List.replicate_succ] at this ⊢
    rw [List.replicate_succ, joinComma] <;> simp only [List.length_append, List.replicate_succ, reduceCtorEq, imp_self, implies_true] at this ⊢
    · simp only [str] at *
      simp at this ⊢
      omega

/-- **C76, an array of nothing.** The definition has one struct, without fields. After any history of calls in which it is loaded, at most five bytes are shown as an array of `m` of these structs,
for every `m` below 2^31. -/
theorem c76_array_of_nothing (F : Floats) {m : Nat} (hm : m < 2 ^ 31) : Usable (ladder [] (str "y") 0) ∧ ∃ data, data.length ≤ 5 ∧
    ∀ {h : List (Call × Ret)} {c : Ctx}, Calls (libEnv F) (some Ctx.init) h (some c) → ∀ {k : Nat} {q : Call}, FirstLoad (libEnv F) h k q (ladder [] (str "y") 0) →
      ∀ {c' : Option Ctx} {r : Ret}, Step (libEnv F) (some c) (.binToJson k (some (str "s[]")) (some data)) (.done c' r) →
        ∃ t, r = .str (some t) ∧ 3 * m < t.length := by
  have hb := nothing_plain (str "y") 0
  obtain ⟨data, hd⟩ := size_exists (show m < 2 ^ 32 by omega)
  refine ⟨ladder_loads hb, data, (size_length hd).2, ?_⟩
  intro h c hc k q hf c' r hs
  obtain ⟨d, h1, h2⟩ := nothing_elems m
  have hu : Undeclared (ladder [] (str "y") 0) ([115] ++ str "[]") := ladder_undeclared ⟨91, by decide, by decide⟩ (by decide) (by intro b; cases b <;> decide)
  have hdec : Declares (ladder [] (str "y") 0) [115] (.structDef (rung [] (str "y") 0)) := .struct (rung_mem (Nat.le_refl 0))
  have hden : Denotes (ladder [] (str "y") 0) [115] [115] := .declared hdec (by simp)
  have hnu : ¬ Undeclared (ladder [] (str "y") 0) [115] := fun h => h _ hdec
  have hs' : Shown (ladder [] (str "y") 0) libShown true ([115] ++ str "[]") (data ++ []) _ (d + 1) := Shown.array (Meaning.array hu hden hnu)
    (by rw [List.length_replicate]; exact size_is_read hd) (by rw [List.length_replicate]; exact hm) h2
  rw [List.append_nil] at hs'
  refine ⟨_, (c61_bin_to_json hc hf (ladder_small hb (by simp)) (ladder_extLast hb) hs _).2 ⟨_, _, ?_, ?_, hs'⟩, ?_⟩
  · rw [show cstr (some (str "s[]")) = [115] ++ str "[]" by decide]
    exact .array hu hden hnu
  · omega
  · have := joinComma_pairs m
    simp only [List.length_append]
    have h3 : (str "[").length = 1 := rfl
    have h4 : (str "]").length = 1 := rfl
    omega

/-! ### Fields with the same name -/

/-- The document `{"x":{"x":…{"x":0}…}}`, and its text. -/
def nest : Nat → JVal
  | 0 => .obj [(str "x", .str (str "0"))]
  | i + 1 => .obj [(str "x", nest i)]
def nestText : Nat → Bytes
  | 0 => str "{\"x\":0}"
  | i + 1 => str "{\"x\":" ++ nestText i ++ str "}"

theorem nestText_length : ∀ i, (nestText i).length = 6 * i + 7
  | 0 => by decide
  | i + 1 => by
    simp only [nestText, List.length_append, nestText_length i]
    have h1 : (str "{\"x\":").length = 5 := by decide
    have h2 : (str "}").length = 1 := rfl
    omega

theorem isWs_nil : IsWs [] := fun _ h => by cases h

theorem x_text : StringText [34, 120, 34] (str "x") := ⟨[120], .cons (.unescaped 120 (by decide) (by decide) (by decide) (by decide)) .nil, rfl⟩

theorem zero_number : JsonNumber [48] :=
  ⟨[], [48], [], [], rfl, .inl rfl, ⟨by simp, by intro c hc; simp at hc; subst hc; decide⟩, fun _ => rfl, .inl rfl, .inl rfl⟩

theorem nest_text : ∀ i, JsonText (nestText i) (nest i)
  | 0 => .object (.last (w := []) (w1 := []) (w2 := []) (w' := []) isWs_nil x_text isWs_nil isWs_nil (.number zero_number) isWs_nil)
  | i + 1 => by
    have := JsonText.object (.last (w := []) (w1 := []) (w2 := []) (w' := []) isWs_nil x_text isWs_nil isWs_nil (nest_text i) isWs_nil)
    rw [List.append_nil] at this
    exact this

theorem nest_json (i : Nat) : IsJson (nestText i) (nest i) := ⟨[], nestText i, [], by simp, isWs_nil, nest_text i, isWs_nil⟩

theorem nest_levels : ∀ i, levels (nest i) = i + 2
  | 0 => rfl
  | i + 1 => by simp [nest, levels, levels.goM, nest_levels i]

theorem nestText_cut : ∀ i, ∀ c ∈ nestText i, c ≠ 0
  | 0, c, hc => by
    have : ∀ c ∈ nestText 0, c ≠ 0 := by decide
    exact this c hc
  | i + 1, c, hc => by
    have h1 : ∀ c ∈ str "{\"x\":", c ≠ 0 := by decide
    have h2 : ∀ c ∈ str "}", c ≠ 0 := by decide
    simp only [nestText, List.mem_append] at hc
    rcases hc with (hc | hc) | hc
    · exact h1 c hc
    · exact nestText_cut i c hc
    · exact h2 c hc

theorem cstr_whole {s : Bytes} (h : ∀ c ∈ s, c ≠ 0) : cstr (some s) = s := by
  change List.takeWhile _ _ = _
  induction s with
  | nil => rfl
  | cons a s ih =>
    rw [List.takeWhile_cons_of_pos (by simpa using h a (by simp)), ih fun c hc => h c (by simp [hc])]

/-- The fields of the first struct of the ladder of repeated names. -/
def oneByte : List FieldDef := [⟨str "x", str "uint8"⟩]

theorem oneByte_plain (y : Bytes) (n : Nat) : PlainFields (ladder oneByte y n) oneByte := by
  intro f hf
  simp only [oneByte, List.mem_cons, List.not_mem_nil, or_false] at hf
  subst hf
  exact ⟨_, .builtin .uint8, by simp⟩

theorem nest_wire (F : Floats) (n : Nat) : ∀ (i : Nat), i ≤ n → ∀ last : Bool,
    Wire (ladder oneByte (str "x") n) (StoredScalar F) AnyKeys last (List.replicate (i + 1) 115) (nest i) (List.replicate (2 ^ i) 0)
  | 0, hi, last => by
    refine .struct (ladder_meaning (oneByte_plain (str "x") n) hi) trivial (.present (b1 := [0]) (b2 := []) rfl (.scalar (s := .str (str "0")) (.builtin (.builtin .uint8)) ?_) .nil)
    refine .inl ⟨0, .inl ⟨0, ⟨by decide, by decide, by decide +kernel⟩, rfl⟩, by decide, rfl, by decide⟩
  | i + 1, hi, last => by
    have := Wire.struct (S := StoredScalar F) (M := AnyKeys) (last := last) (ms := [(str "x", nest i)]) (ladder_meaning (oneByte_plain (str "x") n) hi) trivial
      (.present rfl (nest_wire F n i (by omega) (last && false)) (.present rfl (nest_wire F n i (by omega) (last && true)) .nil))
    rw [List.append_nil, List.replicate_append_replicate, ← Nat.two_mul, Nat.mul_comm, ← Nat.pow_succ] at this
    exact this

/-- **C76, fields with the same name.** A definition of `n + 1` structs, in which each but the first has two fields of the type before it, both named `x`, can be loaded. After any history of calls
in which it is loaded, the reorderable conversion makes `2 ^ n` bytes of a text of `6 n + 7` characters, for every `n` up to 126: the condition of `c76_json_to_bin_reorderable` that no struct
has two fields with the same name is needed. -/
theorem c76_repeated_names (F : Floats) {n : Nat} (hn : n ≤ 126) :
    (∃ data c, Calls (libEnv F) (some Ctx.init) [(.setAbiBin 0 (some data), .bool true)] (some c) ∧
      FirstLoad (libEnv F) [(.setAbiBin 0 (some data), .bool true)] 0 (.setAbiBin 0 (some data)) (ladder oneByte (str "x") n)) ∧
    ∃ json, json.length = 6 * n + 7 ∧
      ∀ {h : List (Call × Ret)} {c : Ctx}, Calls (libEnv F) (some Ctx.init) h (some c) → ∀ {k : Nat} {q : Call}, FirstLoad (libEnv F) h k q (ladder oneByte (str "x") n) →
        ∀ {c' : Option Ctx} {r : Ret}, Step (libEnv F) (some c) (.jsonToBinReorderable k (some (List.replicate (n + 1) 115)) (some json)) (.done c' r) →
          r = .bool true ∧ Step (libEnv F) c' .getBinData (.done c' (.data (some (List.replicate (2 ^ n) 0)))) := by
  have hb := oneByte_plain (str "x") n
  constructor
  · obtain ⟨data, c, -, h1, h2⟩ := load_history F (ladder_storable (by omega) (by decide) (by simp [str])) (ladder_loads hb) 0
    exact ⟨data, c, h1, h2⟩
  · refine ⟨nestText n, nestText_length n, ?_⟩
    intro h c hc k q hf c' r hs
    have h1 := c60_json_to_bin_reorderable hc hf (ladder_small hb (by decide)) hs
    have hw : ∃ p v, Denotes (ladder oneByte (str "x") n) (cstr (some (List.replicate (n + 1) 115))) p ∧ IsJson (cstr (some (nestText n))) v ∧ levels v ≤ 128 ∧
        Wire (ladder oneByte (str "x") n) (StoredScalar F) AnyKeys true p v (List.replicate (2 ^ n) 0) := by
      refine ⟨_, nest n, ?_, ?_, by rw [nest_levels]; omega, nest_wire F n n (Nat.le_refl n) true⟩
      · rw [cut_s_name]
        have := Declares.struct (rung_mem (bottom := oneByte) (y := str "x") (Nat.le_refl n))
        rw [rung_name] at this
        exact .declared this (by simp)
      · rw [cstr_whole (nestText_cut n)]
        exact nest_json n
    have hr : r = .bool true := h1.1.2 ⟨_, hw⟩
    exact ⟨hr, (h1.2 hr _).1 hw⟩

/-! ## The factor is exact, and the hypotheses can be met -/

/-- **C76, the factor for binary.** With every definition, the text `0` of one character has seventeen bytes as an optional 128-bit number. -/
theorem c76_factor {F : Floats} {h : List (Call × Ret)} {c : Ctx} (hc : Calls (libEnv F) (some Ctx.init) h (some c)) {k : Nat} {q : Call} {D : AbiDef} (hf : FirstLoad (libEnv F) h k q D)
    (hsm : SmallDef D) (hu : Undeclared D (str "uint128?")) {c' : Option Ctx} {r : Ret}
    (hs : Step (libEnv F) (some c) (.jsonToBinReorderable k (some (str "uint128?")) (some (str "0"))) (.done c' r)) :
    r = .bool true ∧ ∃ b, Step (libEnv F) c' .getBinData (.done c' (.data (some b))) ∧ b.length = 17 := by
  have h1 := c60_json_to_bin_reorderable hc hf hsm hs
  have hden : Denotes D (str "uint128") (str "uint128") := .declared (.builtin .uint128) (by simp)
  have hnu : ¬ Undeclared D (str "uint128") := fun h => h _ (.builtin .uint128)
  have hw : ∃ p v, Denotes D (cstr (some (str "uint128?"))) p ∧ IsJson (cstr (some (str "0"))) v ∧ levels v ≤ 128 ∧
      Wire D (StoredScalar F) AnyKeys true p v (1 :: List.replicate 16 0) := by
    refine ⟨str "uint128" ++ str "?", .str (str "0"), ?_, ?_, by decide, .some (q := str "uint128") (.optional hu hden hnu) (by simp) (.scalar (s := .str (str "0")) (.builtin (.builtin .uint128)) ?_)⟩
    · rw [show cstr (some (str "uint128?")) = str "uint128" ++ str "?" by decide]
      exact .optional hu hden hnu
    · rw [show cstr (some (str "0")) = [48] by decide]
      exact ⟨[], [48], [], rfl, isWs_nil, .number zero_number, isWs_nil⟩
    · exact .inl ⟨0, .inl ⟨0, ⟨by decide, by decide, by decide +kernel⟩, rfl⟩, by decide, rfl, by decide⟩
  have hr : r = .bool true := h1.1.2 ⟨_, hw⟩
  exact ⟨hr, _, (h1.2 hr _).1 hw, by simp⟩

theorem ladder_distinct (n : Nat) : DistinctDef (ladder oneByte (str "y") n) := by
  intro k fs h
  rcases ladder_cases (oneByte_plain (str "y") n) h with rfl | ⟨i, rfl, -⟩
  · decide
  · cases i
    · decide
    · simp only [rung, asFields, List.map_cons, List.map_nil]; decide

theorem ladder_no_variant {bottom : List FieldDef} {y : Bytes} {n : Nat} {k : Bytes} {fs : List Field} : ¬ Meaning (ladder bottom y n) k (.variant fs) := by
  intro h
  cases h with
  | @variant _ v _ h _ =>
    generalize he : TData.variantDef v = e at h
    cases h with
    | variant hv => cases hv
    | _ => cases he

theorem ladder_namesWithin (n : Nat) : NamesWithin (ladder oneByte (str "y") n) 104 := by
  rintro k fs (h | h)
  · rcases ladder_cases (oneByte_plain (str "y") n) h with rfl | ⟨i, rfl, -⟩
    · decide
    · cases i
      · decide
      · simp only [rung, asFields, List.map_cons, List.map_nil, namesSize]; decide
  · exact absurd h ladder_no_variant

theorem ladder_nonempty (n : Nat) : NoEmptyStruct (ladder oneByte (str "y") n) := by
  intro k fs h
  have hx := (ladder_structs (oneByte_plain (str "y") n) h).2
  have : fs ≠ [] := by
    rcases ladder_cases (oneByte_plain (str "y") n) h with rfl | ⟨i, rfl, -⟩
    · decide
    · cases i <;> simp [rung, asFields, oneByte]
  obtain ⟨f, l, rfl⟩ := List.exists_cons_of_ne_nil this
  exact ⟨f, by simp, fun ⟨q, hq⟩ => hx f (by simp) (extension_undeclared hq)⟩

/-- The hypotheses of the bounds are met: a ladder of distinct names with one byte at the bottom can be loaded, and after that `{"x":0}` and the byte 0 are converted to each other. -/
theorem example_growth (F : Floats) : ∃ data c, Calls (libEnv F) (some Ctx.init) [(.setAbiBin 0 (some data), .bool true)] (some c) ∧
    FirstLoad (libEnv F) [(.setAbiBin 0 (some data), .bool true)] 0 (.setAbiBin 0 (some data)) (ladder oneByte (str "y") 3) ∧ SmallDef (ladder oneByte (str "y") 3) ∧
    DistinctDef (ladder oneByte (str "y") 3) ∧ ExtLastDef (ladder oneByte (str "y") 3) ∧ NamesWithin (ladder oneByte (str "y") 3) 104 ∧ NoEmptyStruct (ladder oneByte (str "y") 3) ∧
    Wire (ladder oneByte (str "y") 3) (StoredScalar F) OrderedKeys true [115] (nest 0) [0] ∧ ∃ t, Shown (ladder oneByte (str "y") 3) libShown true [115] [0] t 1 := by
  have hb := oneByte_plain (str "y") 3
  obtain ⟨data, c, -, h1, h2⟩ := load_history F (ladder_storable (by omega) (by decide) (by simp [str])) (ladder_loads hb) 0
  refine ⟨data, c, h1, h2, ladder_small hb (by decide), ladder_distinct 3, ladder_extLast hb, ladder_namesWithin 3, ladder_nonempty 3, ?_, ?_⟩
  · refine .struct (ladder_meaning hb (i := 0) (by omega)) ?_ (.present (b1 := [0]) (b2 := []) rfl (.scalar (s := .str (str "0")) (.builtin (.builtin .uint8)) ?_) .nil)
    · exact List.Sublist.refl _
    · exact .inl ⟨0, .inl ⟨0, ⟨by decide, by decide, by decide +kernel⟩, rfl⟩, by decide, rfl, by decide⟩
  · refine ⟨_, .struct (ladder_meaning hb (i := 0) (by omega)) (.present (b1 := [0]) (b2 := []) (n := jsonString (str "x")) (by simp)
      (.scalar (k := .uint8) (t := [48]) (.builtin (.builtin .uint8)) ?_) .nil (jsonStr_iff.2 rfl))⟩
    exact ⟨0, by decide, ⟨rfl, by decide⟩, [48], ⟨[48], ⟨⟨by decide, by decide, by decide +kernel⟩, by decide⟩, rfl⟩, rfl⟩

end Abieos
