import Verif.Proofs.Wire
import Verif.Props.CApiExample
import Verif.Props.FloatTrip
import Verif.Props.JsonGrammar
import Verif.Props.BuiltinFormat
/-
C60: what the conversions do, from texts to bytes and back, read off the ABI definition.
-/
namespace Abieos
open Spec

/-- The C interface with the JSON reader and the builtin types of the library; `F` is the C library's reading of floating point numbers. -/
def libEnv (F : Floats) : Env := ⟨Reader.read, Reader.upTo, builtins F, upTo_cut⟩

variable {F : Floats} {D : AbiDef} {T : Table}

theorem takeWhile_cstr (s : Option Bytes) : (cstr s).takeWhile (· != 0) = cstr s := by
  cases s with
  | none => rfl
  | some s =>
    apply takeWhile_ne
    intro c hc
    have := List.all_takeWhile (l := s) (p := fun c => decide (c ≠ 0))
    simpa using List.all_eq_true.1 this c hc

theorem converts_wire (hD : ∃ T, LoadTypes D (.ok T)) (hsm : SmallDef D) (type b : Bytes) (json : Option Bytes) :
    Converts (libEnv F) JsonToBinReorderable D type (cstr json) b ↔
      ∃ p v, Denotes D type p ∧ IsJson (cstr json) v ∧ levels v ≤ 128 ∧ Wire D (StoredScalar F) AnyKeys true p v b := by
  have hr : ∀ v, (libEnv F).read (cstr json) = some v ↔ IsJson (cstr json) v := by
    intro v
    rw [show (libEnv F).read = Reader.read from rfl, c53_read_iff, takeWhile_cstr]
  constructor
  · rintro ⟨T, p, v, h1, h2, h3, h4⟩
    have h0 : LoadedThen D T := ⟨T, [], h1, rfl⟩
    have h0' := h0.lookup type
    have hv := c26_found h0 h2
    obtain ⟨h5, h6⟩ := (c36_reorderable_is_encoding (c26_resolved h0').1 (small_of_def h0' hsm) hv v b).1 h4
    exact ⟨p, v, (c26_lookup h0 type p).1 h2, (hr v).1 h3, h5, (wire_iff h0' (c52_scalar_to_binary F) hv v b).1 h6⟩
  · rintro ⟨p, v, h2, h3, h5, h6⟩
    obtain ⟨T, h1⟩ := hD
    have h0 : LoadedThen D T := ⟨T, [], h1, rfl⟩
    have h0' := h0.lookup type
    have h2 := (c26_lookup h0 type p).2 h2
    have hv := c26_found h0 h2
    exact ⟨T, p, v, h1, h2, (hr v).2 h3, (c36_reorderable_is_encoding (c26_resolved h0').1 (small_of_def h0' hsm) hv v b).2
      ⟨h5, (wire_iff h0' (c52_scalar_to_binary F) hv v b).2 h6⟩⟩

theorem converts_ordered (hD : ∃ T, LoadTypes D (.ok T)) (hsm : SmallDef D) (hdf : DistinctDef D) (hx : ExtLastDef D) (type b : Bytes) (json : Option Bytes) :
    Converts (libEnv F) JsonToBin D type (cstr json) b ↔
      ∃ p v, Denotes D type p ∧ IsJson (cstr json) v ∧ openDepth v ≤ 128 ∧ Wire D (StoredScalar F) OrderedKeys true p v b := by
  have hr : ∀ v, (libEnv F).read (cstr json) = some v ↔ IsJson (cstr json) v := by
    intro v
    rw [show (libEnv F).read = Reader.read from rfl, c53_read_iff, takeWhile_cstr]
  constructor
  · rintro ⟨T, p, v, h1, h2, h3, h4⟩
    have h0 : LoadedThen D T := ⟨T, [], h1, rfl⟩
    have h0' := h0.lookup type
    have hv := c26_found h0 h2
    have hd := distinct_of_def h0' hdf
    obtain ⟨h5, h6⟩ := (c36_ordered_is_encoding (c26_resolved h0').1 (extTail_of_def h0' hx) hd (small_of_def h0' hsm) hv v b).1 h4
    exact ⟨p, v, (c26_lookup h0 type p).1 h2, (hr v).1 h3, h5, (wire_ordered_iff h0' hd (c52_scalar_to_binary F) hv v b).1 h6⟩
  · rintro ⟨p, v, h2, h3, h5, h6⟩
    obtain ⟨T, h1⟩ := hD
    have h0 : LoadedThen D T := ⟨T, [], h1, rfl⟩
    have h0' := h0.lookup type
    have h2 := (c26_lookup h0 type p).2 h2
    have hv := c26_found h0 h2
    have hd := distinct_of_def h0' hdf
    exact ⟨T, p, v, h1, h2, (hr v).2 h3, (c36_ordered_is_encoding (c26_resolved h0').1 (extTail_of_def h0' hx) hd (small_of_def h0' hsm) hv v b).2
      ⟨h5, (wire_ordered_iff h0' hd (c52_scalar_to_binary F) hv v b).2 h6⟩⟩

section
variable {h : List (Call × Ret)} {c : Ctx} (hc : Calls (libEnv F) (some Ctx.init) h (some c)) {k : Nat} {q : Call} (hf : FirstLoad (libEnv F) h k q D)
include hc hf

/-- **C60, reorderable conversion.** After any history of calls, the text is converted if and only if it is a JSON text of a document that is a
value of the type, by the definition that was loaded first for the contract, and that is not nested too deeply; the bytes are its wire format. -/
theorem c60_json_to_bin_reorderable (hsm : SmallDef D) {type json : Option Bytes} {c' : Option Ctx} {r : Ret}
    (hs : Step (libEnv F) (some c) (.jsonToBinReorderable k type json) (.done c' r)) :
    (r = .bool true ↔ ∃ b p v, Denotes D (cstr type) p ∧ IsJson (cstr json) v ∧ levels v ≤ 128 ∧ Wire D (StoredScalar F) AnyKeys true p v b) ∧
    (r = .bool true → ∀ b, (∃ p v, Denotes D (cstr type) p ∧ IsJson (cstr json) v ∧ levels v ≤ 128 ∧ Wire D (StoredScalar F) AnyKeys true p v b) ↔
      Step (libEnv F) c' .getBinData (.done c' (.data (some b)))) := by
  have := c39_json_to_bin_reorderable hc hf hs
  simpa only [converts_wire hf.1.1.2 hsm] using this

/-- **C60, ordered conversion.** The same, but the members of each object are in the order of the fields, none is unknown and none is repeated. -/
theorem c60_json_to_bin (hsm : SmallDef D) (hdf : DistinctDef D) (hx : ExtLastDef D) {type json : Option Bytes} {c' : Option Ctx} {r : Ret}
    (hs : Step (libEnv F) (some c) (.jsonToBin k type json) (.done c' r)) :
    (r = .bool true ↔ ∃ b p v, Denotes D (cstr type) p ∧ IsJson (cstr json) v ∧ openDepth v ≤ 128 ∧ Wire D (StoredScalar F) OrderedKeys true p v b) ∧
    (r = .bool true → ∀ b, (∃ p v, Denotes D (cstr type) p ∧ IsJson (cstr json) v ∧ openDepth v ≤ 128 ∧ Wire D (StoredScalar F) OrderedKeys true p v b) ↔
      Step (libEnv F) c' .getBinData (.done c' (.data (some b)))) := by
  have := c39_json_to_bin hc hf hs
  simpa only [converts_ordered hf.1.1.2 hsm hdf hx] using this

end

/-! ## Back to text -/

theorem regular_of_def (h : LoadedThen D T) (hr : RegularDef D) : Regular T where
  extTail := extTail_of_def h hr.extLast
  small := small_of_def h hr.small
  distinct := distinct_of_def h hr.distinct
  utf8 := ⟨fun k fs hk => hr.utf8 k fs (.inl ((c26_resolved h).2 _ _ hk)), fun k fs hk => hr.utf8 k fs (.inr ((c26_resolved h).2 _ _ hk))⟩
  alts := by
    intro k fs hk
    have hm := (c26_resolved h).2 _ _ hk
    refine ⟨by simpa using hr.alts k fs hm, ?_⟩
    intro f hf g hg he
    have hu := (loaded_of h).1.unique
    cases hm with
    | variant h1 h2 =>
      obtain ⟨a, ha, e1, d1⟩ := fieldsOf_mem h2 f hf
      obtain ⟨b, hb, e2, d2⟩ := fieldsOf_mem h2 g hg
      obtain ⟨t, -, rfl⟩ := List.mem_map.1 ha
      obtain ⟨u, -, rfl⟩ := List.mem_map.1 hb
      simp only at e1 e2 d1 d2
      have : t = u := by rw [← e1, ← e2, he]
      subst this
      exact Denotes.unique hu d1 d2

/-- What occurs in a value has a wire format. -/
theorem wire_occurs (h : LoadedThen D T) {S : Builtin → Scalar → Bytes → Prop} {M : List Bytes → List Bytes → Prop} {a a' : Bool} {ty ty' : Ptr} {v v' : JVal}
    (ho : Occurs T a ty v a' ty' v') : ∀ {b : Bytes}, Wire D S M a ty v b → ∃ b', Wire D S M a' ty' v' b' := by
  have hu := (loaded_of h).1.unique
  have hm := (c26_resolved h).2
  have un : ∀ {k d d'}, T.get k = some d → Meaning D k d' → d = d' := fun h1 h2 => Meaning.unique hu (hm _ _ h1) h2
  induction ho with
  | here => exact fun hw => ⟨_, hw⟩
  | optional h1 h2 _ ih =>
    intro b hw
    cases hw with
    | scalar g => cases un h1 g
    | none => exact absurd rfl h2
    | some g _ g2 => cases un h1 g; exact ih g2
    | extension g => cases un h1 g
    | struct g => cases un h1 g
    | array g => cases un h1 g
    | variant g => cases un h1 g
  | extension h1 _ ih =>
    intro b hw
    cases hw with
    | scalar g => cases un h1 g
    | none g => cases un h1 g
    | some g => cases un h1 g
    | extension g g2 => cases un h1 g; exact ih g2
    | struct g => cases un h1 g
    | array g => cases un h1 g
    | variant g => cases un h1 g
  | @field a a' ty ty' v' x ms pre post f h1 h2 _ ih =>
    intro b hw
    generalize hv : JVal.obj ms = v at hw
    cases hw with
    | scalar g => cases un h1 g
    | none g => cases un h1 g
    | some g => cases un h1 g
    | extension g => cases un h1 g
    | struct g g0 g2 =>
      cases hv
      cases un h1 g
      clear g h1 g0
      induction pre generalizing b with
      | nil =>
        cases g2 with
        | missing g => rw [(g f (by simp)).2] at h2; cases h2
        | present g1 g3 g4 => rw [g1] at h2; cases h2; exact ih g3
      | cons e pre ihp =>
        cases g2 with
        | missing g => rw [(g f (by simp)).2] at h2; cases h2
        | present g1 g3 g4 => exact ihp g4
    | array g => cases un h1 g
    | variant g => cases un h1 g
  | @elem a a' ty ty' p v' x l h1 h2 _ ih =>
    intro b hw
    generalize hv : JVal.arr l = v at hw
    cases hw with
    | scalar g => cases un h1 g
    | none g => cases un h1 g
    | some g => cases un h1 g
    | extension g => cases un h1 g
    | struct g => cases un h1 g
    | array g k1 k2 g2 =>
      cases hv
      cases un h1 g
      clear g h1 k1 k2
      rename_i b'
      induction l generalizing b' with
      | nil => cases h2
      | cons y l ihl =>
        cases g2 with
        | cons g3 g4 =>
          rcases List.mem_cons.1 h2 with rfl | h2
          · exact ih g3
          · exact ihl h2 g4
    | variant g => cases un h1 g
  | @alt a a' ty ty' v' x alts name i f h1 h2 _ ih =>
    intro b hw
    generalize hv : JVal.arr [.str name, x] = v at hw
    cases hw with
    | scalar g => cases un h1 g
    | none g => cases un h1 g
    | some g => cases un h1 g
    | extension g => cases un h1 g
    | struct g => cases un h1 g
    | array g => cases un h1 g
    | variant g g2 g3 g4 =>
      cases hv
      cases un h1 g
      rw [findAlt_join _ 0 g2] at h2
      cases h2
      exact ih g4

/-- The scalars of a document with a wire format of such scalars are such. -/
theorem kept_of_wire (h : LoadedThen D T) {ty : Ptr} {v : JVal} {b : Bytes}
    (hw : Wire D (fun k s b => StoredScalar F k s b ∧ KeptScalar k b) AnyKeys true ty v b) (a : Bool) (ty' : Ptr) (k : Builtin) (s : Scalar) (c : Bytes)
    (ho : Occurs T true ty v a ty' (ofScalar s)) (ht : T.get ty' = some (.builtin k)) (hb : (builtins F).toBin k s = .ok c) : KeptScalar k c := by
  obtain ⟨b', hw'⟩ := wire_occurs h ho hw
  have hm := (c26_resolved h).2 _ _ ht
  have hu := (loaded_of h).1.unique
  generalize hv : ofScalar s = v' at hw'
  cases hw' with
  | scalar g g2 =>
    rename_i k' s'
    cases Meaning.unique hu hm g
    have e : s = s' := by
      cases s <;> cases s' <;> simp_all [ofScalar]
    subst e
    have := (c52_scalar_to_binary F _ _ _).2 g2.1
    rw [show (builtins F).toBin = builtinToBin F from rfl, this] at hb
    cases hb
    exact g2.2
  | none g => cases Meaning.unique hu hm g
  | some g => cases Meaning.unique hu hm g
  | extension g => cases Meaning.unique hu hm g
  | struct g => cases Meaning.unique hu hm g
  | array g => cases Meaning.unique hu hm g
  | variant g => cases Meaning.unique hu hm g

theorem isJson_ne {t : Bytes} {v : JVal} (h : IsJson t v) : ∀ c ∈ t, c ≠ 0 := by
  obtain ⟨w, u, w', rfl, hw, hu, hw'⟩ := h
  exact append_ne (ws_ne hw) (append_ne (jsonText_ne hu) (ws_ne hw'))

theorem cut_isJson {t : Bytes} {v : JVal} (h : IsJson t v) : cut t = t := by
  unfold cut
  have := takeWhile_ne (isJson_ne h)
  convert this using 2
  funext c
  by_cases hc : c = 0 <;> simp [hc]

/-- **C60, binary to JSON.** If the C library reads floating point numbers correctly: the wire format of a document (valid UTF-8, not nested too deeply, and
whose times and floating point numbers are such that their texts say all of them) is converted to a JSON text; it says a document with the same wire format,
in the order of the fields. -/
theorem c60_bin_to_json (hF : RoundsCorrectly F) (hr : RegularDef D) {h : List (Call × Ret)} {c : Ctx} (hc : Calls (libEnv F) (some Ctx.init) h (some c))
    {k : Nat} {q : Call} (hf : FirstLoad (libEnv F) h k q D) {type : Option Bytes} {b : Bytes} {c' : Option Ctx} {r : Ret}
    (hs : Step (libEnv F) (some c) (.binToJson k type (some b)) (.done c' r)) {p : Ptr} {v : JVal} (hp : Denotes D (cstr type) p) (hu : DocUtf8 v) (hl : levels v ≤ 128)
    (hw : Wire D (fun k s b => StoredScalar F k s b ∧ KeptScalar k b) AnyKeys true p v b) :
    ∃ t v', r = .str (some t) ∧ IsJson t v' ∧ levels v' ≤ 128 ∧ Wire D (StoredScalar F) OrderedKeys true p v' b := by
  obtain ⟨T, h1⟩ := hf.1.1.2
  have h0 : LoadedThen D T := ⟨T, [], h1, rfl⟩
  have h0' := h0.lookup (cstr type)
  have h2 := (c26_lookup h0 (cstr type) p).2 hp
  have hv := c26_found h0 h2
  have wf := (c26_resolved h0').1
  have reg := regular_of_def h0' hr
  obtain ⟨n, he⟩ := wire_enc (L := builtins F) h0' (fun k s b (hS : StoredScalar F k s b ∧ KeptScalar k b) => (c52_scalar_to_binary F k s b).2 hS.1) hw hv
  have hj := (c36_reorderable_is_encoding (L := builtins F) wf reg.small hv v b).2 ⟨hl, n, he⟩
  obtain ⟨t, v', g1, g2, g3, g4⟩ := c59_json_bin_json wf reg hF hv (.inr hj) hu (kept_of_wire h0' hw)
  have hd : DecodesAll (libEnv F) D (cstr type) b t := ⟨T, p, h1, h2, g1⟩
  obtain ⟨w, u, rfl, hw', hu'⟩ := isJson_of_reads g2
  have hi : IsJson (w ++ u) v' := ⟨w, u, [], by simp, hw', hu', by simp [IsWs]⟩
  refine ⟨w ++ u, v', ?_, hi, ((c36_reorderable_is_encoding wf reg.small hv v' b).1 (g4 hl)).1, ?_⟩
  · rw [c39_bin_to_json hc hf hs (some (w ++ u))]
    exact .inr ⟨_, by rw [cut_isJson hi], hd⟩
  · exact (wire_ordered_iff h0' reg.distinct (c52_scalar_to_binary F) hv v' b).1
      ((c36_ordered_is_encoding wf reg.extTail reg.distinct reg.small hv v' b).1 g3).2

/-! ## An example -/

/-- The conditions on the definition can be read off the table it is loaded to. -/
theorem regularDef_of (h : LoadTypes D (.ok T)) (reg : Regular T) : RegularDef D := by
  have h0 : LoadedThen D T := ⟨T, [], h, rfl⟩
  have hu := (loaded_of h0).1.unique
  have hs : ∀ k fs, Meaning D k (.struct fs) → T.get k = some (.struct fs) := by
    intro k fs hm
    obtain ⟨d, hd⟩ : ∃ d, T.get k = some d := by
      cases hm with
      | extendedAsset h1 => exact (loaded_of h0).1.decls _ _ h1
      | struct h1 _ => exact (loaded_of h0).1.decls _ _ h1
    rw [hd, Meaning.unique hu ((c26_resolved h0).2 _ _ hd) hm]
  have hv : ∀ k fs, Meaning D k (.variant fs) → T.get k = some (.variant fs) := by
    intro k fs hm
    obtain ⟨d, hd⟩ : ∃ d, T.get k = some d := by
      cases hm with
      | variant h1 _ => exact (loaded_of h0).1.decls _ _ h1
    rw [hd, Meaning.unique hu ((c26_resolved h0).2 _ _ hd) hm]
  refine ⟨fun k fs hm => reg.small k fs (hs k fs hm), fun k fs hm => reg.distinct k fs (hs k fs hm), ?_, ?_, fun k fs hm => (reg.alts k fs (hv k fs hm)).1⟩
  · intro k fs hm pre f post he hx g hg
    have hval := (c26_resolved h0).1.struct (hs k fs hm)
    exact (isExt_iff_meaning h0 (hval g (by rw [he]; simp [hg]))).1
      (reg.extTail k fs (hs k fs hm) pre f post he ((isExt_iff_meaning h0 (hval f (by rw [he]; simp))).2 hx) g hg)
  · rintro k fs (hm | hm)
    · exact reg.utf8.1 k fs (hs k fs hm)
    · exact reg.utf8.2 k fs (hv k fs hm)

namespace WireExample
open CApiExample Example

theorem regular : RegularDef abiDef := regularDef_of abi_loads (Table.regular_of_regularB (by decide +kernel))

theorem cut_json : cstr (some json) = json := by decide +kernel
theorem cut_s : cstr (some (str "s")) = str "s" := by decide +kernel

theorem denotes : Denotes abiDef (str "s") (str "s") := .declared (.struct (s := ⟨str "s", [], [⟨str "a", str "uint8[]"⟩, ⟨str "b", str "string"⟩]⟩) (by simp [abiDef])) (by simp)

/-- The hypotheses of the C60 theorems are met by a history in which a definition is loaded for contract 5, and the text `{"a":[1,"2",3],"b":"x"}`
has the wire format 03 01 02 03 01 78 there. -/
theorem example_wire : ∃ c, Calls (libEnv noFloats) (some Ctx.init) loads (some c) ∧ FirstLoad (libEnv noFloats) loads 5 (.setAbi 5 (some abiText)) abiDef ∧
    RegularDef abiDef ∧ ∃ v, Denotes abiDef (cstr (some (str "s"))) (str "s") ∧ IsJson (cstr (some json)) v ∧ levels v ≤ 128 ∧ DocUtf8 v ∧
      Wire abiDef (StoredScalar noFloats) AnyKeys true (str "s") v [3, 1, 2, 3, 1, 120] := by
  obtain ⟨c, hc⟩ := loads_calls
  obtain ⟨p, v, h1, h2, h3, h4⟩ := (converts_wire (F := noFloats) ⟨_, abi_loads⟩ regular.small (str "s") [3, 1, 2, 3, 1, 120] (some json)).1 <| by
    have hp : (lookupType (str "s") T1).1 = .ok (str "s") := by decide +kernel
    have h0 : LoadedThen abiDef T1 := ⟨T1, [], abi_loads, rfl⟩
    rw [cut_json]
    refine ⟨T1, str "s", _, abi_loads, hp, json_reads, ?_⟩
    have hT : (lookupType (str "s") T1).2 = T1 := by decide +kernel
    rw [hT]
    rw [reorderable_iff (loaded_of h0).wf (hT ▸ c26_found h0 hp) _ _ 60 (by decide +kernel)]
    decide +kernel
  cases (c25_meaning_unique (c25_names abi_loads)).1 _ _ _ h1 denotes
  rw [cut_s]
  exact ⟨c, hc, first5, regular, v, h1, h2, h3, c53_utf8 h2, h4⟩

end WireExample

end Abieos
