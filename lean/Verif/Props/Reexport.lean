import Verif.Spec.Reexport
import Verif.Proofs.Reexport
import Verif.Props.StaticAbi
/-!
# C81: an ABI made from C++ types, and exported, speaks for the C++ types

A program loads a definition (or starts from one without types), adds C++ types with `add_type`, and converts the `abi` back to an `abi_def`. That never fails, and the definition
can be used; whoever loads it converts, with the C API, each added type as the C++ type is converted.
-/
namespace Abieos
open Spec

theorem reload_of_built {T : Table} (h : Built T) : Reload T := by
  induction h with
  | loaded h => exact reload_of_loaded ⟨_, _, h, rfl⟩
  | added _ hn ha hne hadd ih => exact reload_added ih hn ha hne hadd

/-- **C81, exporting.** It succeeds, and gives a definition that can be used. -/
theorem c81_exports {T : Table} (h : Built T) : ∃ D, exportTypes T = .ok D ∧ Usable D := ⟨_, exports_of_reload (reload_of_built h)⟩

/-- **C81, what is exported.** Every type of the ABI has its meaning in the definition, except that alternatives are named by their types; the text of each type that is not an
alias denotes it. -/
theorem c81_meaning {T : Table} (h : Built T) {D : AbiDef} (he : exportTypes T = .ok D) {k : Bytes} {d : TData} (hk : T.get k = some d) :
    Meaning D k (renamed d) ∧ ((∀ p, d ≠ .alias p) → Denotes D k k) := by
  have hr := reload_of_built h
  rw [(exports_of_reload hr).1] at he
  cases he
  refine ⟨export_meaning hr hk, fun ha => export_self hr ⟨d, hk, ?_⟩⟩
  have := hr.wf _ _ hk
  cases d <;> first | rfl | exact this.elim | exact absurd rfl (ha _)

theorem elems_eq {ts : List CTy} : ∀ {us : List CTy}, (∀ a ∈ ts, ∀ b ∈ us, typeText a = typeText b → a = b) →
    (ts.map fun t => (⟨typeText t, typeText t⟩ : Field)) = us.map (fun t => ⟨typeText t, typeText t⟩) → ts = us := by
  induction ts with
  | nil => intro us _ e; cases us with | nil => rfl | cons => cases e
  | cons t ts ih =>
    intro us h e
    cases us with
    | nil => cases e
    | cons u us =>
      simp only [List.map_cons, List.cons.injEq, Field.mk.injEq] at e
      rw [h t (by simp) u (by simp) e.1.1, ih (fun a ha b hb => h a (by simp [ha]) b (by simp [hb])) e.2]

theorem described_inj {P : Prog} {T : Table} {t : CTy} (h : Described P T t) : ∀ u w : CTy, Uses P t u → Uses P t w → typeText u = typeText w → u = w
  | .leaf k, w, hu, hw, e => by
    have := h _ hu
    rw [e, h _ hw] at this
    cases w <;> cases this
    rfl
  | .struct n, w, hu, hw, e => by
    have := h _ hu
    rw [e, h _ hw] at this
    cases w with
    | struct m => rw [show n = m from e]
    | _ => cases this
  | .vec a, w, hu, hw, e => by
    have := h _ hu
    rw [e, h _ hw] at this
    cases w with
    | vec b =>
      simp only [shape, Option.some.injEq, TData.array.injEq] at this
      rw [described_inj h a b (uses_trans hu (.vec .self)) (uses_trans hw (.vec .self)) this.symm]
    | _ => cases this
  | .opt a, w, hu, hw, e => by
    have := h _ hu
    rw [e, h _ hw] at this
    cases w with
    | opt b =>
      simp only [shape, Option.some.injEq, TData.optional.injEq] at this
      rw [described_inj h a b (uses_trans hu (.opt .self)) (uses_trans hw (.opt .self)) this.symm]
    | _ => cases this
  | .ext a, w, hu, hw, e => by
    have := h _ hu
    rw [e, h _ hw] at this
    cases w with
    | ext b =>
      simp only [shape, Option.some.injEq, TData.extension.injEq] at this
      rw [described_inj h a b (uses_trans hu (.ext .self)) (uses_trans hw (.ext .self)) this.symm]
    | _ => cases this
  | .variant ts, w, hu, hw, e => by
    have := h _ hu
    rw [e, h _ hw] at this
    cases w with
    | variant us =>
      simp only [shape, Option.some.injEq, TData.variant.injEq] at this
      rw [elems_eq (ts := ts) (us := us) (fun a ha b hb => described_inj h a b (uses_trans hu (.alt ha .self)) (uses_trans hw (.alt hb .self))) this.symm]
    | _ => cases this

theorem sameMembers_refl {P : Prog} {t : CTy} : ∀ {fs : List (Bytes × CTy)}, (∀ m ∈ fs, Uses P t m.2) →
    SameMembers (fun p u => Uses P t u ∧ p = typeText u) (fs.map fun f => ⟨f.1, typeText f.2⟩) fs
  | [], _ => .nil
  | m :: fs, h => .cons rfl ⟨h m (by simp), rfl⟩ (sameMembers_refl fun x hx => h x (by simp [hx]))

/-- **C81, the types.** The definition has a type of the same structure as each C++ type that the ABI describes, under its name. -/
theorem c81_like {T : Table} (h : Built T) {D : AbiDef} (he : exportTypes T = .ok D) {P : Prog} {t : CTy} (hd : Described P T t) : LikeCpp D P (typeText t) t := by
  refine ⟨fun p u => Uses P t u ∧ p = typeText u, ⟨typeText t, ?_, .self, rfl⟩, ?_⟩
  · exact (c81_meaning h he (hd t .self)).2 (by intro p; cases t <;> simp [shape])
  · rintro p u ⟨hu, rfl⟩
    refine ⟨_, (c81_meaning h he (hd u hu)).1, ?_⟩
    cases u with
    | leaf k => exact .builtin
    | vec a => exact .array ⟨uses_trans hu (.vec .self), rfl⟩
    | opt a => exact .optional ⟨uses_trans hu (.opt .self), rfl⟩
    | ext a => exact .extension ⟨uses_trans hu (.ext .self), rfl⟩
    | struct n => exact .struct (sameMembers_refl fun m hm => uses_trans hu (.field (m := m.1) hm .self))
    | variant ts =>
      refine .variant ?_
      have := sameMembers_refl (P := P) (t := t) (fs := ts.map fun t => (typeText t, t)) (fun m hm => by
        obtain ⟨x, hx, rfl⟩ := List.mem_map.1 hm
        exact uses_trans hu (.alt hx .self))
      rw [List.map_map] at this ⊢
      exact this

/-- Described types have different names, and names of builtin types only if they are these. -/
theorem c81_plain {T : Table} (h : Built T) {P : Prog} {t : CTy} (hd : Described P T t) (hm : MembersDiffer P t) (hs : ∀ n, Uses P t (.struct n) → (P.fields n).length < 2 ^ 31)
    (hx : NoExt P t) : PlainType P t where
  names := described_inj hd
  reserved := fun u k hu e => by
    have := hd u hu
    rw [e, (reload_of_built h).builtins k] at this
    cases u <;> cases this
    rfl
  members := hm
  size := hs
  noExt := hx

variable {F : Floats}

section
variable {T : Table} (hb : Built T) {D : AbiDef} (he : exportTypes T = .ok D) {P : Prog} {t : CTy} (hd : Described P T t) (hm : MembersDiffer P t)
  (hz : ∀ n, Uses P t (.struct n) → (P.fields n).length < 2 ^ 31) (hx : NoExt P t)
  {h : List (Call × Ret)} {c : Ctx} (hc : Calls (libEnv F) (some Ctx.init) h (some c)) {k : Nat} {q : Call}
  (hf : FirstLoad (libEnv F) h k q D) {type : Option Bytes} (ht : cstr type = typeText t)
include hb he hd hm hz hx hc hf ht

/-- **C81, showing.** With the exported definition loaded, for all data (shorter than 2^32 bytes): `bin_to_json` returns `text` if and only if the C++ type's `from_bin` reads all of
the data as a value that `convert_to_json` shows as `text`. -/
theorem c81_reads (hn : NoNumberVectors P t) {data : Option Bytes} (hlen : (data.getD []).length < 2 ^ 32) {c' : Option Ctx} {r : Ret}
    (hs : Step (libEnv F) (some c) (.binToJson k type data) (.done c' r)) (text : Bytes) : r = .str (some text) ↔
      ∃ v, FromBin P t (data.getD []) v [] ∧ convertToJson P t v = .ok text ∧ Short v ∧ ∀ x, Shows P t v x → x.depth ≤ 128 :=
  c80_reads hc hf (ht ▸ c81_like hb he hd) (c81_plain hb hd hm hz hx) hn hlen hs text

/-- **C81, what C++ wrote.** What `convert_to_bin` wrote is shown as the value it wrote. -/
theorem c81_written {v : SVal} {b text : Bytes} (hv : Stored P t v b) (hj : convertToJson P t v = .ok text) (hsh : Short v) (hdp : ∀ x, Shows P t v x → x.depth ≤ 128)
    {c' : Option Ctx} {r : Ret} (hs : Step (libEnv F) (some c) (.binToJson k type (some b)) (.done c' r)) : r = .str (some text) :=
  c80_written hc hf (ht ▸ c81_like hb he hd) (c81_plain hb hd hm hz hx) hv hj hsh hdp hs

/-- **C81, making.** `json_to_bin_reorderable` makes bytes exactly if the C++ type's `from_json` reads a value whose `convert_to_bin` gives these bytes. -/
theorem c81_json_to_bin_reorderable {json : Option Bytes} {d : JVal} (hj : IsJson (cstr json) d) (hu : UniqueKeys d)
    (hl : levels d ≤ 128) {c' : Option Ctx} {r : Ret} (hs : Step (libEnv F) (some c) (.jsonToBinReorderable k type json) (.done c' r)) :
    (r = .bool true ↔ ∃ b v, FromJson P F t (cstr json) v ∧ convertToBinS P t v [] = .ok b ∧ Short v) ∧
    (r = .bool true → ∀ b, Step (libEnv F) c' .getBinData (.done c' (.data (some b))) ↔
      ∃ v, FromJson P F t (cstr json) v ∧ convertToBinS P t v [] = .ok b ∧ Short v) :=
  c80_json_to_bin_reorderable hc hf (ht ▸ c81_like hb he hd) (c81_plain hb hd hm hz hx) hj hu hl hs

/-- **C81, what C++ wrote as JSON.** `json_to_bin`, of the text that `convert_to_json` gives, makes what `convert_to_bin` makes. -/
theorem c81_json (hu : NamesUtf8 P t) (hF : FloatBits F) {v : SVal} {b text : Bytes} (hcar : Carried P F t v)
    (hv : convertToBinS P t v [] = .ok b) (hj : convertToJson P t v = .ok text) (hsh : Short v) :
    ∃ d, IsJson text d ∧ (levels d ≤ 128 → ∀ {c' : Option Ctx} {r : Ret}, Step (libEnv F) (some c) (.jsonToBin k type (some text)) (.done c' r) →
      r = .bool true ∧ Step (libEnv F) c' .getBinData (.done c' (.data (some b)))) :=
  c80_json hc hf (ht ▸ c81_like hb he hd) (c81_plain hb hd hm hz hx) hu hF hcar hv hj hsh

end

/-- Types stay described when others are added. -/
theorem c81_stays {P P' : Prog} {t t' : CTy} {T T' : Table} {r : Res Ptr} (hd : Described P T t) (h : AddType P' t' T r T') : Described P T' t :=
  fun u hu => c56_keeps h _ _ (hd u hu)

/-! ## an example -/

namespace ReexportExample
open StaticJsonExample

/-- what the program starts from -/
def base : AbiDef :=
  { version := str "eosio::abi/1.1"
    types := [⟨str "owner", str "name"⟩]
    structs := [⟨str "seen", [], [⟨str "by", str "owner"⟩, ⟨str "count", str "uint8"⟩]⟩]
    actions := [], tables := [], clauses := [], errors := [], extensions := []
    variants := [⟨str "who", [str "owner", str "uint64"]⟩] }

def T0 : Table := LoaderExample.tableOf (LoaderExample.load base)

/-- after `add_type<node>()` -/
def T1 : Table := (addType prog 30 (.struct (str "node")) T0).2

/-- what is exported -/
def exported : AbiDef :=
  { version := str "eosio::abi/1.0"
    types := [⟨str "owner", str "name"⟩]
    structs := [⟨str "node", [], [⟨str "tag", str "uint8"⟩, ⟨str "note", str "int16?"⟩, ⟨str "sub", str "node[]"⟩, ⟨str "pick", str "variant_bool_node"⟩]⟩,
      ⟨str "seen", [], [⟨str "by", str "name"⟩, ⟨str "count", str "uint8"⟩]⟩]
    actions := [], tables := [], clauses := [], errors := [], extensions := []
    variants := [⟨str "variant_bool_node", [str "bool", str "node"]⟩, ⟨str "who", [str "name", str "uint64"]⟩] }

def exportsB (D : AbiDef) : Res AbiDef → Bool
  | .ok E => E == D
  | .error _ => false

theorem exportsB_iff {D : AbiDef} {r : Res AbiDef} : exportsB D r = true ↔ r = .ok D := by cases r <;> simp [exportsB]

def freshB (T : Table) (t : CTy) : Bool := match T.get (typeText t) with
  | none => true
  | some (.builtin k) => t.same (.leaf k)
  | some _ => false

theorem checks : (LoaderExample.isOk (LoaderExample.load base) && Ship.foundB (str "node") (addType prog 30 (.struct (str "node")) T0).1 && exportsB exported (exportTypes T1) &&
    AddTypeExample.types.all (freshB T0)) = true := by decide +kernel

theorem shape_builtin {P : Prog} {T : Table} {t : CTy} (h : freshB T t = true) (hs : T.get (typeText t) ≠ none) : ∃ k, t = .leaf k ∧ T.get (typeText t) = some (.builtin k) := by
  unfold freshB at h
  split at h
  · rename_i e; exact absurd e hs
  · rename_i k e; exact ⟨k, (same_iff _ _).1 h, e⟩
  · cases h

theorem agrees_of {P : Prog} {T : Table} {t : CTy} {l : List CTy} (hl : ∀ u, Uses P t u → u ∈ l) (h : l.all (freshB T) = true) : Agrees P T t := by
  intro u hu hs
  obtain ⟨k, rfl, e⟩ := shape_builtin (P := P) (List.all_eq_true.1 h u (hl u hu)) hs
  intro w hw
  cases hw
  exact e

theorem built : Built T1 ∧ exportTypes T1 = .ok exported ∧ Described prog T1 (.struct (str "node")) := by
  have h := checks
  simp only [Bool.and_eq_true] at h
  obtain ⟨⟨⟨h1, h2⟩, h3⟩, h4⟩ := h
  have g0 : Built T0 := .loaded (names := []) (LoaderExample.load_ok h1)
  have ha := agrees_of (T := T0) (fun u hu => AddTypeExample.uses_types hu) h4
  have hadd : AddType prog (.struct (str "node")) T0 (.ok (str "node")) T1 := by
    have h2 := Ship.foundB_iff.1 h2
    unfold T1
    generalize T0 = T at h2
    refine ⟨30, fun m hm => ?_⟩
    rw [addType_stable (n := 30) (by rw [h2]; simp) m hm]
    exact Prod.ext h2 rfl
  refine ⟨.added g0 AddTypeExample.names ha (fun n hn => ?_) hadd, exportsB_iff.1 h3, (c56_only (reload_of_built g0).wf AddTypeExample.names ha hadd).2.1⟩
  have := AddTypeExample.uses_types hn
  simp only [AddTypeExample.types, List.mem_cons, CTy.struct.injEq, reduceCtorEq, List.not_mem_nil, or_false] at this
  subst this
  decide +kernel

/-- no member of a struct is `might_not_exist`, nor a vector of numbers; members have different names and there are few of them -/
theorem node_facts : MembersDiffer prog (.struct (str "node")) ∧ (∀ n, Uses prog (.struct (str "node")) (.struct n) → (prog.fields n).length < 2 ^ 31) ∧
    NoExt prog (.struct (str "node")) ∧ NoNumberVectors prog (.struct (str "node")) := by
  have hf : ((prog.fields (str "node")).map Prod.fst).Nodup ∧ (prog.fields (str "node")).length < 2147483648 := by decide +kernel
  have hn : ∀ n, Uses prog (.struct (str "node")) (.struct n) → n = str "node" := by
    intro n hu
    have := AddTypeExample.uses_types hu
    simpa only [AddTypeExample.types, List.mem_cons, CTy.struct.injEq, reduceCtorEq, List.not_mem_nil, or_false] using this
  refine ⟨fun n hu => by rw [hn n hu]; exact hf.1, fun n hu => by rw [hn n hu]; exact hf.2, fun u hu => ?_, fun k hu => ?_⟩
  · have := AddTypeExample.uses_types hu
    simp [AddTypeExample.types] at this
  · have := AddTypeExample.uses_types hu
    simp [AddTypeExample.types] at this

theorem exported_storable : Storable exported := by
  have hv : exported.version.length < 2 ^ 32 := by decide +kernel
  have h0 : (exported.types.all fun t => decide (t.newName.length < 2 ^ 32) && decide (t.type.length < 2 ^ 32)) = true := by decide +kernel
  have h : (exported.structs.all fun t => decide (t.name.length < 2 ^ 32) && decide (t.base.length < 2 ^ 32) && decide (t.fields.length < 2 ^ 32) &&
      t.fields.all fun f => decide (f.name.length < 2 ^ 32) && decide (f.type.length < 2 ^ 32)) = true := by decide +kernel
  have h' : (exported.variants.all fun t => decide (t.name.length < 2 ^ 32) && decide (t.types.length < 2 ^ 32) && t.types.all fun k => decide (k.length < 2 ^ 32)) = true := by
    decide +kernel
  have h0 := List.all_eq_true.1 h0
  have h := List.all_eq_true.1 h
  have h' := List.all_eq_true.1 h'
  simp only [Bool.and_eq_true, decide_eq_true_eq, List.all_eq_true] at h0 h h'
  exact
    { version := hv
      types := ⟨(by decide : 1 < 2 ^ 32), h0⟩
      structs := ⟨(by decide : 2 < 2 ^ 32), fun t ht => ⟨(h t ht).1.1.1, (h t ht).1.1.2, (h t ht).1.2, (h t ht).2⟩⟩
      actions := ⟨(by decide : 0 < 2 ^ 32), by simp [exported]⟩
      tables := ⟨(by decide : 0 < 2 ^ 32), by simp [exported]⟩
      clauses := ⟨(by decide : 0 < 2 ^ 32), by simp [exported]⟩
      errors := ⟨(by decide : 0 < 2 ^ 32), by simp [exported]⟩
      extensions := ⟨(by decide : 0 < 2 ^ 32), by simp [exported]⟩
      variants := ⟨(by decide : 2 < 2 ^ 32), fun t ht => ⟨(h' t ht).1.1, (h' t ht).1.2, (h' t ht).2⟩⟩ }

def outerBytes : Bytes := [200, 1, 254, 255, 1, 7, 0, 0, 0, 1, 1, 7, 0, 0, 0, 1]
def outerText : Bytes := str "{\"tag\":200,\"note\":-2,\"sub\":[{\"tag\":7,\"note\":null,\"sub\":[],\"pick\":[\"bool\",true]}],\"pick\":[\"node\",{\"tag\":7,\"note\":null,\"sub\":[],\"pick\":[\"bool\",true]}]}"

theorem outer_json : convertToJson prog (.struct (str "node")) outer = .ok outerText := by decide +kernel
theorem outer_depth : (match treeOf prog (.struct (str "node")) outer with | .ok z => decide (z.depth ≤ 128) | .error _ => false) = true := by decide +kernel
theorem outer_read : FromBin prog (.struct (str "node")) outerBytes outer [] := ⟨64, by with_unfolding_all rfl⟩

/-- The hypotheses are met: `node` was added to an ABI, this was exported, and loaded for contract 9; the bytes of a node are shown as C++ shows it. -/
example : ∃ (b : Bytes) (c : Ctx), Calls (libEnv F) (some Ctx.init) [(.setAbiBin 9 (some b), .bool true)] (some c) ∧ ∀ (c' : Option Ctx) (r : Ret),
    Step (libEnv F) (some c) (.binToJson 9 (some (str "node")) (some outerBytes)) (.done c' r) → r = .str (some outerText) := by
  obtain ⟨hb, he, hd⟩ := built
  obtain ⟨D, he', hu⟩ := c81_exports hb
  rw [he] at he'
  cases he'
  obtain ⟨hm, hz, hx, hn⟩ := node_facts
  obtain ⟨b, c, hc, hf⟩ := Ship.loads_bin (env := libEnv F) hu exported_storable 9
  refine ⟨b, c, hc, fun c' r hs => ?_⟩
  refine (c81_reads hb he hd hm hz hx hc hf (by decide +kernel) hn (by decide +kernel) hs outerText).2 ⟨outer, outer_read, outer_json, ?_, fun x hx => ?_⟩
  · simp [outer, inner, Short, ShortAll]
  · have := outer_depth
    rw [shows_treeOf hx] at this
    simpa using this

end ReexportExample
end Abieos
