import Verif.Proofs.StaticAbi
import Verif.Props.ShipAbi
/-!
# C80: an ABI type made like a C++ type converts like it

C79, for every ABI and every C++ type. The ABI `D` is loaded for the contract; the text `type` denotes in it a type of the same structure as the C++ type `t` of the program `P`
(`LikeCpp`: the same builtin types, members, alternatives; typedefs, bases and the names of structs do not matter). Then the library's conversions of `type` are those of `t`:
`bin_to_json` shows what `from_bin` and `convert_to_json` show, `json_to_bin_reorderable` makes what `from_json` and `convert_to_bin` make, and `json_to_bin` reads what
`convert_to_json` wrote.
-/
namespace Abieos
open Spec

variable {F : Floats}

section
variable {P : Prog} {D : AbiDef} {t : CTy} {h : List (Call × Ret)} {c : Ctx} (hc : Calls (libEnv F) (some Ctx.init) h (some c)) {k : Nat} {q : Call}
  (hf : FirstLoad (libEnv F) h k q D) {type : Option Bytes} (hl : LikeCpp D P (cstr type) t) (hp : PlainType P t)
include hc hf hl hp

/-- **C80, showing.** For all data (shorter than 2^32 bytes): `bin_to_json` returns `text` if and only if `from_bin` reads all of the data as a value that `convert_to_json`
shows as `text` (a value whose parts have less than 2^32 bytes or elements and whose JSON is nested up to 128 deep). -/
theorem c80_reads (hn : NoNumberVectors P t) {data : Option Bytes} (hlen : (data.getD []).length < 2 ^ 32) {c' : Option Ctx} {r : Ret}
    (hs : Step (libEnv F) (some c) (.binToJson k type data) (.done c' r)) (text : Bytes) : r = .str (some text) ↔
      ∃ v, FromBin P t (data.getD []) v [] ∧ convertToJson P t v = .ok text ∧ Short v ∧ ∀ x, Shows P t v x → x.depth ≤ 128 := by
  obtain ⟨V, tw⟩ := twin_exists hf.1.1.2 hl hp
  exact twin_reads hc hf tw hp.noExt hn hlen hs text

/-- **C80, what C++ wrote.** What `convert_to_bin` wrote is shown as the value it wrote. -/
theorem c80_written {v : SVal} {b text : Bytes} (hb : Stored P t v b) (ht : convertToJson P t v = .ok text) (hsh : Short v) (hdp : ∀ x, Shows P t v x → x.depth ≤ 128)
    {c' : Option Ctx} {r : Ret} (hs : Step (libEnv F) (some c) (.binToJson k type (some b)) (.done c' r)) : r = .str (some text) := by
  obtain ⟨V, tw⟩ := twin_exists hf.1.1.2 hl hp
  exact twin_written hc hf tw hb ht hsh hdp hs

/-- **C80, making.** For all JSON documents (no key twice in an object, nested up to 128 deep): `json_to_bin_reorderable` succeeds, and makes the bytes `b`, if and
only if the C++ type's `from_json` reads a value whose `convert_to_bin` is `b`. -/
theorem c80_json_to_bin_reorderable {json : Option Bytes} {d : JVal} (hj : IsJson (cstr json) d) (hu : UniqueKeys d)
    (hd : levels d ≤ 128) {c' : Option Ctx} {r : Ret} (hs : Step (libEnv F) (some c) (.jsonToBinReorderable k type json) (.done c' r)) :
    (r = .bool true ↔ ∃ b v, FromJson P F t (cstr json) v ∧ convertToBinS P t v [] = .ok b ∧ Short v) ∧
    (r = .bool true → ∀ b, Step (libEnv F) c' .getBinData (.done c' (.data (some b))) ↔
      ∃ v, FromJson P F t (cstr json) v ∧ convertToBinS P t v [] = .ok b ∧ Short v) := by
  obtain ⟨V, tw⟩ := twin_exists hf.1.1.2 hl hp
  exact twin_json_to_bin_reorderable hc hf tw hp.noExt hp.members hj hu hd hs

/-- **C80, what C++ wrote as JSON.** If the floating point conversions keep their bits, and members and alternatives have names in UTF-8: the text that `convert_to_json` gives for
a value that JSON can carry is a document, and `json_to_bin`, of it, makes what `convert_to_bin` makes of the value. -/
theorem c80_json (hu : NamesUtf8 P t) (hF : FloatBits F) {v : SVal} {b text : Bytes} (hcar : Carried P F t v)
    (hb : convertToBinS P t v [] = .ok b) (ht : convertToJson P t v = .ok text) (hsh : Short v) :
    ∃ d, IsJson text d ∧ (levels d ≤ 128 → ∀ {c' : Option Ctx} {r : Ret}, Step (libEnv F) (some c) (.jsonToBin k type (some text)) (.done c' r) →
      r = .bool true ∧ Step (libEnv F) c' .getBinData (.done c' (.data (some b)))) := by
  obtain ⟨V, tw⟩ := twin_exists hf.1.1.2 hl hp
  exact twin_json hc hf tw hp.noExt hp.members hu hF hcar hb ht hsh

end

/-! ## how to see that types are alike -/

namespace StaticAbiExample

/-- every type in the list has its parts in the list -/
def closedB (P : Prog) (l : List CTy) : Bool := l.all fun
  | .leaf _ => true
  | .vec t => l.any t.same
  | .opt t => l.any t.same
  | .ext _ => false
  | .variant ts => ts.all fun t => l.any t.same
  | .struct n => (P.fields n).all fun f => l.any f.2.same

theorem mem_of_same {l : List CTy} {t : CTy} (h : l.any t.same = true) : t ∈ l := by
  obtain ⟨u, hu, e⟩ := List.any_eq_true.1 h
  rw [(same_iff _ _).1 e]; exact hu

theorem closed_uses {P : Prog} {l : List CTy} (h : closedB P l = true) {t u : CTy} (ht : t ∈ l) (hu : Uses P t u) : u ∈ l := by
  refine uses_in (L := fun u => u ∈ l) ?_ hu ht
  intro u w hu hw
  have := List.all_eq_true.1 h u hu
  cases hw with
  | vec => exact mem_of_same this
  | opt => exact mem_of_same this
  | ext => cases this
  | alt hm => exact mem_of_same (List.all_eq_true.1 this _ hm)
  | field hm => exact mem_of_same (List.all_eq_true.1 this _ hm)

/-- `PlainType`, for a type in the list -/
def plainB (P : Prog) (l : List CTy) : Bool := closedB P l && decide (l.map typeText).Nodup &&
  (l.all fun u => Builtin.all.all fun k => !(typeText u == k.typeName) || u.same (.leaf k)) &&
  l.all fun
    | .struct n => decide ((P.fields n).map Prod.fst).Nodup && decide ((P.fields n).length < 2147483648)
    | _ => true

theorem all_mem (k : Builtin) : k ∈ Builtin.all := by cases k <;> decide

theorem plainType_of_check {P : Prog} {l : List CTy} (h : plainB P l = true) {t : CTy} (ht : t ∈ l) : PlainType P t := by
  unfold plainB at h
  simp only [Bool.and_eq_true, decide_eq_true_eq] at h
  obtain ⟨⟨⟨h1, h2⟩, h3⟩, h4⟩ := h
  have hstruct : ∀ n, Uses P t (.struct n) → ((P.fields n).map Prod.fst).Nodup ∧ (P.fields n).length < 2147483648 := by
    intro n hn
    have := List.all_eq_true.1 h4 _ (closed_uses h1 ht hn)
    simpa only [Bool.and_eq_true, decide_eq_true_eq] using this
  exact
    { names := fun u w hu hw e => AddTypeExample.inj_of_nodup h2 (closed_uses h1 ht hu) (closed_uses h1 ht hw) e
      reserved := fun u k hu e => by
        have := List.all_eq_true.1 (List.all_eq_true.1 h3 _ (closed_uses h1 ht hu)) k (all_mem k)
        simp only [Bool.or_eq_true, Bool.not_eq_true', beq_eq_false_iff_ne] at this
        exact (same_iff _ _).1 (this.resolve_left fun h => h e)
      members := fun n hn => (hstruct n hn).1
      size := fun n hn => (hstruct n hn).2
      noExt := fun u hu => by
        have := List.all_eq_true.1 h1 _ (closed_uses h1 ht hu)
        cases this }

/-- the same names, and pairs in the list -/
def sameMembersB (l : List (Bytes × CTy)) : List Field → List (Bytes × CTy) → Bool
  | [], [] => true
  | f :: fs, m :: ms => f.name == m.1 && (l.any fun x => x.1 == f.type && x.2.same m.2) && sameMembersB l fs ms
  | _, _ => false

/-- `MadeLike`, for the pairs in the list -/
def madeLikeB (P : Prog) (l : List (Bytes × CTy)) : Option TData → CTy → Bool
  | some (.builtin k), .leaf k' => k == k'
  | some (.optional p), .opt t => l.any fun x => x.1 == p && x.2.same t
  | some (.extension p), .ext t => l.any fun x => x.1 == p && x.2.same t
  | some (.array p), .vec t => l.any fun x => x.1 == p && x.2.same t
  | some (.struct fs), .struct n => sameMembersB l fs (P.fields n)
  | some (.variant fs), .variant ts => sameMembersB l fs (ts.map fun t => (typeText t, t))
  | _, _ => false

theorem pair_of_any {l : List (Bytes × CTy)} {p : Bytes} {t : CTy} (h : (l.any fun x => x.1 == p && x.2.same t) = true) : (p, t) ∈ l := by
  obtain ⟨x, hx, e⟩ := List.any_eq_true.1 h
  rw [Bool.and_eq_true] at e
  rw [← eq_of_beq e.1, ← (same_iff _ _).1 e.2]
  exact hx

theorem sameMembersB_sound {l : List (Bytes × CTy)} : ∀ {fs : List Field} {ms : List (Bytes × CTy)}, sameMembersB l fs ms = true → SameMembers (fun p u => (p, u) ∈ l) fs ms
  | [], [], _ => .nil
  | [], _ :: _, h => by cases h
  | _ :: _, [], h => by cases h
  | f :: fs, m :: ms, h => by
    simp only [sameMembersB, Bool.and_eq_true, beq_iff_eq] at h
    exact .cons h.1.1 (pair_of_any (by simpa only [Bool.and_eq_true, beq_iff_eq] using h.1.2)) (sameMembersB_sound h.2)

theorem madeLikeB_sound {P : Prog} {l : List (Bytes × CTy)} {x : Option TData} {t : CTy} (h : madeLikeB P l x t = true) :
    ∃ d, x = some d ∧ MadeLike P (fun p u => (p, u) ∈ l) d t := by
  unfold madeLikeB at h
  split at h
  · exact ⟨_, rfl, by rw [beq_iff_eq.1 h]; exact .builtin⟩
  · exact ⟨_, rfl, .optional (pair_of_any h)⟩
  · exact ⟨_, rfl, .extension (pair_of_any h)⟩
  · exact ⟨_, rfl, .array (pair_of_any h)⟩
  · exact ⟨_, rfl, .struct (sameMembersB_sound h)⟩
  · exact ⟨_, rfl, .variant (sameMembersB_sound h)⟩
  · cases h

theorem likeCpp_of_check {P : Prog} {D : AbiDef} {T : Table} (h : LoadedThen D T) {n p : Bytes} {t : CTy} (ha : (lookupType n T).1 = .ok p) {l : List (Bytes × CTy)}
    (hpt : (p, t) ∈ l) (hl : (l.all fun x => madeLikeB P l (T.get x.1) x.2) = true) : LikeCpp D P n t := by
  refine ⟨fun p u => (p, u) ∈ l, ⟨p, (c26_lookup h n p).1 ha, hpt⟩, fun x u hx => ?_⟩
  obtain ⟨d, e, g⟩ := madeLikeB_sound (List.all_eq_true.1 hl _ hx)
  exact ⟨d, (c26_resolved h).2 _ _ e, g⟩

/-! ## an example: the ABI for transactions that the repository has in test.cpp, with typedefs and a base, and the C++ transaction of ship_protocol.hpp -/

/-- `transactionAbi` (src/test.cpp:131-246) -/
def transactionAbi : AbiDef :=
  { version := str "eosio::abi/1.0"
    types := [⟨str "account_name", str "name"⟩, ⟨str "action_name", str "name"⟩, ⟨str "permission_name", str "name"⟩]
    structs := [⟨str "permission_level", [], [⟨str "actor", str "account_name"⟩, ⟨str "permission", str "permission_name"⟩]⟩,
      ⟨str "action", [], [⟨str "account", str "account_name"⟩, ⟨str "name", str "action_name"⟩, ⟨str "authorization", str "permission_level[]"⟩, ⟨str "data", str "bytes"⟩]⟩,
      ⟨str "extension", [], [⟨str "type", str "uint16"⟩, ⟨str "data", str "bytes"⟩]⟩,
      ⟨str "transaction_header", [], [⟨str "expiration", str "time_point_sec"⟩, ⟨str "ref_block_num", str "uint16"⟩, ⟨str "ref_block_prefix", str "uint32"⟩,
        ⟨str "max_net_usage_words", str "varuint32"⟩, ⟨str "max_cpu_usage_ms", str "uint8"⟩, ⟨str "delay_sec", str "varuint32"⟩]⟩,
      ⟨str "transaction", str "transaction_header", [⟨str "context_free_actions", str "action[]"⟩, ⟨str "actions", str "action[]"⟩,
        ⟨str "transaction_extensions", str "extension[]"⟩]⟩]
    actions := []
    tables := []
    clauses := []
    errors := []
    extensions := []
    variants := [] }

/-- the C++ type -/
def transactionTy : CTy := .struct (str "transaction")

/-- the types used, each with the text of the type in the ABI that is like it -/
def twins : List (Bytes × CTy) := [(str "transaction", transactionTy), (str "time_point_sec", .leaf .time_point_sec), (str "uint16", .leaf .uint16),
  (str "uint32", .leaf .uint32), (str "varuint32", .leaf .varuint32), (str "uint8", .leaf .uint8), (str "action[]", .vec (.struct (str "action"))),
  (str "action", .struct (str "action")), (str "name", .leaf .name), (str "permission_level[]", .vec (.struct (str "permission_level"))),
  (str "permission_level", .struct (str "permission_level")), (str "bytes", .leaf .bytes), (str "extension[]", .vec (.struct (str "extension"))),
  (str "extension", .struct (str "extension"))]

open Ship

theorem checks : (LoaderExample.isOk (LoaderExample.load transactionAbi) && plainB prog (twins.map (·.2)) &&
    foundB (str "transaction") (lookupType (str "transaction") (LoaderExample.tableOf (LoaderExample.load transactionAbi))).1 &&
    (twins.all fun x => madeLikeB prog twins ((LoaderExample.tableOf (LoaderExample.load transactionAbi)).get x.1) x.2) &&
    (twins.map (·.2)).all fun t => !numbersB t && altsB t) = true := by decide +kernel

theorem loaded_of {D : AbiDef} (h : LoaderExample.isOk (LoaderExample.load D) = true) : LoadedThen D (LoaderExample.tableOf (LoaderExample.load D)) :=
  ⟨_, [], LoaderExample.load_ok h, rfl⟩

theorem like_of {D : AbiDef} {n : Bytes} {t : CTy} {l : List (Bytes × CTy)} (h : LoaderExample.isOk (LoaderExample.load D) = true)
    (h1 : foundB n (lookupType n (LoaderExample.tableOf (LoaderExample.load D))).1 = true) (h2 : (n, t) ∈ l)
    (h3 : (l.all fun x => madeLikeB prog l ((LoaderExample.tableOf (LoaderExample.load D)).get x.1) x.2) = true) : LikeCpp D prog n t :=
  likeCpp_of_check (loaded_of h) (foundB_iff.1 h1) h2 h3

theorem facts : Usable transactionAbi ∧ LikeCpp transactionAbi prog (str "transaction") transactionTy ∧ PlainType prog transactionTy ∧ NoNumberVectors prog transactionTy := by
  have h := checks
  simp only [Bool.and_eq_true] at h
  obtain ⟨⟨⟨⟨h1, h2⟩, h3⟩, h4⟩, h5⟩ := h
  have hv : transactionAbi.version = str "eosio::abi/1." ++ [48] := by decide +kernel
  have ht : transactionTy ∈ twins.map (·.2) := by unfold twins; exact List.mem_cons_self
  have hl : (str "transaction", transactionTy) ∈ twins := by unfold twins; exact List.mem_cons_self
  refine ⟨?_, like_of h1 h3 hl h4, plainType_of_check h2 ht, fun k hk => ?_⟩
  · revert h1 hv
    generalize transactionAbi = D
    intro h1 hv
    exact ⟨⟨_, hv⟩, _, LoaderExample.load_ok h1⟩
  · have hc : closedB prog (twins.map (·.2)) = true := by
      unfold plainB at h2
      simp only [Bool.and_eq_true] at h2
      exact h2.1.1.1
    have := List.all_eq_true.1 h5 _ (closed_uses hc ht hk)
    simp only [Bool.and_eq_true, numbersB, Bool.not_eq_true'] at this
    rw [← fixedB_iff, this.1]
    simp

theorem storable : Storable transactionAbi := by
  have h : (transactionAbi.structs.all fun t => decide (t.name.length < 2 ^ 32) && decide (t.base.length < 2 ^ 32) && decide (t.fields.length < 2 ^ 32) &&
      t.fields.all fun f => decide (f.name.length < 2 ^ 32) && decide (f.type.length < 2 ^ 32)) = true := by decide +kernel
  have h' : (transactionAbi.types.all fun t => decide (t.newName.length < 2 ^ 32) && decide (t.type.length < 2 ^ 32)) = true := by decide +kernel
  have hv : transactionAbi.version.length < 2 ^ 32 := by decide +kernel
  have h := List.all_eq_true.1 h
  have h' := List.all_eq_true.1 h'
  simp only [Bool.and_eq_true, decide_eq_true_eq, List.all_eq_true] at h h'
  exact
    { version := hv
      types := ⟨(by decide : 3 < 2 ^ 32), h'⟩
      structs := ⟨(by decide : 5 < 2 ^ 32), fun t ht => ⟨(h t ht).1.1.1, (h t ht).1.1.2, (h t ht).1.2, (h t ht).2⟩⟩
      actions := ⟨(by decide : 0 < 2 ^ 32), by simp [transactionAbi]⟩
      tables := ⟨(by decide : 0 < 2 ^ 32), by simp [transactionAbi]⟩
      clauses := ⟨(by decide : 0 < 2 ^ 32), by simp [transactionAbi]⟩
      errors := ⟨(by decide : 0 < 2 ^ 32), by simp [transactionAbi]⟩
      extensions := ⟨(by decide : 0 < 2 ^ 32), by simp [transactionAbi]⟩
      variants := ⟨(by decide : 0 < 2 ^ 32), by simp [transactionAbi]⟩ }

/-- `eosio.token::transfer` with the data `AB CD`, authorized by `alice@active` -/
def transfer : SVal := .struct [.leaf [0x00, 0xa6, 0x82, 0x34, 0x03, 0xea, 0x30, 0x55], .leaf [0x00, 0x00, 0x00, 0x57, 0x2d, 0x3c, 0xcd, 0xcd],
  .vec [.struct [.leaf [0x00, 0x00, 0x00, 0x00, 0x00, 0x85, 0x5c, 0x34], .leaf [0x00, 0x00, 0x00, 0x00, 0xa8, 0xed, 0x32, 0x32]]], .leaf [2, 0xab, 0xcd]]

/-- a transaction with that action -/
def sent : SVal := .struct [.leaf [0x80, 0x51, 0x01, 0x00], .leaf [2, 0], .leaf [3, 0, 0, 0], .leaf [4], .leaf [5], .leaf [6], .vec [], .vec [transfer], .vec []]

def sentBytes : Bytes := [0x80, 0x51, 0x01, 0x00, 2, 0, 3, 0, 0, 0, 4, 5, 6, 0, 1, 0x00, 0xa6, 0x82, 0x34, 0x03, 0xea, 0x30, 0x55, 0x00, 0x00, 0x00, 0x57, 0x2d, 0x3c, 0xcd, 0xcd,
  1, 0x00, 0x00, 0x00, 0x00, 0x00, 0x85, 0x5c, 0x34, 0x00, 0x00, 0x00, 0x00, 0xa8, 0xed, 0x32, 0x32, 2, 0xab, 0xcd, 0]

def sentText : Bytes := str "{\"expiration\":\"1970-01-02T00:00:00.000\",\"ref_block_num\":2,\"ref_block_prefix\":3,\"max_net_usage_words\":4,\"max_cpu_usage_ms\":5,\"delay_sec\":6,\"context_free_actions\":[],\"actions\":[{\"account\":\"eosio.token\",\"name\":\"transfer\",\"authorization\":[{\"actor\":\"alice\",\"permission\":\"active\"}],\"data\":\"ABCD\"}],\"transaction_extensions\":[]}"

theorem sent_json : convertToJson prog transactionTy sent = .ok sentText := by decide +kernel

theorem sent_depth : (match treeOf prog transactionTy sent with | .ok z => decide (z.depth ≤ 128) | .error _ => false) = true := by decide +kernel

theorem sent_read : FromBin prog transactionTy sentBytes sent [] := ⟨64, by with_unfolding_all rfl⟩

/-- The hypotheses are met: the ABI of test.cpp was loaded for contract 7; the bytes of the transaction are shown as C++ shows it. -/
example : ∃ (b : Bytes) (c : Ctx), Calls (libEnv F) (some Ctx.init) [(.setAbiBin 7 (some b), .bool true)] (some c) ∧ ∀ (c' : Option Ctx) (r : Ret),
    Step (libEnv F) (some c) (.binToJson 7 (some (str "transaction")) (some sentBytes)) (.done c' r) → r = .str (some sentText) := by
  obtain ⟨hu, hl, hp, hn⟩ := facts
  obtain ⟨b, c, hc, hf⟩ := loads_bin (env := libEnv F) hu storable 7
  refine ⟨b, c, hc, fun c' r hs => ?_⟩
  have e : cstr (some (str "transaction")) = str "transaction" := by decide +kernel
  refine (c80_reads hc hf (by rw [e]; exact hl) hp hn (by decide +kernel) hs sentText).2 ⟨sent, sent_read, sent_json, ?_, fun x hx => ?_⟩
  · simp [sent, transfer, Short, ShortAll]
  · have := sent_depth
    rw [shows_treeOf hx] at this
    simpa using this

end StaticAbiExample
end Abieos
