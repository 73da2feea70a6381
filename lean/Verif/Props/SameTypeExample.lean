import Verif.Props.SameType
import Verif.Props.LoaderExample
/-!
C78, concretely; and how to find out by running that types have the same structure.
-/
namespace Abieos
open Spec

/-- `SameFields`, for the pairs in the list -/
def sameFieldsB (l : List (Bytes × Bytes)) : List Field → List Field → Bool
  | [], [] => true
  | f :: fs, g :: gs => f.name == g.name && l.contains (f.type, g.type) && sameFieldsB l fs gs
  | _, _ => false

/-- `SameBuild`, for the pairs in the list -/
def sameBuildB (l : List (Bytes × Bytes)) : Option TData → Option TData → Bool
  | some (.builtin b), some (.builtin b') => b == b'
  | some (.optional p), some (.optional q) => l.contains (p, q)
  | some (.extension p), some (.extension q) => l.contains (p, q)
  | some (.array p), some (.array q) => l.contains (p, q)
  | some (.struct fs), some (.struct gs) => sameFieldsB l fs gs
  | some (.variant fs), some (.variant gs) => sameFieldsB l fs gs
  | _, _ => false

theorem sameFieldsB_sound {l : List (Bytes × Bytes)} : ∀ {fs gs : List Field}, sameFieldsB l fs gs = true → SameFields (fun p q => (p, q) ∈ l) fs gs
  | [], [], _ => .nil
  | [], _ :: _, h => by cases h
  | _ :: _, [], h => by cases h
  | f :: fs, g :: gs, h => by
    simp only [sameFieldsB, Bool.and_eq_true, beq_iff_eq, List.contains_iff_mem] at h
    exact .cons h.1.1 h.1.2 (sameFieldsB_sound h.2)

theorem sameBuildB_sound {l : List (Bytes × Bytes)} {x y : Option TData} (h : sameBuildB l x y = true) :
    ∃ d e, x = some d ∧ y = some e ∧ SameBuild (fun p q => (p, q) ∈ l) d e := by
  unfold sameBuildB at h
  split at h
  · exact ⟨_, _, rfl, rfl, by rw [beq_iff_eq.1 h]; exact .builtin⟩
  · exact ⟨_, _, rfl, rfl, .optional (List.contains_iff_mem.1 h)⟩
  · exact ⟨_, _, rfl, rfl, .extension (List.contains_iff_mem.1 h)⟩
  · exact ⟨_, _, rfl, rfl, .array (List.contains_iff_mem.1 h)⟩
  · exact ⟨_, _, rfl, rfl, .struct (sameFieldsB_sound h)⟩
  · exact ⟨_, _, rfl, rfl, .variant (sameFieldsB_sound h)⟩
  · cases h

theorem matches_of_check {T T' : Table} {l : List (Bytes × Bytes)} (h : (l.all fun x => sameBuildB l (T.get x.1) (T'.get x.2)) = true) :
    Matches T T' fun p q => (p, q) ∈ l := by
  intro p q hp
  have := List.all_eq_true.1 h _ hp
  exact sameBuildB_sound this

theorem sameType_of_check {D D' : AbiDef} {T T' : Table} (h : LoadedThen D T) (h' : LoadedThen D' T') {a b : Bytes} {p q : Ptr} (ha : (lookupType a T).1 = .ok p)
    (hb : (lookupType b T').1 = .ok q) {l : List (Bytes × Bytes)} (hpq : (p, q) ∈ l) (hl : (l.all fun x => sameBuildB l (T.get x.1) (T'.get x.2)) = true) :
    SameType D D' a b := by
  refine ⟨fun p q => (p, q) ∈ l, ⟨p, q, (c26_lookup h a p).1 ha, (c26_lookup h' b q).1 hb, hpq⟩, fun x y hx => ?_⟩
  obtain ⟨d, e, e1, e2, e3⟩ := matches_of_check hl x y hx
  exact ⟨d, e, (c26_resolved h).2 _ _ e1, (c26_resolved h').2 _ _ e2, e3⟩

namespace SameTypeExample
open LoaderExample

/-- A tree, with a payment or nothing at each node. -/
def english : AbiDef :=
  { version := str "eosio::abi/1.1"
    types := []
    structs := [⟨str "tree", [], [⟨str "value", str "payment?"⟩, ⟨str "children", str "tree[]"⟩]⟩, ⟨str "payment", [], [⟨str "to", str "name"⟩, ⟨str "amount", str "asset"⟩]⟩]
    actions := [], tables := [], clauses := [], errors := [], extensions := [], variants := [] }

/-- The same with other names, a typedef and a base struct. -/
def german : AbiDef :=
  { version := str "eosio::abi/1.2"
    types := [⟨str "konto", str "name"⟩, ⟨str "wald", str "baum[]"⟩]
    structs := [⟨str "empfang", [], [⟨str "to", str "konto"⟩]⟩, ⟨str "zahlung", str "empfang", [⟨str "amount", str "asset"⟩]⟩,
      ⟨str "baum", [], [⟨str "value", str "zahlung?"⟩, ⟨str "children", str "wald"⟩]⟩]
    actions := [], tables := [], clauses := [], errors := [], extensions := [], variants := [] }

theorem english_loads : LoadTypes english (.ok (tableOf (load english))) := load_ok (by decide +kernel)
theorem german_loads : LoadTypes german (.ok (tableOf (load german))) := load_ok (by decide +kernel)

def pairs : List (Bytes × Bytes) := [(str "tree", str "baum"), (str "payment?", str "zahlung?"), (str "tree[]", str "baum[]"), (str "payment", str "zahlung"),
  (str "name", str "name"), (str "asset", str "asset")]

/-- A list of trees is a `wald`. -/
theorem trees_same : SameType english german (str "tree[]") (str "wald") :=
  sameType_of_check (l := pairs) ⟨_, [], english_loads, rfl⟩ ⟨_, [], german_loads, rfl⟩ (p := str "tree[]") (q := str "baum[]") (by decide +kernel)
    (by decide +kernel) (by decide +kernel) (by decide +kernel)

/-- In contexts that have these definitions, the conversions of the two agree. -/
example {env : Env} {h h' : List (Call × Ret)} {c c' : Ctx} (hc : Calls env (some Ctx.init) h (some c)) (hc' : Calls env (some Ctx.init) h' (some c'))
    {k k' : Nat} {l l' : Call} (hf : FirstLoad env h k l english) (hf' : FirstLoad env h' k' l' german) {text : Bytes} {x : Ctx}
    (ho : Step env (some c) (.jsonToBin k (some (str "tree[]")) (some text)) (.done (some x) (.bool true))) :
    ∃ x', Step env (some c') (.jsonToBin k' (some (str "wald")) (some text)) (.done (some x') (.bool true)) ∧ SameResults env true x x' := by
  obtain ⟨o', h1, h2⟩ := c78_same hc hc' hf hf' (type := some (str "tree[]")) (type' := some (str "wald")) (by
    have e1 : cstr (some (str "tree[]")) = str "tree[]" := by decide
    have e2 : cstr (some (str "wald")) = str "wald" := by decide
    rw [e1, e2]; exact trees_same) (.jsonToBin (text := some text)) ho
  rcases h2 with ⟨h2, -⟩ | ⟨y, x', r, h2, rfl, h3⟩
  · cases h2
  · cases h2
    exact ⟨x', h1, h3⟩

end SameTypeExample
end Abieos
