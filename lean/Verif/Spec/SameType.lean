import Verif.Spec.CApi
/-!
Types with the same structure: only the names of types, which are nowhere in the data, differ.
-/
namespace Abieos.Spec

/-- The same member names in the same order, with corresponding types. -/
inductive SameFields (R : Bytes → Bytes → Prop) : List Field → List Field → Prop
  | nil : SameFields R [] []
  | cons {f g : Field} {fs gs : List Field} : f.name = g.name → R f.type g.type → SameFields R fs gs → SameFields R (f :: fs) (g :: gs)

/-- Built the same way: the same builtin type, optionals (extensions, arrays) of corresponding types, structs with the same members or variants with
the same alternatives, of corresponding types. -/
inductive SameBuild (R : Bytes → Bytes → Prop) : TData → TData → Prop
  | builtin {b : Builtin} : SameBuild R (.builtin b) (.builtin b)
  | optional {p q : Bytes} : R p q → SameBuild R (.optional p) (.optional q)
  | extension {p q : Bytes} : R p q → SameBuild R (.extension p) (.extension q)
  | array {p q : Bytes} : R p q → SameBuild R (.array p) (.array q)
  | struct {fs gs : List Field} : SameFields R fs gs → SameBuild R (.struct fs) (.struct gs)
  | variant {fs gs : List Field} : SameFields R fs gs → SameBuild R (.variant fs) (.variant gs)

/-- The text `type` in the definition `D` and the text `type'` in the definition `D'` denote types of the same structure: types can be made to
correspond, these two among them, such that corresponding types are built the same way. (Types may use themselves.) -/
def SameType (D D' : AbiDef) (type type' : Bytes) : Prop :=
  ∃ R : Bytes → Bytes → Prop, (∃ p q, Denotes D type p ∧ Denotes D' type' q ∧ R p q) ∧
    ∀ p q, R p q → ∃ d e, Meaning D p d ∧ Meaning D' q e ∧ SameBuild R d e

/-- The same conversion, asked for the type `type` of the contract `k` and for the type `type'` of the contract `k'`. -/
inductive SameCall (k k' : Nat) (type type' : Option Bytes) : Call → Call → Prop
  | jsonToBin {text : Option Bytes} : SameCall k k' type type' (.jsonToBin k type text) (.jsonToBin k' type' text)
  | jsonToBinReorderable {text : Option Bytes} : SameCall k k' type type' (.jsonToBinReorderable k type text) (.jsonToBinReorderable k' type' text)
  | binToJson {data : Option Bytes} : SameCall k k' type type' (.binToJson k type data) (.binToJson k' type' data)
  | hexToJson {hex : Option Bytes} : SameCall k k' type type' (.hexToJson k type hex) (.hexToJson k' type' hex)

/-- The contexts have the same error, and (if `bin` says so) the same bytes to be fetched. -/
def SameResults (env : Env) (bin : Bool) (c c' : Ctx) : Prop :=
  (∀ w, Step env (some c) .getError (.done (some c) (.str (some w))) ↔ Step env (some c') .getError (.done (some c') (.str (some w)))) ∧
  (bin = true → ∀ b, Step env (some c) .getBinData (.done (some c) (.data (some b))) ↔ Step env (some c') .getBinData (.done (some c') (.data (some b))))

end Abieos.Spec
