import Verif.Model.CApi
/-
Calls with JSON texts that are no documents.
-/
namespace Abieos.Spec

/-- However the call ends, it returns `false` and the error to be fetched is then `w`. -/
def FailsWith (env : Env) (c : Ctx) (q : Call) (w : Bytes) : Prop :=
  ∀ o, Step env (some c) q o → ∃ c', o = .done (some c') (.bool false) ∧ Step env (some c') .getError (.done (some c') (.str (some w)))

/-- The text is one of the JSON reader's messages. -/
def SyntaxMessage (w : Bytes) : Prop := ∃ m ∈ syntaxErrors, w = str m

/-- The document begins with the events the reader reported of `text` before it met the error. -/
def SameBeginning (env : Env) (text : Bytes) (v : JVal) : Prop := env.upTo text <+: v.toks

end Abieos.Spec
