import Verif.Spec.Lossless
import Verif.Proofs.Ref
import Verif.Spec.Regular
import Verif.Model.Ordered
import Verif.Model.Reorder
import Verif.Model.Decode
/-!
# Records written one after another (for C83)
-/
namespace Abieos.Spec

/-- `b` is what `json_to_bin` (of a document nested at most 128 deep) or `json_to_bin_reorderable` makes of some document of UTF-8 texts, whose scalars are
encoded without loss (see C27). -/
def Encoded (T : Table) (F : Floats) (ty : Ptr) (b : Bytes) : Prop :=
  ∃ v, ((JsonToBin T (builtins F) ty v (.ok b) ∧ v.height ≤ maxStack) ∨ JsonToBinReorderable T (builtins F) ty v (.ok b)) ∧ DocUtf8 v ∧ LosslessDoc T F ty v

/-- A program calls `bin_to_json` again and again, on what the last call has left, until it has made as many calls as there are types. -/
inductive ReadAll (T : Table) (F : Floats) : List Ptr → Bytes → List Bytes → Bytes → Prop
  | done (s : Bytes) : ReadAll T F [] s [] s
  | next {ty : Ptr} {tys : List Ptr} {s s' r t : Bytes} {ts : List Bytes} : BinToJson T (builtins F) ty s (.ok (t, s')) → ReadAll T F tys s' ts r →
      ReadAll T F (ty :: tys) s (t :: ts) r

end Abieos.Spec
