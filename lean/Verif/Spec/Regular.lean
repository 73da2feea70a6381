import Verif.Spec.Layout
/-
Conditions on a loaded ABI that the loader does not enforce but the theorems about conversions need.
-/
namespace Abieos.Spec

/-- In every struct, binary extensions come last: a field after an extension is an extension. -/
def ExtLast (T : Table) (fs : List Field) : Prop :=
  ∀ pre f post, fs = pre ++ f :: post → IsExt T f.type → ∀ g ∈ post, IsExt T g.type

/-- Every struct of the table has its extensions last. -/
def ExtTail (T : Table) : Prop := ∀ k fs, T.get k = some (.struct fs) → ExtLast T fs

/-- No struct has 2^31 fields or more. -/
def Small (T : Table) : Prop := ∀ k fs, T.get k = some (.struct fs) → fs.length < 2147483648

/-- The field names of each struct are distinct. -/
def DistinctFields (T : Table) : Prop := ∀ k fs, T.get k = some (.struct fs) → (fs.map (·.name)).Nodup

/-- Field and alternative names are valid UTF-8. -/
def Utf8Names (T : Table) : Prop :=
  (∀ k fs, T.get k = some (.struct fs) → ∀ f ∈ fs, Utf8 f.name) ∧
  (∀ k fs, T.get k = some (.variant fs) → ∀ f ∈ fs, Utf8 f.name)

/-- Alternatives with the same name have the same type, and there are fewer than 2^32 alternatives. (The name of an
alternative is its type text, so every loaded ABI has the first property: `Props/Loader.lean`.) -/
def AltsByName (T : Table) : Prop :=
  ∀ k fs, T.get k = some (.variant fs) → fs.length < 4294967296 ∧ ∀ f ∈ fs, ∀ g ∈ fs, f.name = g.name → f.type = g.type

/-- All of the above. -/
structure Regular (T : Table) : Prop where
  extTail : ExtTail T
  small : Small T
  distinct : DistinctFields T
  utf8 : Utf8Names T
  alts : AltsByName T

/-- All string values of a document are valid UTF-8 (what a JSON reader guarantees). -/
def DocUtf8 : JVal → Prop
  | .str s => Utf8 s
  | .arr l => go l
  | .obj l => goM l
  | _ => True
where
  go : List JVal → Prop
    | [] => True
    | v :: l => DocUtf8 v ∧ go l
  goM : List (Bytes × JVal) → Prop
    | [] => True
    | (_, v) :: l => DocUtf8 v ∧ goM l

/-- A scalar that is no ill-formed string. -/
def ScalarUtf8 : Scalar → Prop
  | .str s => Utf8 s
  | .bool _ => True

end Abieos.Spec
