import Verif.Spec.Encoding
/-
Where a value occurs inside a document, and whether anything of the encoding can follow it.
-/
namespace Abieos.Spec

/-- `Occurs T a ty v a' ty' v'`: the document `v`, read as a value of type `ty`, contains the value `v'`, read as a value
of type `ty'`. If `a` says that `v` is at the end of the encoding then `a'` says whether `v'` is: the value of the last
field of a struct, of an optional, an extension or a variant is, array elements and other fields are not. -/
inductive Occurs (T : Table) : Bool → Ptr → JVal → Bool → Ptr → JVal → Prop
  | here (a : Bool) (ty : Ptr) (v : JVal) : Occurs T a ty v a ty v
  | optional {a a' : Bool} {ty ty' p : Ptr} {v v' : JVal} : T.get ty = some (.optional p) → v ≠ .null →
      Occurs T a p v a' ty' v' → Occurs T a ty v a' ty' v'
  | extension {a a' : Bool} {ty ty' p : Ptr} {v v' : JVal} : T.get ty = some (.extension p) →
      Occurs T a p v a' ty' v' → Occurs T a ty v a' ty' v'
  | field {a a' : Bool} {ty ty' : Ptr} {v' x : JVal} {ms : List (Bytes × JVal)} {pre post : List Field} {f : Field} :
      T.get ty = some (.struct (pre ++ f :: post)) → lastValue f.name ms = some x →
      Occurs T (a && post.isEmpty) f.type x a' ty' v' → Occurs T a ty (.obj ms) a' ty' v'
  | elem {a a' : Bool} {ty ty' p : Ptr} {v' x : JVal} {l : List JVal} : T.get ty = some (.array p) → x ∈ l →
      Occurs T false p x a' ty' v' → Occurs T a ty (.arr l) a' ty' v'
  | alt {a a' : Bool} {ty ty' : Ptr} {v' x : JVal} {alts : List Field} {name : Bytes} {i : Nat} {f : Field} :
      T.get ty = some (.variant alts) → findAlt name alts 0 = some (i, f) →
      Occurs T a f.type x a' ty' v' → Occurs T a ty (.arr [.str name, x]) a' ty' v'

/-- No object of the document lacks a field of its struct. -/
def Complete (T : Table) (ty : Ptr) (v : JVal) : Prop :=
  ∀ a ty' ms fs, Occurs T true ty v a ty' (.obj ms) → T.get ty' = some (.struct fs) →
    ∀ f ∈ fs, lastValue f.name ms ≠ none

/-- `T'` is `T` with each extension type `X$` replaced by the ordinary type `X`. -/
def Ordinary (T T' : Table) : Prop :=
  ∀ ty, T'.get ty = match T.get ty with
    | some (.extension p) => T.get p
    | d => d

end Abieos.Spec
