import Verif.Model.Convert
/-!
What a conversion between C++ types has to preserve, stated without the code that converts.
-/
namespace Abieos.Spec

mutual
/-- `v` is a value of type `t`. -/
inductive Value (P : Prog) : CTy → SVal → Prop
  | leaf {k : Builtin} {b : List UInt8} : Value P (.leaf k) (.leaf b)
  | vec {t : CTy} {l : List SVal} : (∀ v ∈ l, Value P t v) → Value P (.vec t) (.vec l)
  | absent {t : CTy} : Value P (.opt t) .absent
  | present {t : CTy} {v : SVal} : Value P t v → Value P (.opt t) (.present v)
  | alt {ts : List CTy} {i : Nat} {t : CTy} {v : SVal} : ts[i]? = some t → Value P t v → Value P (.variant ts) (.alt i v)
  | struct {n : List UInt8} {l : List SVal} : Values P (P.fields n) l → Value P (.struct n) (.struct l)
  | unset {t : CTy} : Value P (.ext t) .unset
  | ext {t : CTy} {v : SVal} : Value P t v → Value P (.ext t) v
inductive Values (P : Prog) : List (List UInt8 × CTy) → List SVal → Prop
  | nil : Values P [] []
  | cons {f : List UInt8 × CTy} {fs : List (List UInt8 × CTy)} {v : SVal} {l : List SVal} : Value P f.2 v → Values P fs l → Values P (f :: fs) (v :: l)
end

mutual
/-- `v` is what an object of type `t` may hold: a value, or the default value, or a structure of such members. -/
inductive Object (P : Prog) : CTy → SVal → Prop
  | unset {t : CTy} : Object P t .unset
  | leaf {k : Builtin} {b : List UInt8} : Object P (.leaf k) (.leaf b)
  | vec {t : CTy} {l : List SVal} : (∀ v ∈ l, Object P t v) → Object P (.vec t) (.vec l)
  | absent {t : CTy} : Object P (.opt t) .absent
  | present {t : CTy} {v : SVal} : Object P t v → Object P (.opt t) (.present v)
  | alt {ts : List CTy} {i : Nat} {t : CTy} {v : SVal} : ts[i]? = some t → Object P t v → Object P (.variant ts) (.alt i v)
  | struct {n : List UInt8} {l : List SVal} : Objects P (P.fields n) l → Object P (.struct n) (.struct l)
  | ext {t : CTy} {v : SVal} : Object P t v → Object P (.ext t) v
inductive Objects (P : Prog) : List (List UInt8 × CTy) → List SVal → Prop
  | nil : Objects P [] []
  | cons {f : List UInt8 × CTy} {fs : List (List UInt8 × CTy)} {v : SVal} {l : List SVal} : Object P f.2 v → Objects P fs l → Objects P (f :: fs) (v :: l)
end

/-- Types that can be converted to themselves: not variants, nor vectors or optionals of variants. -/
def Copyable : CTy → Prop
  | .variant _ => False
  | .vec t => Copyable t
  | .opt t => Copyable t
  | _ => True

/-- The program declares a conversion between the structures, in one direction or the other. -/
def Declared (K : List UInt8 → List UInt8 → ConvKind) (a b : List UInt8) : Prop := K a b ≠ .none ∨ K b a ≠ .none

/-- The declared conversion from the first to the second may discard members. -/
def MayDiscard (K : List UInt8 → List UInt8 → ConvKind) (a b : List UInt8) : Prop := K a b = .narrowing ∨ K a b = .none ∧ K b a = .widening

/-- `n` is the name of a member. -/
def HasMember (P : Prog) (a n : List UInt8) : Prop := ∃ t, (n, t) ∈ P.fields a

/-- The members of a structure have different names. -/
def DistinctMembers (P : Prog) (a : List UInt8) : Prop := ((P.fields a).map (·.1)).Nodup

/-- `R T U`, for all the types it relates, says that `U` has everything `T` has: they are the same type, or vectors or optionals of such
types, or structures between which a conversion is declared, each member of the first being a member of the second, of such a type.
(The types may be recursive.) -/
def Covers (P : Prog) (K : List UInt8 → List UInt8 → ConvKind) (R : CTy → CTy → Prop) : Prop := ∀ T U, R T U →
  (T = U ∧ Copyable T) ∨
  (∃ t u, T = .vec t ∧ U = .vec u ∧ R t u) ∨
  (∃ t u, T = .opt t ∧ U = .opt u ∧ R t u) ∨
  ∃ a b, T = .struct a ∧ U = .struct b ∧ a ≠ b ∧ Declared K a b ∧ DistinctMembers P a ∧ DistinctMembers P b ∧
    ∀ n t, (n, t) ∈ P.fields a → ∃ u, (n, u) ∈ P.fields b ∧ R t u

end Abieos.Spec
