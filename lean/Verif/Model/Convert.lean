import Verif.Model.StaticValue
/-!
`convert` between C++ types (include/eosio/convert.hpp). A structure is converted member by member, by name. Types, structures and values are
those of Model/StaticJson.lean; `.unset` is a default-constructed object. Programs that do not compile have no behaviour; here they give
`.error .ub` when the conversion of the value at hand meets the offending types. The overload for `input_stream` (which copies bytes) is not
modelled.
-/
namespace Abieos

mutual
/-- `std::is_same_v<T, U>` (include/eosio/convert.hpp:60) -/
def CTy.same : CTy → CTy → Bool
  | .leaf a, .leaf b => a == b
  | .struct a, .struct b => a == b
  | .vec t, .vec u => t.same u
  | .opt t, .opt u => t.same u
  | .variant ts, .variant us => CTy.sameAll ts us
  | .ext t, .ext u => t.same u
  | _, _ => false
def CTy.sameAll : List CTy → List CTy → Bool
  | [], [] => true
  | t :: ts, u :: us => t.same u && CTy.sameAll ts us
  | _, _ => false
end

/-- the conversion kinds (include/eosio/convert.hpp:11-26) -/
inductive ConvKind
  | none | strict | narrowing | widening
  deriving DecidableEq, Repr

/-- `::reverse` (include/eosio/convert.hpp:11-26) -/
def ConvKind.reverse : ConvKind → ConvKind
  | .none => .none
  | .strict => .strict
  | .narrowing => .widening
  | .widening => .narrowing

/-- `conversion_kind_t<T, U>` (include/eosio/convert.hpp:34-38); `K a b` is what the program declares for the structures `a` and `b`. -/
def conversionKind (K : Bytes → Bytes → ConvKind) (a b : Bytes) : ConvKind := if K a b = .none then (K b a).reverse else K a b

/-- `choose_first` and `choose_second` (include/eosio/convert.hpp:51-52) -/
inductive Choice
  | first | second
  deriving DecidableEq, Repr

/-- the names of the members of the chosen structure -/
def Choice.names (P : Prog) (a b : Bytes) : Choice → List Bytes
  | .first => (P.fields a).map (·.1)
  | .second => (P.fields b).map (·.1)

/-- the position and type of a member -/
def findMember (n : Bytes) : List (Bytes × CTy) → Nat → Option (Nat × CTy)
  | [], _ => none
  | f :: fs, i => if f.1 = n then some (i, f.2) else findMember n fs (i + 1)

/-- The loop over the members of the chosen structure (include/eosio/convert.hpp:64-65) with `convert_impl`
(include/eosio/convert.hpp:40-50): a member that both have is converted, for another one only narrowing conversions compile. `src` has the
conversions of the source's members, `d` the members of the destination. -/
def convertLoop (k : ConvKind) (src : List (Bytes × (CTy → SVal → Res SVal))) (us : List (Bytes × CTy)) : List Bytes → List SVal → Res (List SVal)
  | [], d => .ok d
  | n :: ns, d =>
    match src.lookup n, findMember n us 0 with
    | some f, some (i, u) => do
      let x ← f u (d.getD i .unset)
      convertLoop k src us ns (d.set i x)
    | _, _ => if k = .strict ∨ k = .widening then .error .ub else convertLoop k src us ns d

/-- The generic `convert` (include/eosio/convert.hpp:57-67). `src` has the conversions of the members if the source is a structure. -/
def convertGeneric (P : Prog) (K : Bytes → Bytes → ConvKind) (c : Choice) (T U : CTy) (v : SVal) (src : List (Bytes × (CTy → SVal → Res SVal))) (d : SVal) :
    Res SVal :=
  if T.same U then .ok v
  else
    match T, U with
    | .struct a, .struct b =>
      if conversionKind K a b = .none then .error .ub
      else do
        let l ← convertLoop (conversionKind K a b) src (P.fields b) (c.names P a b) (d.fields (P.fields b).length)
        .ok (.struct l)
    | _, _ => .error .ub

/-- `dst.resize(n)` (include/eosio/convert.hpp:76) -/
def resize (n : Nat) (l : List SVal) : List SVal := l.take n ++ List.replicate (n - l.length) .unset

mutual
/-- `convert(const T& src, U& dst, chooser)`: `convertV P K c T v U d` is what `dst`, which was `d`, becomes. The overloads for a source that is
a variant (include/eosio/convert.hpp:69-72), for vectors (74-78) and optionals (80-88), and the generic one (57-67). -/
def convertV (P : Prog) (K : Bytes → Bytes → ConvKind) (c : Choice) (T : CTy) (v : SVal) (U : CTy) (d : SVal) : Res SVal :=
  match v with
  | .alt i w =>
    match T with
    | .variant ts =>
      match ts[i]? with
      | none => .error .ub
      | some t => convertV P K c t w U d
    | _ => convertGeneric P K c T U v [] d
  | .vec l =>
    match T, U with
    | .vec t, .vec u => do
      let l ← convertAll P K c t l u (resize l.length d.elems)
      .ok (.vec l)
    | _, _ => convertGeneric P K c T U v [] d
  | .absent =>
    match T, U with
    | .opt _, .opt _ => .ok .absent
    | _, _ => convertGeneric P K c T U v [] d
  | .present w =>
    match T, U with
    | .opt t, .opt u => do
      let x ← convertV P K c t w u .unset
      .ok (.present x)
    | _, _ => convertGeneric P K c T U v [] d
  | .struct l =>
    match T with
    | .struct a => convertGeneric P K c T U v (memberConversions P K c (P.fields a) l) d
    | _ => convertGeneric P K c T U v [] d
  | .leaf _ => convertGeneric P K c T U v [] d
  | .unset => convertGeneric P K c T U v [] d
/-- the elements of a vector, each into the element of the destination at its place (include/eosio/convert.hpp:77) -/
def convertAll (P : Prog) (K : Bytes → Bytes → ConvKind) (c : Choice) (t : CTy) : List SVal → CTy → List SVal → Res (List SVal)
  | v :: l, u, d :: ds => do
    let x ← convertV P K c t v u d
    let xs ← convertAll P K c t l u ds
    .ok (x :: xs)
  | _, _, _ => .ok []
/-- for every member of the source, its conversion -/
def memberConversions (P : Prog) (K : Bytes → Bytes → ConvKind) (c : Choice) : List (Bytes × CTy) → List SVal → List (Bytes × (CTy → SVal → Res SVal))
  | f :: fs, v :: l => (f.1, fun u d => convertV P K c f.2 v u d) :: memberConversions P K c fs l
  | _, _ => []
end

/-- `from_bin` of a structure for which `serialize_as` names another type (include/eosio/from_bin.hpp:244-249): a value `temp` of that type is
read and converted into the object. -/
def ReadAs (P : Prog) (K : Bytes → Bytes → ConvKind) (S T : CTy) (s : Bytes) (obj out : SVal) (rest : Bytes) : Prop :=
  ∃ temp, FromBin P S s temp rest ∧ convertV P K .first S temp T obj = .ok out

end Abieos
