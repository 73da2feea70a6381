import Verif.Model.StaticJson
import Verif.Spec.JsonGrammar
import Verif.Spec.Lossless
import Verif.Spec.Doc
import Verif.Spec.JsonText
/-!
The JSON of a C++ value: as a tree, and the two ways to write a tree down.
-/
namespace Abieos.Spec

/-- A JSON value whose scalars and names are texts already. -/
inductive Tree
  | atom (t : List UInt8)
  | arr (l : List Tree)
  | obj (l : List (List UInt8 × Tree))

/-- Texts with a separator between each two. -/
def joinWith (sep : List UInt8) : List (List UInt8) → List UInt8
  | [] => []
  | [t] => t
  | t :: r => t ++ (sep ++ joinWith sep r)

/-- Without white space: `[a,b]`, `{"k":a,"l":b}`. -/
def compact : Tree → List UInt8
  | .atom t => t
  | .arr l => str "[" ++ (joinWith (str ",") (go l) ++ str "]")
  | .obj l => str "{" ++ (joinWith (str ",") (goM l) ++ str "}")
where
  go : List Tree → List (List UInt8)
    | [] => []
    | x :: l => compact x :: go l
  goM : List (List UInt8 × Tree) → List (List UInt8)
    | [] => []
    | (k, x) :: l => (k ++ (str ":" ++ compact x)) :: goM l

/-- A new line, and four blanks for each level. -/
def line (d : Nat) : List UInt8 := str "\n" ++ List.replicate (4 * d) 32

/-- One element or member per line, four blanks deeper than the brackets; `"k": a`; empty containers on one line. `d` is the level of the
brackets. -/
def indented (d : Nat) : Tree → List UInt8
  | .atom t => t
  | .arr [] => str "[]"
  | .arr (x :: l) => str "[" ++ (line (d + 1) ++ (joinWith (str "," ++ line (d + 1)) (go (d + 1) (x :: l)) ++ (line d ++ str "]")))
  | .obj [] => str "{}"
  | .obj (x :: l) => str "{" ++ (line (d + 1) ++ (joinWith (str "," ++ line (d + 1)) (goM (d + 1) (x :: l)) ++ (line d ++ str "}")))
where
  go (d : Nat) : List Tree → List (List UInt8)
    | [] => []
    | x :: l => indented d x :: go d l
  goM (d : Nat) : List (List UInt8 × Tree) → List (List UInt8)
    | [] => []
    | (k, x) :: l => (k ++ (str ": " ++ indented d x)) :: goM d l

mutual
/-- The document a tree stands for. -/
inductive IsDoc : Tree → JVal → Prop
  | atom {t : List UInt8} {d : JVal} : IsJson t d → IsDoc (.atom t) d
  | arr {x : List Tree} {l : List JVal} : IsDocs x l → IsDoc (.arr x) (.arr l)
  | obj {x : List (List UInt8 × Tree)} {l : List (List UInt8 × JVal)} : IsMembers x l → IsDoc (.obj x) (.obj l)

inductive IsDocs : List Tree → List JVal → Prop
  | nil : IsDocs [] []
  | cons {x : Tree} {d : JVal} {r : List Tree} {l : List JVal} : IsDoc x d → IsDocs r l → IsDocs (x :: r) (d :: l)

inductive IsMembers : List (List UInt8 × Tree) → List (List UInt8 × JVal) → Prop
  | nil : IsMembers [] []
  | cons {k n : List UInt8} {x : Tree} {d : JVal} {r : List (List UInt8 × Tree)} {l : List (List UInt8 × JVal)} :
      StringText k n → IsDoc x d → IsMembers r l → IsMembers ((k, x) :: r) ((n, d) :: l)
end

mutual
/-- The JSON of a value: a builtin value is its text, a vector an array, an optional `null` or its content, a variant an array of the name
of the type held and the value, and a struct an object with a member for each field, in order. -/
inductive Shows (P : Prog) : CTy → SVal → Tree → Prop
  | leaf {k : Builtin} {b t : List UInt8} : builtinFromBin k b = .ok (t, []) → Shows P (.leaf k) (.leaf b) (.atom t)
  | vec {t : CTy} {l : List SVal} {x : List Tree} : ShowsAll P t l x → Shows P (.vec t) (.vec l) (.arr x)
  | absent {t : CTy} : Shows P (.opt t) .absent (.atom (str "null"))
  | present {t : CTy} {v : SVal} {x : Tree} : Shows P t v x → Shows P (.opt t) (.present v) x
  | alt {ts : List CTy} {i : Nat} {t : CTy} {v : SVal} {x : Tree} : ts[i]? = some t → Shows P t v x →
      Shows P (.variant ts) (.alt i v) (.arr [.atom (jsonString t.name), x])
  | struct {n : List UInt8} {l : List SVal} {x : List (List UInt8 × Tree)} : ShowsFields P (P.fields n) l x → Shows P (.struct n) (.struct l) (.obj x)

inductive ShowsAll (P : Prog) : CTy → List SVal → List Tree → Prop
  | nil {t : CTy} : ShowsAll P t [] []
  | cons {t : CTy} {v : SVal} {l : List SVal} {x : Tree} {r : List Tree} : Shows P t v x → ShowsAll P t l r → ShowsAll P t (v :: l) (x :: r)

inductive ShowsFields (P : Prog) : List (List UInt8 × CTy) → List SVal → List (List UInt8 × Tree) → Prop
  | nil : ShowsFields P [] [] []
  | cons {n : List UInt8} {t : CTy} {fs : List (List UInt8 × CTy)} {v : SVal} {l : List SVal} {x : Tree} {r : List (List UInt8 × Tree)} :
      Shows P t v x → ShowsFields P fs l r → ShowsFields P ((n, t) :: fs) (v :: l) ((jsonString n, x) :: r)
end

/-- No earlier field has this name. -/
def FirstField (fs : List (List UInt8 × CTy)) (i : Nat) (m : List UInt8) : Prop := ∀ j u, j < i → fs[j]? = some (m, u) → False

/-- No earlier alternative has this name. -/
def FirstAlt (ts : List CTy) (i : Nat) (m : List UInt8) : Prop := ∀ j u, j < i → ts[j]? = some u → u.name ≠ m

mutual
/-- `Given P F t d v`: the document `d`, read as a value of type `t`, is `v`. A member of an object is the value of the first field with its
name; other members do not matter, and a field without a member is left as it is. -/
inductive Given (P : Prog) (F : Floats) : CTy → JVal → SVal → Prop
  | bool {k : Builtin} {x : Bool} {b : List UInt8} : builtinToBin F k (.bool x) = .ok b → Given P F (.leaf k) (.bool x) (.leaf b)
  | str {k : Builtin} {s b : List UInt8} : builtinToBin F k (.str s) = .ok b → Given P F (.leaf k) (.str s) (.leaf b)
  | vec {t : CTy} {l : List JVal} {vs : List SVal} : GivenAll P F t l vs → Given P F (.vec t) (.arr l) (.vec vs)
  | absent {t : CTy} : Given P F (.opt t) .null .absent
  | present {t : CTy} {d : JVal} {v : SVal} : d ≠ .null → Given P F t d v → Given P F (.opt t) d (.present v)
  | alt {ts : List CTy} {i : Nat} {t : CTy} {d : JVal} {v : SVal} : ts[i]? = some t → FirstAlt ts i t.name → Given P F t d v →
      Given P F (.variant ts) (.arr [.str t.name, d]) (.alt i v)
  | struct {n : List UInt8} {l : List (List UInt8 × JVal)} {vs : List SVal} : vs.length = (P.fields n).length →
      (∀ i m t v d, (P.fields n)[i]? = some (m, t) → vs[i]? = some v → FirstField (P.fields n) i m → (m, d) ∈ l → Given P F t d v) →
      (∀ i m t v, (P.fields n)[i]? = some (m, t) → vs[i]? = some v → ¬ FirstField (P.fields n) i m ∨ m ∉ l.map Prod.fst → v = .unset) →
      Given P F (.struct n) (.obj l) (.struct vs)
  | ext {t : CTy} {d : JVal} {v : SVal} : Given P F t d v → Given P F (.ext t) d v

inductive GivenAll (P : Prog) (F : Floats) : CTy → List JVal → List SVal → Prop
  | nil {t : CTy} : GivenAll P F t [] []
  | cons {t : CTy} {d : JVal} {l : List JVal} {v : SVal} {vs : List SVal} : Given P F t d v → GivenAll P F t l vs → GivenAll P F t (d :: l) (v :: vs)
end

/-- Values that JSON can carry. A builtin value must be one that some (UTF-8) scalar stands for, without loss (`Lossless`: no fractions of
milliseconds, and so on); an optional of an optional must not be present but empty inside; the type held by a variant must have another name
than those before it; and the fields of a struct must have different names. Names are UTF-8. -/
inductive Carried (P : Prog) (F : Floats) : CTy → SVal → Prop
  | bool {k : Builtin} {x : Bool} {b : List UInt8} : builtinToBin F k (.bool x) = .ok b → Carried P F (.leaf k) (.leaf b)
  | str {k : Builtin} {s b : List UInt8} : IsUtf8Text s → builtinToBin F k (.str s) = .ok b → Lossless F k b → Carried P F (.leaf k) (.leaf b)
  | vec {t : CTy} {l : List SVal} : (∀ v ∈ l, Carried P F t v) → Carried P F (.vec t) (.vec l)
  | absent {t : CTy} : Carried P F (.opt t) .absent
  | present {t : CTy} {v : SVal} : v ≠ .absent → (∀ w, v ≠ .present w) → Carried P F t v → Carried P F (.opt t) (.present v)
  | alt {ts : List CTy} {i : Nat} {t : CTy} {v : SVal} : ts[i]? = some t → FirstAlt ts i t.name → IsUtf8Text t.name → Carried P F t v →
      Carried P F (.variant ts) (.alt i v)
  | struct {n : List UInt8} {l : List SVal} : l.length = (P.fields n).length → ((P.fields n).map Prod.fst).Nodup → (∀ f ∈ P.fields n, IsUtf8Text f.1) →
      (∀ (i : Nat) (m : List UInt8) (t : CTy) (v : SVal), (P.fields n)[i]? = some (m, t) → l[i]? = some v → Carried P F t v) → Carried P F (.struct n) (.struct l)

end Abieos.Spec
