import Verif.Spec.Regular
/-
What `bin_to_json` should produce, as a relation, written without reference to the conversion loop and without a depth
limit.
-/
namespace Abieos.Spec

/-- The texts, separated by commas. -/
def joinComma : List Bytes → Bytes
  | [] => []
  | [t] => t
  | t :: l => t ++ str "," ++ joinComma l

/-- The fields of a struct, read from `bin` up to `rest`: `ms` are the texts of the members, `d` is the depth of the
deepest. The input may end before the last fields if they are extensions and missing extensions are allowed here. -/
def DecFields (T : Table) (D : Bool → Ptr → Bytes → Bytes → Bytes → Nat → Prop) (allow : Bool) :
    List Field → (bin : Bytes) → (ms : List Bytes) → (rest : Bytes) → (d : Nat) → Prop
  | [], bin, ms, rest, d => ms = [] ∧ rest = bin ∧ d = 0
  | f :: fs, bin, ms, rest, d =>
    (allow = true ∧ bin = [] ∧ (∀ g ∈ f :: fs, IsExt T g.type) ∧ ms = [] ∧ rest = [] ∧ d = 0) ∨
    (¬ (allow = true ∧ bin = [] ∧ IsExt T f.type) ∧
      ∃ t mid d1 ms' d2, D (allow && fs.isEmpty) f.type bin t mid d1 ∧ DecFields T D allow fs mid ms' rest d2 ∧
        ms = (jsonString f.name ++ str ":" ++ t) :: ms' ∧ d = max d1 d2)

/-- The elements of an array. -/
def DecElems (D : Bytes → Bytes → Bytes → Nat → Prop) : Nat → (bin : Bytes) → (ts : List Bytes) → (rest : Bytes) → (d : Nat) → Prop
  | 0, bin, ts, rest, d => ts = [] ∧ rest = bin ∧ d = 0
  | k + 1, bin, ts, rest, d =>
    ∃ t mid d1 ts' d2, D bin t mid d1 ∧ DecElems D k mid ts' rest d2 ∧ ts = t :: ts' ∧ d = max d1 d2

/-- `bin` starts with a value of type `ty`; its JSON text is `t`, the input after it is `rest`, and it nests containers
(structs, arrays, variants) `d` deep. `allow` says that extensions may be missing at the end of the input. `n` bounds the
height of the derivation. -/
def Dec (T : Table) (L : Leaves) : Nat → Bool → Ptr → (bin t rest : Bytes) → Nat → Prop
  | 0, _, _, _, _, _, _ => False
  | n + 1, allow, ty, bin, t, rest, d =>
    match T.get ty with
    | some (.builtin k) => L.fromBin k bin = .ok (t, rest) ∧ d = 0
    | some (.optional p) =>
      (bin = 0 :: rest ∧ t = str "null" ∧ d = 0) ∨ (∃ c bin', bin = c :: bin' ∧ c ≠ 0 ∧ Dec T L n allow p bin' t rest d)
    | some (.extension p) => Dec T L n allow p bin t rest d
    | some (.struct fs) =>
      ∃ ms d', DecFields T (Dec T L n) allow fs bin ms rest d' ∧ t = str "{" ++ joinComma ms ++ str "}" ∧ d = d' + 1
    | some (.array p) =>
      ∃ c mid ts d', varuint32FromBin bin = .ok (c, mid) ∧ c < 2147483648 ∧ DecElems (Dec T L n false p) c mid ts rest d' ∧
        t = str "[" ++ joinComma ts ++ str "]" ∧ d = d' + 1
    | some (.variant alts) =>
      ∃ i mid f t' d', varuint32FromBin bin = .ok (i, mid) ∧ alts[i]? = some f ∧ Dec T L n allow f.type mid t' rest d' ∧
        t = str "[" ++ jsonString f.name ++ str "," ++ t' ++ str "]" ∧ d = d' + 1
    | _ => False

/-- `bin` starts with a value of type `ty` with JSON text `t`, followed by `rest`, and nests containers `d` deep. -/
def Decodes (T : Table) (L : Leaves) (ty : Ptr) (bin t rest : Bytes) (d : Nat) : Prop := ∃ n, Dec T L n true ty bin t rest d

end Abieos.Spec
