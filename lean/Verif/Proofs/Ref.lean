import Verif.Model.Reorder
import Verif.Model.Ordered
import Verif.Model.Decode
/-
Recursive counterparts of the three conversion loops. They are proof devices: `Proofs/Refine*.lean` shows that the loops
compute them.
-/
namespace Abieos

/-- Nesting depth of a document: 0 for scalars. -/
def JVal.height : JVal → Nat
  | .arr l => go l + 1
  | .obj l => goM l + 1
  | _ => 0
where
  go : List JVal → Nat
    | [] => 0
    | v :: l => max v.height (go l)
  goM : List (Bytes × JVal) → Nat
    | [] => 0
    | (_, v) :: l => max v.height (goM l)

/-- fields of the reorderable conversion -/
def encRFields (T : Table) (E : Bool → Ptr → JVal → Res (Bytes × Bool)) (allow : Bool) (ms : List (Bytes × JVal)) :
    List Field → Bool → Int → Res (Bytes × Bool)
  | [], sk, pos => do
    let _ ← incInt pos
    .ok ([], sk)
  | f :: fs, sk, pos => do
    let pos ← incInt pos
    match ms.lookup f.name with
    | none =>
      match T.get f.type with
      | none => .error .ub
      | some d => if d.isExt && allow then encRFields T E allow ms fs true pos else .error .expected_field
    | some v =>
      if sk then .error .unexpected_field
      else do
        let r ← E (allow && fs.isEmpty) f.type v
        let r' ← encRFields T E allow ms fs r.2 pos
        .ok (r.1 ++ r'.1, r'.2)

/-- elements of the reorderable conversion -/
def encRElems (E : JVal → Res (Bytes × Bool)) : List JVal → Int → Res Bytes
  | [], pos => do
    let _ ← incInt pos
    .ok []
  | v :: l, pos => do
    let pos ← incInt pos
    let r ← E v
    let r' ← encRElems E l pos
    .ok (r.1 ++ r')

/-- the reorderable conversion, bytes and final `skipped_extension` -/
def encR (T : Table) (L : Leaves) : Nat → Bool → Ptr → JVal → Res (Bytes × Bool)
  | 0, _, _, _ => .error .ub
  | n + 1, allow, ty, v =>
    match T.get ty with
    | some (.builtin b) => do
      let x ← leafEnc L b v
      .ok (x, false)
    | some (.optional p) =>
      if v.isNull then .ok ([0], false)
      else do
        let r ← encR T L n allow p v
        .ok (1 :: r.1, r.2)
    | some (.extension p) => encR T L n allow p v
    | some (.struct fs) =>
      match v with
      | .obj ms => encRFields T (encR T L n) allow ms fs false (-1)
      | _ => .error .expected_start_object
    | some (.array p) =>
      match v with
      | .arr l => do
        let c ← varuint32ToBin l.length
        let b ← encRElems (encR T L n false p) l (-1)
        .ok (c ++ b, false)
      | _ => .error .expected_start_array
    | some (.variant alts) =>
      match v with
      | .arr [.str name, x] =>
        match findAlt name alts 0 with
        | none => .error .invalid_type_for_variant
        | some (i, f) => do
          let c ← varuint32ToBin i
          let r ← encR T L n allow f.type x
          .ok (c ++ r.1, r.2)
      | _ => .error .expected_variant
    | _ => .error .ub

/-- Output of the ordered conversion: raw bytes and array sizes. -/
inductive Piece
  | raw (b : Bytes)
  | size (n : Nat)
  deriving DecidableEq, Repr

/-- members of the ordered conversion -/
def encOMembers (T : Table) (E : Bool → Ptr → JVal → Res (List Piece × Bool)) (lvl : Nat) (allow : Bool) :
    List Field → List (Bytes × JVal) → Int → Res (List Piece × Bool)
  | fs, [], pos => do
    let _ ← incInt pos
    match fs with
    | [] => .ok ([], false)
    | f :: _ =>
      match T.get f.type with
      | none => .error .ub
      | some d => if d.isExt && allow then .ok ([], true) else .error .expected_field
  | fs, (k, v) :: ms, pos => do
    let pos ← incInt pos
    match fs with
    | [] => .error .unexpected_field
    | f :: fs =>
      if k = f.name then
        if lvl + 1 ≤ maxStack then do
          let r ← E (allow && fs.isEmpty) f.type v
          let r' ← encOMembers T E lvl allow fs ms pos
          .ok (r.1 ++ r'.1, r.2 || r'.2)
        else .error .recursion_limit_reached
      else .error .expected_field

/-- elements of the ordered conversion -/
def encOElems (E : JVal → Res (List Piece × Bool)) : List JVal → Int → Res (List Piece)
  | [], pos => do
    let _ ← incInt pos
    .ok []
  | v :: l, pos => do
    let pos ← incInt pos
    let r ← E v
    let r' ← encOElems E l pos
    .ok (r.1 ++ r')

/-- the ordered conversion; `lvl` is the stack size before the call -/
def encO (T : Table) (L : Leaves) : Nat → Nat → Bool → Ptr → JVal → Res (List Piece × Bool)
  | 0, _, _, _, _ => .error .ub
  | n + 1, lvl, allow, ty, v =>
    match T.get ty with
    | some (.builtin b) => do
      let x ← leafEnc L b v
      .ok ([.raw x], false)
    | some (.optional p) =>
      if v.isNull then .ok ([.raw [0]], false)
      else do
        let r ← encO T L n lvl allow p v
        .ok (.raw [1] :: r.1, r.2)
    | some (.extension p) => encO T L n lvl allow p v
    | some (.struct fs) =>
      match v with
      | .obj ms => encOMembers T (encO T L n (lvl + 1)) lvl allow fs ms (-1)
      | _ => .error .expected_start_object
    | some (.array p) =>
      match v with
      | .arr l =>
        if lvl + 1 ≤ maxStack then do
          let b ← encOElems (encO T L n (lvl + 1) false p) l (-1)
          .ok (.size l.length :: b, false)
        else .error .recursion_limit_reached
      | _ => .error .expected_start_array
    | some (.variant alts) =>
      match v with
      | .arr l =>
        if lvl + 1 ≤ maxStack then
          match l with
          | [] => .error .expected_variant
          | .str name :: l =>
            match findAlt name alts 0 with
            | none => .error .invalid_type_for_variant
            | some (i, f) => do
              let c ← varuint32ToBin i
              match l with
              | [] => .error .expected_variant
              | x :: l => do
                let r ← encO T L n (lvl + 1) allow f.type x
                match l with
                | [] => .ok (.raw c :: r.1, r.2)
                | _ => .error .expected_variant
          | _ => .error .expected_string
        else .error .recursion_limit_reached
      | _ => .error .expected_start_array
    | _ => .error .ub

/-- fields of the decoder; the text includes the closing brace -/
def decFields (T : Table) (E : Bool → Ptr → Bytes → Res (Bytes × Bytes)) (allow : Bool) :
    List Field → Int → Bytes → Res (Bytes × Bytes)
  | [], pos, bin => do
    let _ ← incInt pos
    .ok (str "}", bin)
  | f :: fs, pos, bin => do
    let pos ← incInt pos
    match T.get f.type with
    | none => .error .ub
    | some d =>
      if bin = [] ∧ d.isExt ∧ allow then decFields T E allow fs pos bin
      else do
        let r ← E (allow && fs.isEmpty) f.type bin
        let r' ← decFields T E allow fs pos r.2
        .ok ((if pos ≠ 0 then str "," else []) ++ jsonString f.name ++ str ":" ++ r.1 ++ r'.1, r'.2)

/-- elements of the decoder; the text includes the closing bracket -/
def decElems (E : Bytes → Res (Bytes × Bytes)) : Nat → Int → Bytes → Res (Bytes × Bytes)
  | 0, pos, bin => do
    let _ ← incInt pos
    .ok (str "]", bin)
  | k + 1, pos, bin => do
    let pos ← incInt pos
    let r ← E bin
    let r' ← decElems E k pos r.2
    .ok ((if pos ≠ 0 then str "," else []) ++ r.1 ++ r'.1, r'.2)

/-- the decoder: text and unread input -/
def dec (T : Table) (L : Leaves) : Nat → Nat → Bool → Ptr → Bytes → Res (Bytes × Bytes)
  | 0, _, _, _, _ => .error .ub
  | n + 1, lvl, allow, ty, bin =>
    match T.get ty with
    | some (.builtin b) => L.fromBin b bin
    | some (.optional p) => do
      let r ← readU8 bin
      if r.1 ≠ 0 then dec T L n lvl allow p r.2 else .ok (str "null", r.2)
    | some (.extension p) => dec T L n lvl allow p bin
    | some (.struct fs) =>
      if lvl + 1 ≤ maxStack then do
        let r ← decFields T (dec T L n (lvl + 1)) allow fs (-1) bin
        .ok (str "{" ++ r.1, r.2)
      else .error .recursion_limit_reached
    | some (.array p) => do
      let c ← varuint32FromBin bin
      if lvl + 1 ≤ maxStack then do
        let r ← decElems (dec T L n (lvl + 1) false p) c.1 (-1) c.2
        .ok (str "[" ++ r.1, r.2)
      else .error .recursion_limit_reached
    | some (.variant alts) =>
      if lvl + 1 ≤ maxStack then do
        let i ← varuint32FromBin bin
        match alts[i.1]? with
        | none => .error .bad_variant_index
        | some f => do
          let r ← dec T L n (lvl + 1) allow f.type i.2
          .ok (str "[" ++ jsonString f.name ++ str "," ++ r.1 ++ str "]", r.2)
      else .error .recursion_limit_reached
    | _ => .error .ub

end Abieos
