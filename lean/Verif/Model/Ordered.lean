import Verif.Model.AbiType
/-
The ordered (streaming) conversion: JSON tokens -> binary.
-/
namespace Abieos

/-- `json_to_bin_stack_entry` (src/abieos.hpp:224-230). -/
structure OFrame where
  type : Ptr
  allow : Bool
  pos : Int := -1
  sizeIdx : Nat := 0
  altIdx : Nat := 0
  deriving Repr, Inhabited, DecidableEq

/-- `json_to_bin_state` (src/abieos.hpp:265-274). `toks` are the tokens rapidjson has not yet delivered; `ins` are the
`size_insertions` as (position, size). `pending` is a call with `start = true` about to be made (all are tail calls). -/
structure OState where
  toks : List Tok
  out : Bytes
  ins : List (Nat × Nat)
  stack : List OFrame
  skipped : Bool
  pending : Option (Bool × Ptr)
  deriving Repr, Inhabited

/-- Set the size of the insertion at index `i` (src/abieos.hpp:833). -/
def setSize (i n : Nat) (ins : List (Nat × Nat)) : List (Nat × Nat) :=
  ins.modify i fun p => (p.1, n)

/-- The part of `pseudo_object` that runs both after `start` and on resumption (src/abieos.hpp:779-812), on the top
frame `e`. Wanting a token when none is left is a syntax error: a token stream with an open container is not
finished. -/
def objectO (T : Table) (s : OState) (e : OFrame) (K : List OFrame) (fs : List Field) : Res OState :=
  match s.toks with
  | [] => .error .unspecific_syntax_error
  | .endObj :: ts => do
    let pos ← incInt e.pos
    if pos = fs.length then .ok { s with toks := ts, stack := K }
    else
      match fs[pos.toNat]? with
      | none => .error .ub
      | some f =>
        match T.get f.type with
        | some d =>
          if d.isExt && e.allow then .ok { s with toks := ts, stack := K, skipped := true } else .error .expected_field
        | none => .error .ub
  | .key k :: ts => do
    let pos ← incInt e.pos
    if pos ≥ fs.length ∨ s.skipped then .error .unexpected_field
    else
      match fs[pos.toNat]? with
      | none => .error .ub
      | some f => if k = f.name then .ok { s with toks := ts, stack := { e with pos := pos } :: K } else .error .expected_field
  | _ :: _ =>
    match fs[e.pos.toNat]? with
    | none => .error .ub
    | some f =>
      if e.pos < 0 then .error .ub
      else .ok { s with pending := some (e.allow && decide (e.pos + 1 = fs.length), f.type) }

/-- A call with `start = true`: `pseudo_optional` (598-607, the null is consumed by `get_null_pred`),
`pseudo_extension` (609-614), `pseudo_object` (770-778), `pseudo_array` (815-826), `pseudo_variant` (842-849), builtins
(718-733) (all src/abieos.hpp). -/
def startO (T : Table) (L : Leaves) (s : OState) (allow : Bool) (ty : Ptr) : Res OState :=
  match T.get ty with
  | some (.builtin b) =>
    match s.toks with
    | [] => .error .unspecific_syntax_error
    | .bool x :: ts => do
      let y ← L.toBin b (.bool x)
      .ok { s with toks := ts, out := s.out ++ y, pending := none }
    | .str x :: ts => do
      let y ← L.toBin b (.str x)
      .ok { s with toks := ts, out := s.out ++ y, pending := none }
    | _ :: _ => .error (leafMismatch b)
  | some (.optional p) =>
    match s.toks with
    | [] => .error .unspecific_syntax_error
    | .null :: ts => .ok { s with toks := ts, out := s.out ++ [0], pending := none }
    | _ :: _ => .ok { s with out := s.out ++ [1], pending := some (allow, p) }
  | some (.extension p) => .ok { s with pending := some (allow, p) }
  | some (.struct fs) =>
    match s.toks with
    | [] => .error .unspecific_syntax_error
    | .startObj :: ts => objectO T { s with toks := ts, pending := none } { type := ty, allow := allow } s.stack fs
    | _ :: _ => .error .expected_start_object
  | some (.array _) =>
    match s.toks with
    | [] => .error .unspecific_syntax_error
    | .startArr :: ts =>
      .ok { s with toks := ts, stack := { type := ty, allow := false, sizeIdx := s.ins.length } :: s.stack,
                   ins := s.ins ++ [(s.out.length, 0)], pending := none }
    | _ :: _ => .error .expected_start_array
  | some (.variant _) =>
    match s.toks with
    | [] => .error .unspecific_syntax_error
    | .startArr :: ts => .ok { s with toks := ts, stack := { type := ty, allow := allow } :: s.stack, pending := none }
    | _ :: _ => .error .expected_start_array
  | _ => .error .ub

/-- A call with `start = false` on the top frame (src/abieos.hpp:779-812, 827-840, 850-878). -/
def resumeO (T : Table) (s : OState) (e : OFrame) (K : List OFrame) : Res OState :=
  match T.get e.type with
  | some (.struct fs) => objectO T s e K fs
  | some (.array p) =>
    match s.toks with
    | [] => .error .unspecific_syntax_error
    | .endArr :: ts => do
      let n ← incInt e.pos
      .ok { s with toks := ts, ins := setSize e.sizeIdx n.toNat s.ins, stack := K }
    | _ :: _ => do
      let pos ← incInt e.pos
      .ok { s with stack := { e with pos := pos } :: K, pending := some (false, p) }
  | some (.variant alts) => do
    let pos ← incInt e.pos
    match s.toks with
    | [] => .error .unspecific_syntax_error
    | .endArr :: ts => if pos = 2 then .ok { s with toks := ts, stack := K } else .error .expected_variant
    | t :: ts =>
      if pos = 0 then
        match t with
        | .str name =>
          match findAlt name alts 0 with
          | none => .error .invalid_type_for_variant
          | some (i, _) => do
            let n ← varuint32ToBin i
            .ok { s with toks := ts, out := s.out ++ n, stack := { e with pos := pos, altIdx := i } :: K }
        | _ => .error .expected_string
      else if pos = 1 then
        match alts[e.altIdx]? with
        | none => .error .ub
        | some f => .ok { s with stack := { e with pos := pos } :: K, pending := some (e.allow, f.type) }
      else .error .expected_variant
  | _ => .error .ub

/-- One step of the driver loop (src/abieos.hpp:749-758). -/
def stepO (T : Table) (L : Leaves) (s : OState) : Res (Option OState) :=
  match s.pending with
  | some (allow, ty) => do return some (← startO T L s allow ty)
  | none =>
    match s.stack with
    | [] => .ok none
    | e :: K =>
      if s.stack.length ≤ maxStack then do return some (← resumeO T s e K)
      else .error .recursion_limit_reached

/-- The final copy that puts the array sizes in (src/abieos.hpp:761-767); `buf` is `out_buf`. -/
def splice (buf : Bytes) : Nat → List (Nat × Nat) → Bytes
  | pos, [] => buf.drop pos
  | pos, (p, n) :: r => (buf.take p).drop pos ++ varuintLoop n ++ splice buf p r

/-- Initial state (src/abieos.hpp:740-748). -/
def initO (ty : Ptr) (ts : List Tok) : OState := ⟨ts, [], [], [], false, some (true, ty)⟩

/-- What the driver does after the loop (src/abieos.hpp:759-767). -/
def finishO (s : OState) : Res Bytes :=
  if s.toks = [] then .ok (splice s.out 0 s.ins) else .error .expected_end

/-- `json_to_bin(bin, type, json)` (src/abieos.hpp:739-768), with `bin` empty, on the tokens `ts` ends with `r`. -/
def TokensToBin (T : Table) (L : Leaves) (ty : Ptr) (ts : List Tok) (r : Res Bytes) : Prop :=
  ∃ r', Ends (stepO T L) (initO ty ts) r' ∧ r = r'.bind finishO

/-- `abi_type::json_to_bin` (src/abi.cpp:287-291) on a well-formed document ends with `r`. -/
def JsonToBin (T : Table) (L : Leaves) (ty : Ptr) (v : JVal) (r : Res Bytes) : Prop := TokensToBin T L ty v.toks r

end Abieos
