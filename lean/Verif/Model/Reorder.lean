import Verif.Model.AbiType
/-
The reorderable conversion: JSON text -> jvalue -> binary.
-/
namespace Abieos

/-- One frame of the jvalue builder: the container being filled (`value`) and the last key
(`json_to_jvalue_stack_entry`, src/abieos.hpp:212-215). The C++ frame points into the tree; here the frame holds the
container itself and it is put into its parent when the frame is popped. -/
structure JFrame where
  value : JVal
  key : Bytes
  deriving Repr, Inhabited

/-- `map[key] = x` (src/abieos.hpp:548): replaces the value of an existing key. The map is only used through `find`, so
its nodes may be listed in any order. -/
def assocSet (k : Bytes) (x : JVal) : List (Bytes × JVal) → List (Bytes × JVal)
  | [] => [(k, x)]
  | (k', y) :: l => if k' = k then (k', x) :: l else (k', y) :: assocSet k x l

/-- State of `json_to_jvalue`: `root` is the finished root value, `stack` the open containers, innermost first. -/
structure JState where
  root : Option JVal
  stack : List JFrame
  deriving Repr, Inhabited

/-- Put a finished value into the innermost open container (or the root): the stores through `jvalue*` at
src/abieos.hpp:483-497, 548, 571. -/
def JState.put (x : JVal) (s : JState) : JState :=
  match s.stack with
  | [] => { s with root := some x }
  | f :: fs =>
    match f.value with
    | .obj l => { s with stack := { f with value := .obj (assocSet f.key x l) } :: fs }
    | .arr l => { s with stack := { f with value := .arr (l ++ [x]) } :: fs }
    | _ => s

/-- `receive_event` with `start = false` or for the first event (src/abieos.hpp:472-506, 524-571). The C++ stack holds
one entry per open container, plus one entry for the value being started; the limit is tested when an event arrives
(size = open containers, or 1 for the root) and again after the entry of a new child has been pushed (one more). -/
def jvEvent (s : JState) (t : Tok) : Res JState :=
  if s.root.isSome then .error (.text .extraData)
  else if s.stack.length > maxStack then .error (.text .recursionLimitReached)
  else
    let child (x : JVal) : Res JState :=
      if s.stack.length + 1 > maxStack then .error (.text .recursionLimitReached) else .ok (s.put x)
    let openC (x : JVal) : Res JState :=
      if s.stack.length + 1 > maxStack then .error (.text .recursionLimitReached)
      else .ok { s with stack := { value := x, key := [] } :: s.stack }
    match t with
    | .null => child .null
    | .bool b => child (.bool b)
    | .str x => child (.str x)
    | .startObj => openC (.obj [])
    | .startArr => openC (.arr [])
    | .key k =>
      match s.stack with
      | f :: fs => .ok { s with stack := { f with key := k } :: fs }
      | [] => .error .ub
    | .endObj | .endArr =>
      match s.stack with
      | f :: fs => .ok (({ s with stack := fs } : JState).put f.value)
      | [] => .error .ub

/-- Feed the events of a document to the handler (rapidjson's `Parse`, src/abieos.hpp:519-521). A handler that returns
false makes `Parse` fail, reported as `unspecific_syntax_error` (src/abieos.hpp:522). -/
def jvEvents : List Tok → JState → Res JState
  | [], s => .ok s
  | t :: ts, s =>
    match jvEvent s t with
    | .ok s' => jvEvents ts s'
    | .error _ => .error .unspecific_syntax_error

/-- `json_to_jvalue` (src/abieos.hpp:508-522) on the events of a well-formed text. -/
def jsonToJvalue (ts : List Tok) : Res JVal := do
  let s ← jvEvents ts ⟨none, []⟩
  match s.root with
  | some v => .ok v
  | none => .error .unspecific_syntax_error

/-- `jvalue_to_bin_stack_entry` (src/abieos.hpp:217-222). -/
structure RFrame where
  type : Ptr
  allow : Bool
  value : JVal
  pos : Int
  deriving Repr, Inhabited

/-- `jvalue_to_bin_state` (src/abieos.hpp:235-263). `pending` is a call `t->ser->json_to_bin(state, allow, t, true)` that
is about to be made: every such call in the code is a tail call, so calls are steps of the same loop. -/
structure RState where
  out : Bytes
  recv : JVal
  stack : List RFrame
  skipped : Bool
  pending : Option (Bool × Ptr)
  deriving Repr, Inhabited

/-- A call with `start = true`: `pseudo_optional` (598-607), `pseudo_extension` (609-614), `pseudo_object` (616-625),
`pseudo_array` (656-666), `pseudo_variant` (683-699), builtins (718-733) (all src/abieos.hpp). A call through an
unresolved or alias type would be a null `ser`. After the push, object and array go on with their first field: that is
the next step here. -/
def startR (T : Table) (L : Leaves) (s : RState) (allow : Bool) (ty : Ptr) : Res RState :=
  match T.get ty with
  | some (.builtin b) => do
    let x ← leafEnc L b s.recv
    .ok { s with out := s.out ++ x, pending := none }
  | some (.optional p) =>
    if s.recv.isNull then .ok { s with out := s.out ++ [0], pending := none }
    else .ok { s with out := s.out ++ [1], pending := some (allow, p) }
  | some (.extension p) => .ok { s with pending := some (allow, p) }
  | some (.struct _) =>
    match s.recv with
    | .obj _ => .ok { s with stack := ⟨ty, allow, s.recv, -1⟩ :: s.stack, pending := none }
    | _ => .error .expected_start_object
  | some (.array _) =>
    match s.recv with
    | .arr l => do
      let n ← varuint32ToBin l.length
      .ok { s with out := s.out ++ n, stack := ⟨ty, false, s.recv, -1⟩ :: s.stack, pending := none }
    | _ => .error .expected_start_array
  | some (.variant _) =>
    match s.recv with
    | .arr [.str _, _] => .ok { s with stack := ⟨ty, allow, s.recv, 0⟩ :: s.stack, pending := none }
    | _ => .error .expected_variant
  | _ => .error .ub

/-- A call with `start = false` on the top frame `e` (src/abieos.hpp:626-654, 667-681, 700-716). -/
def resumeR (T : Table) (s : RState) (e : RFrame) (K : List RFrame) : Res RState :=
  match T.get e.type with
  | some (.struct fs) => do
    let pos ← incInt e.pos
    if pos = fs.length then .ok { s with stack := K }
    else
      match fs[pos.toNat]?, e.value with
      | some f, .obj ms =>
        match ms.lookup f.name with
        | none =>
          match T.get f.type with
          | some d =>
            if d.isExt && e.allow then .ok { s with stack := { e with pos := pos } :: K, skipped := true }
            else .error .expected_field
          | none => .error .ub
        | some v =>
          if s.skipped then .error .unexpected_field
          else .ok { s with recv := v, stack := { e with pos := pos } :: K,
                            pending := some (e.allow && decide (pos + 1 = fs.length), f.type) }
      | _, _ => .error .ub
  | some (.array p) => do
    let pos ← incInt e.pos
    match e.value with
    | .arr l =>
      if pos = l.length then .ok { s with stack := K }
      else
        match l[pos.toNat]? with
        | some v => .ok { s with recv := v, stack := { e with pos := pos } :: K, pending := some (false, p) }
        | none => .error .ub
    | _ => .error .ub
  | some (.variant alts) =>
    match e.value with
    | .arr [.str name, v] =>
      if e.pos = 0 then
        match findAlt name alts 0 with
        | none => .error .invalid_type_for_variant
        | some (i, f) => do
          let n ← varuint32ToBin i
          .ok { s with out := s.out ++ n, recv := v, stack := { e with pos := 1 } :: K, pending := some (e.allow, f.type) }
      else .ok { s with stack := K }
    | _ => .error .ub
  | _ => .error .ub

/-- One step of the driver loop of `json_to_bin(bin, type, jvalue)` (src/abieos.hpp:587-596). The callback `f()` is not
modelled. -/
def stepR (T : Table) (L : Leaves) (s : RState) : Res (Option RState) :=
  match s.pending with
  | some (allow, ty) => do return some (← startR T L s allow ty)
  | none =>
    match s.stack with
    | [] => .ok none
    | e :: K => do return some (← resumeR T s e K)

/-- Initial state of `json_to_bin(bin, type, jvalue)` (src/abieos.hpp:589-590), with `bin` empty. -/
def initR (ty : Ptr) (v : JVal) : RState := ⟨[], v, [], false, some (true, ty)⟩

/-- `json_to_bin(bin, type, jvalue)` ends with `r`. -/
def JvalueToBin (T : Table) (L : Leaves) (ty : Ptr) (v : JVal) (r : Res Bytes) : Prop :=
  ∃ r', Ends (stepR T L) (initR ty v) r' ∧ r = r'.map (·.out)

/-- `abi_type::json_to_bin_reorderable` (src/abi.cpp:279-285) on a well-formed document ends with `r`. -/
def JsonToBinReorderable (T : Table) (L : Leaves) (ty : Ptr) (v : JVal) (r : Res Bytes) : Prop :=
  match jsonToJvalue v.toks with
  | .error e => r = .error e
  | .ok jv => JvalueToBin T L ty jv r

end Abieos
