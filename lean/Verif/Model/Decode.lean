import Verif.Model.AbiType
import Verif.Model.JsonString
/-
binary -> JSON text.
-/
namespace Abieos

/-- `bin_to_json_stack_entry` (src/abieos.hpp:232-237). -/
structure DFrame where
  type : Ptr
  allow : Bool
  pos : Int := -1
  arraySize : Nat := 0
  deriving Repr, Inhabited, DecidableEq

/-- `bin_to_json_state` (src/abieos.hpp:276-284): unread input, output text, stack. The flag `skipped_extension` is
written but never read by this conversion and is left out. `pending` is a call with `start = true` about to be made
(all are tail calls). -/
structure DState where
  bin : Bytes
  out : Bytes
  stack : List DFrame
  pending : Option (Bool × Ptr)
  deriving Repr, Inhabited, DecidableEq

/-- A call with `start = true`: `pseudo_optional` (905-912), `pseudo_extension` (914-917), `pseudo_object` (921-927),
`pseudo_array` (953-959), `pseudo_variant` (977-982), builtins (1002-1008) (all src/abieos.hpp). Reading the presence
byte into a `bool` is taken to give true for every non-zero byte. -/
def startD (T : Table) (L : Leaves) (s : DState) (allow : Bool) (ty : Ptr) : Res DState :=
  match T.get ty with
  | some (.builtin b) => do
    let (text, rest) ← L.fromBin b s.bin
    .ok { s with bin := rest, out := s.out ++ text, pending := none }
  | some (.optional p) => do
    let (present, rest) ← readU8 s.bin
    if present ≠ 0 then .ok { s with bin := rest, pending := some (allow, p) }
    else .ok { s with bin := rest, out := s.out ++ str "null", pending := none }
  | some (.extension p) => .ok { s with pending := some (allow, p) }
  | some (.struct _) =>
    .ok { s with out := s.out ++ str "{", stack := { type := ty, allow := allow } :: s.stack, pending := none }
  | some (.array _) => do
    let (n, rest) ← varuint32FromBin s.bin
    .ok { s with bin := rest, out := s.out ++ str "[", pending := none,
                 stack := { type := ty, allow := false, arraySize := n } :: s.stack }
  | some (.variant _) =>
    .ok { s with out := s.out ++ str "[", stack := { type := ty, allow := allow } :: s.stack, pending := none }
  | _ => .error .ub

/-- A call with `start = false` on the top frame (src/abieos.hpp:928-949, 960-973, 983-1000). -/
def resumeD (T : Table) (s : DState) (e : DFrame) (K : List DFrame) : Res DState :=
  match T.get e.type with
  | some (.struct fs) => do
    let pos ← incInt e.pos
    if pos < fs.length then
      match fs[pos.toNat]? with
      | none => .error .ub
      | some f =>
        match T.get f.type with
        | none => .error .ub
        | some d =>
          if s.bin = [] ∧ d.isExt ∧ e.allow then
            .ok { s with stack := { e with pos := pos } :: K }
          else
            .ok { s with out := s.out ++ (if pos ≠ 0 then str "," else []) ++ jsonString f.name ++ str ":",
                         stack := { e with pos := pos } :: K,
                         pending := some (e.allow && decide (pos + 1 = fs.length), f.type) }
    else .ok { s with out := s.out ++ str "}", stack := K }
  | some (.array p) => do
    let pos ← incInt e.pos
    if pos < e.arraySize then
      .ok { s with out := s.out ++ (if pos ≠ 0 then str "," else []), stack := { e with pos := pos } :: K,
                   pending := some (false, p) }
    else .ok { s with out := s.out ++ str "]", stack := K }
  | some (.variant alts) => do
    let pos ← incInt e.pos
    if pos = 0 then do
      let (i, rest) ← varuint32FromBin s.bin
      match alts[i]? with
      | none => .error .bad_variant_index
      | some f =>
        .ok { s with bin := rest, out := s.out ++ jsonString f.name ++ str ",", stack := { e with pos := pos } :: K,
                     pending := some (e.allow, f.type) }
    else .ok { s with out := s.out ++ str "]", stack := K }
  | _ => .error .ub

/-- One step of the driver loop (src/abieos.hpp:889-897). The C++ tests the stack size after each resumption; here the
test is made before the next one, where nothing has changed in between (after the initial call the size is at most 1). -/
def stepD (T : Table) (L : Leaves) (s : DState) : Res (Option DState) :=
  match s.pending with
  | some (allow, ty) => do return some (← startD T L s allow ty)
  | none =>
    if s.stack.length ≤ maxStack then
      match s.stack with
      | [] => .ok none
      | e :: K => do return some (← resumeD T s e K)
    else .error .recursion_limit_reached

/-- Initial state (src/abieos.hpp:884-888). -/
def initD (ty : Ptr) (bin : Bytes) : DState := ⟨bin, [], [], some (true, ty)⟩

/-- `bin_to_json(bin, type, dest)` (src/abieos.hpp:884-899) ends with `r`: the text, and the input left unread. -/
def BinToJson (T : Table) (L : Leaves) (ty : Ptr) (bin : Bytes) (r : Res (Bytes × Bytes)) : Prop :=
  ∃ r', Ends (stepD T L) (initD ty bin) r' ∧ r = r'.map fun s => (s.out, s.bin)

end Abieos
