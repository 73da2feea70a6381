import Verif.Spec.StaticValue
/-!
The messages a client and a node exchange in the state-history protocol, byte by byte; and the names of transaction states.
-/
namespace Abieos.Spec.Ship

/-- The names of the states of a transaction, with the byte they are stored as. -/
def states : List (UInt8 × List UInt8) := [(0, str "executed"), (1, str "soft_fail"), (2, str "hard_fail"), (3, str "delayed"),
  (4, str "expired")]

/-- A block: its number (four bytes) and its id (32 bytes). -/
structure Position where
  num : List UInt8
  id : List UInt8
  num_length : num.length = 4
  id_length : id.length = 32

def Position.value (p : Position) : SVal := .struct [.leaf p.num, .leaf p.id]

/-- A truth value. -/
def flag (b : Bool) : List UInt8 := [if b then 1 else 0]

/-- What a client sends: `Request v b`, the request `v` is the bytes `b`. -/
inductive Request : SVal → List UInt8 → Prop
  /-- "send your status" -/
  | status : Request (.alt 0 (.struct [])) [0]
  /-- "send blocks": first, last (exclusive), how many messages without acknowledgement, blocks the client has, and what to send -/
  | blocks {first last most count : List UInt8} {have_ : List Position} {irreversible block traces deltas : Bool} :
      first.length = 4 → last.length = 4 → most.length = 4 → Size have_.length count →
      Request (.alt 1 (.struct [.leaf first, .leaf last, .leaf most, .vec (have_.map Position.value), .leaf (flag irreversible), .leaf (flag block),
          .leaf (flag traces), .leaf (flag deltas)]))
        (1 :: (first ++ last ++ most ++ count ++ (have_.map fun p => p.num ++ p.id).flatten ++ flag irreversible ++ flag block ++ flag traces ++ flag deltas))
  /-- "so many messages received" -/
  | ack {count : List UInt8} : count.length = 4 → Request (.alt 2 (.struct [.leaf count])) (2 :: count)

/-- The answer to "send your status": head and last irreversible block, the blocks there are traces and deltas of, and the chain. -/
inductive Status : SVal → List UInt8 → Prop
  | mk {head irreversible : Position} {a b c d chain : List UInt8} : a.length = 4 → b.length = 4 → c.length = 4 → d.length = 4 → chain.length = 32 →
      Status (.alt 0 (.struct [head.value, irreversible.value, .leaf a, .leaf b, .leaf c, .leaf d, .leaf chain]))
        (0 :: (head.num ++ head.id ++ irreversible.num ++ irreversible.id ++ a ++ b ++ c ++ d ++ chain))

end Abieos.Spec.Ship
