import Verif.Model.Hex
/-!
The texts of `transaction_status` (include/eosio/ship_protocol.hpp:43-81). An exception is modelled by its message.
-/
namespace Abieos
namespace Ship

/-- `to_string(transaction_status)`, ship_protocol.hpp:52-61. `n` is the stored byte: an enum with a fixed underlying type can hold any. The
number in the message is that of `std::to_string`. -/
def statusToString (n : UInt8) : Except Bytes Bytes :=
  if n = 0 then .ok (str "executed")
  else if n = 1 then .ok (str "soft_fail")
  else if n = 2 then .ok (str "hard_fail")
  else if n = 3 then .ok (str "delayed")
  else if n = 4 then .ok (str "expired")
  else .error (str "unknown status: " ++ str (toString n.toNat))

/-- `get_transaction_status(const std::string&)`, ship_protocol.hpp:64-76. -/
def getTransactionStatus (s : Bytes) : Except Bytes UInt8 :=
  if s = str "executed" then .ok 0
  else if s = str "soft_fail" then .ok 1
  else if s = str "hard_fail" then .ok 2
  else if s = str "delayed" then .ok 3
  else if s = str "expired" then .ok 4
  else .error (str "unknown status: " ++ s)

end Ship
end Abieos
