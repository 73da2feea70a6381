import Verif.Props.Varint
import Verif.Props.Hex
import Verif.Props.Name
import Verif.Props.HashName
import Verif.Props.JsonInt
import Verif.Proofs.RefineR
import Verif.Proofs.RefineD
import Verif.Proofs.RefineO
import Verif.Spec.Layout
import Verif.Proofs.SerDec
import Verif.Proofs.DecPrefix
import Verif.Proofs.Jvalue
import Verif.Props.JsonString
import Verif.Props.Encode
import Verif.Props.Extension
import Verif.Proofs.Check
import Verif.Props.Limits
import Verif.Props.Time
import Verif.Props.Symbol
import Verif.Props.Asset
import Verif.Props.Base58
import Verif.Props.StaticBin
import Verif.Props.Keys
import Verif.Props.KeyFormat
import Verif.Props.BuiltinFormat
import Verif.Proofs.Ripemd160
import Verif.Props.Ripemd160
import Verif.Model.Builtins
import Verif.Proofs.NumberText
import Verif.Proofs.Local
import Verif.Proofs.Leaf
import Verif.Proofs.LeafWords
import Verif.Props.Float
import Verif.Proofs.LeafPrefix
import Verif.Props.RoundTrip
import Verif.Props.Example
import Verif.Props.Loader
import Verif.Props.Lookup
import Verif.Props.Export
import Verif.Props.LoaderExample
import Verif.Props.AbiDefBin
import Verif.Props.AbiDefJson
import Verif.Props.CApi
import Verif.Props.CApiExample
import Verif.Props.FixedBytes
import Verif.Props.NameParts
import Verif.Props.ToKey
import Verif.Props.Operators
import Verif.Props.Single
import Verif.Props.Defined
import Verif.Spec.JsonGrammar
import Verif.Proofs.JsonGrammar
import Verif.Props.JsonGrammar
import Verif.Spec.StaticJson
import Verif.Proofs.StaticJson
import Verif.Props.StaticJson
import Verif.Proofs.StaticRead
import Verif.Props.StaticRead
import Verif.Model.AddType
import Verif.Spec.AddType
import Verif.Proofs.AddType
import Verif.Proofs.AddTypeInv
import Verif.Props.AddType
import Verif.Model.StaticValue
import Verif.Spec.StaticValue
import Verif.Proofs.StaticValue
import Verif.Proofs.StaticLeaf
import Verif.Proofs.StaticRound
import Verif.Props.StaticValue
import Verif.Proofs.StaticAgree
import Verif.Proofs.StaticAgreeBin
import Verif.Props.StaticAgree
import Verif.Spec.CLibrary
import Verif.Proofs.FloatTrip
import Verif.Props.FloatTrip
import Verif.Props.TimeExact
import Verif.Spec.Wire
import Verif.Proofs.Wire
import Verif.Props.Wire
import Verif.Spec.Shown
import Verif.Proofs.Shown
import Verif.Proofs.ShownKey
import Verif.Props.Shown
import Verif.Props.Texts
import Verif.Model.Opaque
import Verif.Props.Opaque
import Verif.Model.Convert
import Verif.Spec.Convert
import Verif.Proofs.Convert
import Verif.Props.Convert
import Verif.Spec.BinAccept
import Verif.Proofs.BinAccept
import Verif.Props.BinAccept
import Verif.Model.Ship
import Verif.Model.ShipStatus
import Verif.Spec.Ship
import Verif.Props.Ship
import Verif.Proofs.Streams
import Verif.Proofs.ShortText
import Verif.Spec.Malformed
import Verif.Props.Malformed
import Verif.Spec.Messages
import Verif.Spec.CallMessages
import Verif.Props.Messages
import Verif.Proofs.Online
import Verif.Proofs.Cut
import Verif.Spec.Truncated
import Verif.Props.Truncated
import Verif.Model.NameTool
import Verif.Spec.NameTool
import Verif.Proofs.NameTool
import Verif.Props.NameTool
import Verif.Spec.Faults
import Verif.Proofs.Faults
import Verif.Spec.ScalarFaults
import Verif.Proofs.ScalarFaults
import Verif.Proofs.KeyFaults
import Verif.Props.Faults
import Verif.Spec.BinFaults
import Verif.Proofs.BytesFaults
import Verif.Proofs.BinFaults
import Verif.Props.BinFaults
import Verif.Proofs.Exec
import Verif.Model.TimeArith
import Verif.Spec.TimeArith
import Verif.Props.TimeArith
import Verif.Model.NameLiteral
import Verif.Props.NameLiteral
import Verif.Spec.LoadFaults
import Verif.Proofs.LoadFaults
import Verif.Props.LoadFaults
import Verif.Spec.AbiFaults
import Verif.Proofs.AbiFaults
import Verif.Props.AbiFaults
import Verif.Model.Fuzzer
import Verif.Spec.Fuzzer
import Verif.Props.Fuzzer
import Verif.Spec.Growth
import Verif.Proofs.Bounds
import Verif.Props.Growth
import Verif.Model.ShipJson
import Verif.Spec.ShipJson
import Verif.Spec.StaticPrints
import Verif.Proofs.LeafPrints
import Verif.Props.StaticPrints
import Verif.Props.ShipJson
import Verif.Spec.SameType
import Verif.Proofs.SameType
import Verif.Props.SameType
import Verif.Props.SameTypeExample
import Verif.Spec.ShipAbi
import Verif.Proofs.ShipLits
import Verif.Proofs.ShipAbi
import Verif.Props.ShipAbi
import Verif.Spec.StaticAbi
import Verif.Proofs.StaticAbi
import Verif.Props.StaticAbi
import Verif.Spec.Reexport
import Verif.Proofs.Reexport
import Verif.Props.Reexport
import Verif.Props.Undefined
import Verif.Props.ReexportTwice
import Verif.Spec.Records
import Verif.Props.Records
import Verif.Spec.BuiltinNames
import Verif.Props.BuiltinNames
