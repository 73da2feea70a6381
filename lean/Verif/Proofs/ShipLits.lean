import Verif.Model.StaticJson
import Verif.Model.Loader
/-
The types of the state-history protocol, its ABI and the tables of both, as literals of bytes: the kernel compares these much faster than texts. Proofs/ShipAbi proves that they are what
they stand for; nothing is claimed about them otherwise.
-/
namespace Abieos
namespace Ship

/-- `types`, evaluated -/
def typesLit : List CTy :=
  [(.variant [(.struct [103, 101, 116, 95, 115, 116, 97, 116, 117, 115, 95, 114, 101, 113, 117, 101, 115, 116, 95, 118, 48]), (.struct [103, 101, 116, 95, 98, 108, 111, 99, 107, 115, 95, 114, 101, 113, 117, 101, 115, 116, 95, 118, 48]), (.struct [103, 101, 116, 95, 98, 108, 111, 99, 107, 115, 95, 97, 99, 107, 95, 114, 101, 113, 117, 101, 115, 116, 95, 118, 48])]),
    (.variant [(.struct [103, 101, 116, 95, 115, 116, 97, 116, 117, 115, 95, 114, 101, 115, 117, 108, 116, 95, 118, 48]), (.struct [103, 101, 116, 95, 98, 108, 111, 99, 107, 115, 95, 114, 101, 115, 117, 108, 116, 95, 118, 48]), (.struct [103, 101, 116, 95, 98, 108, 111, 99, 107, 115, 95, 114, 101, 115, 117, 108, 116, 95, 118, 49])]),
    (.variant [(.struct [97, 99, 99, 111, 117, 110, 116, 95, 118, 48])]),
    (.variant [(.struct [97, 99, 99, 111, 117, 110, 116, 95, 109, 101, 116, 97, 100, 97, 116, 97, 95, 118, 48])]),
    (.variant [(.struct [99, 111, 100, 101, 95, 118, 48])]),
    (.variant [(.struct [99, 111, 110, 116, 114, 97, 99, 116, 95, 116, 97, 98, 108, 101, 95, 118, 48])]),
    (.variant [(.struct [99, 111, 110, 116, 114, 97, 99, 116, 95, 114, 111, 119, 95, 118, 48])]),
    (.variant [(.struct [99, 111, 110, 116, 114, 97, 99, 116, 95, 105, 110, 100, 101, 120, 54, 52, 95, 118, 48])]),
    (.variant [(.struct [99, 111, 110, 116, 114, 97, 99, 116, 95, 105, 110, 100, 101, 120, 49, 50, 56, 95, 118, 48])]),
    (.variant [(.struct [99, 111, 110, 116, 114, 97, 99, 116, 95, 105, 110, 100, 101, 120, 50, 53, 54, 95, 118, 48])]),
    (.variant [(.struct [99, 111, 110, 116, 114, 97, 99, 116, 95, 105, 110, 100, 101, 120, 95, 100, 111, 117, 98, 108, 101, 95, 118, 48])]),
    (.variant [(.struct [99, 111, 110, 116, 114, 97, 99, 116, 95, 105, 110, 100, 101, 120, 95, 108, 111, 110, 103, 95, 100, 111, 117, 98, 108, 101, 95, 118, 48])]),
    (.variant [(.struct [107, 101, 121, 95, 118, 97, 108, 117, 101, 95, 118, 48])]),
    (.variant [(.struct [103, 108, 111, 98, 97, 108, 95, 112, 114, 111, 112, 101, 114, 116, 121, 95, 118, 48]), (.struct [103, 108, 111, 98, 97, 108, 95, 112, 114, 111, 112, 101, 114, 116, 121, 95, 118, 49])]),
    (.variant [(.struct [103, 101, 110, 101, 114, 97, 116, 101, 100, 95, 116, 114, 97, 110, 115, 97, 99, 116, 105, 111, 110, 95, 118, 48])]),
    (.variant [(.struct [112, 114, 111, 116, 111, 99, 111, 108, 95, 115, 116, 97, 116, 101, 95, 118, 48])]),
    (.variant [(.struct [112, 101, 114, 109, 105, 115, 115, 105, 111, 110, 95, 118, 48])]),
    (.variant [(.struct [112, 101, 114, 109, 105, 115, 115, 105, 111, 110, 95, 108, 105, 110, 107, 95, 118, 48])]),
    (.variant [(.struct [114, 101, 115, 111, 117, 114, 99, 101, 95, 108, 105, 109, 105, 116, 115, 95, 118, 48])]),
    (.variant [(.struct [114, 101, 115, 111, 117, 114, 99, 101, 95, 117, 115, 97, 103, 101, 95, 118, 48])]),
    (.variant [(.struct [114, 101, 115, 111, 117, 114, 99, 101, 95, 108, 105, 109, 105, 116, 115, 95, 115, 116, 97, 116, 101, 95, 118, 48])]),
    (.variant [(.struct [114, 101, 115, 111, 117, 114, 99, 101, 95, 108, 105, 109, 105, 116, 115, 95, 99, 111, 110, 102, 105, 103, 95, 118, 48])]),
    (.struct [103, 101, 116, 95, 115, 116, 97, 116, 117, 115, 95, 114, 101, 113, 117, 101, 115, 116, 95, 118, 48]),
    (.struct [103, 101, 116, 95, 115, 116, 97, 116, 117, 115, 95, 114, 101, 115, 117, 108, 116, 95, 118, 48]),
    (.struct [103, 101, 116, 95, 98, 108, 111, 99, 107, 115, 95, 114, 101, 113, 117, 101, 115, 116, 95, 118, 48]),
    (.struct [103, 101, 116, 95, 98, 108, 111, 99, 107, 115, 95, 97, 99, 107, 95, 114, 101, 113, 117, 101, 115, 116, 95, 118, 48]),
    (.struct [103, 101, 116, 95, 98, 108, 111, 99, 107, 115, 95, 114, 101, 115, 117, 108, 116, 95, 98, 97, 115, 101]),
    (.struct [103, 101, 116, 95, 98, 108, 111, 99, 107, 115, 95, 114, 101, 115, 117, 108, 116, 95, 118, 48]),
    (.struct [116, 114, 97, 110, 115, 97, 99, 116, 105, 111, 110, 95, 114, 101, 99, 101, 105, 112, 116, 95, 104, 101, 97, 100, 101, 114]),
    (.struct [98, 108, 111, 99, 107, 95, 104, 101, 97, 100, 101, 114]),
    (.struct [115, 105, 103, 110, 101, 100, 95, 98, 108, 111, 99, 107, 95, 104, 101, 97, 100, 101, 114]),
    (.struct [103, 101, 116, 95, 98, 108, 111, 99, 107, 115, 95, 114, 101, 115, 117, 108, 116, 95, 118, 49]),
    (.struct [116, 114, 97, 110, 115, 97, 99, 116, 105, 111, 110, 95, 104, 101, 97, 100, 101, 114]),
    (.struct [116, 114, 97, 110, 115, 97, 99, 116, 105, 111, 110]),
    (.struct [97, 99, 99, 111, 117, 110, 116, 95, 118, 48]),
    (.struct [97, 99, 99, 111, 117, 110, 116, 95, 109, 101, 116, 97, 100, 97, 116, 97, 95, 118, 48]),
    (.struct [99, 111, 100, 101, 95, 118, 48]),
    (.struct [99, 111, 110, 116, 114, 97, 99, 116, 95, 116, 97, 98, 108, 101, 95, 118, 48]),
    (.struct [99, 111, 110, 116, 114, 97, 99, 116, 95, 114, 111, 119, 95, 118, 48]),
    (.struct [99, 111, 110, 116, 114, 97, 99, 116, 95, 105, 110, 100, 101, 120, 54, 52, 95, 118, 48]),
    (.struct [99, 111, 110, 116, 114, 97, 99, 116, 95, 105, 110, 100, 101, 120, 49, 50, 56, 95, 118, 48]),
    (.struct [99, 111, 110, 116, 114, 97, 99, 116, 95, 105, 110, 100, 101, 120, 50, 53, 54, 95, 118, 48]),
    (.struct [99, 111, 110, 116, 114, 97, 99, 116, 95, 105, 110, 100, 101, 120, 95, 100, 111, 117, 98, 108, 101, 95, 118, 48]),
    (.struct [99, 111, 110, 116, 114, 97, 99, 116, 95, 105, 110, 100, 101, 120, 95, 108, 111, 110, 103, 95, 100, 111, 117, 98, 108, 101, 95, 118, 48]),
    (.struct [107, 101, 121, 95, 118, 97, 108, 117, 101, 95, 118, 48]),
    (.struct [103, 108, 111, 98, 97, 108, 95, 112, 114, 111, 112, 101, 114, 116, 121, 95, 118, 48]),
    (.struct [103, 108, 111, 98, 97, 108, 95, 112, 114, 111, 112, 101, 114, 116, 121, 95, 118, 49]),
    (.struct [103, 101, 110, 101, 114, 97, 116, 101, 100, 95, 116, 114, 97, 110, 115, 97, 99, 116, 105, 111, 110, 95, 118, 48]),
    (.struct [112, 114, 111, 116, 111, 99, 111, 108, 95, 115, 116, 97, 116, 101, 95, 118, 48]),
    (.struct [112, 101, 114, 109, 105, 115, 115, 105, 111, 110, 95, 118, 48]),
    (.struct [112, 101, 114, 109, 105, 115, 115, 105, 111, 110, 95, 108, 105, 110, 107, 95, 118, 48]),
    (.struct [114, 101, 115, 111, 117, 114, 99, 101, 95, 108, 105, 109, 105, 116, 115, 95, 118, 48]),
    (.struct [114, 101, 115, 111, 117, 114, 99, 101, 95, 117, 115, 97, 103, 101, 95, 118, 48]),
    (.struct [114, 101, 115, 111, 117, 114, 99, 101, 95, 108, 105, 109, 105, 116, 115, 95, 115, 116, 97, 116, 101, 95, 118, 48]),
    (.struct [114, 101, 115, 111, 117, 114, 99, 101, 95, 108, 105, 109, 105, 116, 115, 95, 99, 111, 110, 102, 105, 103, 95, 118, 48]),
    (.vec (.variant [(.struct [116, 97, 98, 108, 101, 95, 100, 101, 108, 116, 97, 95, 118, 48])])),
    (.variant [(.struct [116, 97, 98, 108, 101, 95, 100, 101, 108, 116, 97, 95, 118, 48])]),
    (.struct [116, 97, 98, 108, 101, 95, 100, 101, 108, 116, 97, 95, 118, 48]),
    (.vec (.struct [98, 108, 111, 99, 107, 95, 112, 111, 115, 105, 116, 105, 111, 110])),
    (.opt (.leaf .bytes)),
    (.vec (.struct [114, 111, 119])),
    (.struct [114, 111, 119]),
    (.vec (.struct [112, 101, 114, 109, 105, 115, 115, 105, 111, 110, 95, 108, 101, 118, 101, 108])),
    (.vec (.struct [97, 99, 99, 111, 117, 110, 116, 95, 97, 117, 116, 104, 95, 115, 101, 113, 117, 101, 110, 99, 101])),
    (.struct [97, 99, 99, 111, 117, 110, 116, 95, 97, 117, 116, 104, 95, 115, 101, 113, 117, 101, 110, 99, 101]),
    (.opt (.variant [(.struct [97, 99, 116, 105, 111, 110, 95, 114, 101, 99, 101, 105, 112, 116, 95, 118, 48])])),
    (.variant [(.struct [97, 99, 116, 105, 111, 110, 95, 114, 101, 99, 101, 105, 112, 116, 95, 118, 48])]),
    (.struct [97, 99, 116, 105, 111, 110, 95, 114, 101, 99, 101, 105, 112, 116, 95, 118, 48]),
    (.vec (.struct [97, 99, 99, 111, 117, 110, 116, 95, 100, 101, 108, 116, 97])),
    (.variant [(.struct [112, 114, 117, 110, 97, 98, 108, 101, 95, 100, 97, 116, 97, 95, 116, 121, 112, 101, 58, 58, 102, 117, 108, 108, 95, 108, 101, 103, 97, 99, 121]), (.struct [112, 114, 117, 110, 97, 98, 108, 101, 95, 100, 97, 116, 97, 95, 116, 121, 112, 101, 58, 58, 110, 111, 110, 101]), (.struct [112, 114, 117, 110, 97, 98, 108, 101, 95, 100, 97, 116, 97, 95, 116, 121, 112, 101, 58, 58, 112, 97, 114, 116, 105, 97, 108]), (.struct [112, 114, 117, 110, 97, 98, 108, 101, 95, 100, 97, 116, 97, 95, 116, 121, 112, 101, 58, 58, 102, 117, 108, 108])]),
    (.struct [112, 114, 117, 110, 97, 98, 108, 101, 95, 100, 97, 116, 97, 95, 116, 121, 112, 101, 58, 58, 102, 117, 108, 108, 95, 108, 101, 103, 97, 99, 121]),
    (.struct [112, 114, 117, 110, 97, 98, 108, 101, 95, 100, 97, 116, 97, 95, 116, 121, 112, 101, 58, 58, 110, 111, 110, 101]),
    (.struct [112, 114, 117, 110, 97, 98, 108, 101, 95, 100, 97, 116, 97, 95, 116, 121, 112, 101, 58, 58, 112, 97, 114, 116, 105, 97, 108]),
    (.struct [112, 114, 117, 110, 97, 98, 108, 101, 95, 100, 97, 116, 97, 95, 116, 121, 112, 101, 58, 58, 102, 117, 108, 108]),
    (.vec (.variant [(.leaf .checksum256), (.leaf .bytes)])),
    (.variant [(.leaf .checksum256), (.leaf .bytes)]),
    (.vec (.leaf .bytes)),
    (.opt (.struct [112, 114, 117, 110, 97, 98, 108, 101, 95, 100, 97, 116, 97, 95, 116, 121, 112, 101])),
    (.vec (.variant [(.struct [97, 99, 116, 105, 111, 110, 95, 116, 114, 97, 99, 101, 95, 118, 48]), (.struct [97, 99, 116, 105, 111, 110, 95, 116, 114, 97, 99, 101, 95, 118, 49])])),
    (.variant [(.struct [97, 99, 116, 105, 111, 110, 95, 116, 114, 97, 99, 101, 95, 118, 48]), (.struct [97, 99, 116, 105, 111, 110, 95, 116, 114, 97, 99, 101, 95, 118, 49])]),
    (.struct [97, 99, 116, 105, 111, 110, 95, 116, 114, 97, 99, 101, 95, 118, 48]),
    (.struct [97, 99, 116, 105, 111, 110, 95, 116, 114, 97, 99, 101, 95, 118, 49]),
    (.opt (.struct [97, 99, 99, 111, 117, 110, 116, 95, 100, 101, 108, 116, 97])),
    (.struct [97, 99, 99, 111, 117, 110, 116, 95, 100, 101, 108, 116, 97]),
    (.opt (.leaf .string)),
    (.leaf .string),
    (.opt (.leaf .uint64)),
    (.vec (.variant [(.struct [116, 114, 97, 110, 115, 97, 99, 116, 105, 111, 110, 95, 116, 114, 97, 99, 101, 95, 118, 48])])),
    (.variant [(.struct [116, 114, 97, 110, 115, 97, 99, 116, 105, 111, 110, 95, 116, 114, 97, 99, 101, 95, 118, 48])]),
    (.struct [116, 114, 97, 110, 115, 97, 99, 116, 105, 111, 110, 95, 116, 114, 97, 99, 101, 95, 118, 48]),
    (.opt (.variant [(.struct [112, 97, 114, 116, 105, 97, 108, 95, 116, 114, 97, 110, 115, 97, 99, 116, 105, 111, 110, 95, 118, 48]), (.struct [112, 97, 114, 116, 105, 97, 108, 95, 116, 114, 97, 110, 115, 97, 99, 116, 105, 111, 110, 95, 118, 49])])),
    (.variant [(.struct [112, 97, 114, 116, 105, 97, 108, 95, 116, 114, 97, 110, 115, 97, 99, 116, 105, 111, 110, 95, 118, 48]), (.struct [112, 97, 114, 116, 105, 97, 108, 95, 116, 114, 97, 110, 115, 97, 99, 116, 105, 111, 110, 95, 118, 49])]),
    (.struct [112, 97, 114, 116, 105, 97, 108, 95, 116, 114, 97, 110, 115, 97, 99, 116, 105, 111, 110, 95, 118, 48]),
    (.struct [112, 97, 114, 116, 105, 97, 108, 95, 116, 114, 97, 110, 115, 97, 99, 116, 105, 111, 110, 95, 118, 49]),
    (.vec (.struct [112, 114, 111, 100, 117, 99, 101, 114, 95, 107, 101, 121])),
    (.struct [112, 114, 111, 100, 117, 99, 101, 114, 95, 107, 101, 121]),
    (.vec (.leaf .signature)),
    (.struct [112, 114, 117, 110, 97, 98, 108, 101, 95, 100, 97, 116, 97, 95, 116, 121, 112, 101]),
    (.variant [(.leaf .checksum256), (.struct [112, 97, 99, 107, 101, 100, 95, 116, 114, 97, 110, 115, 97, 99, 116, 105, 111, 110, 95, 118, 48])]),
    (.struct [112, 97, 99, 107, 101, 100, 95, 116, 114, 97, 110, 115, 97, 99, 116, 105, 111, 110, 95, 118, 48]),
    (.variant [(.leaf .checksum256), (.struct [112, 97, 99, 107, 101, 100, 95, 116, 114, 97, 110, 115, 97, 99, 116, 105, 111, 110])]),
    (.struct [112, 97, 99, 107, 101, 100, 95, 116, 114, 97, 110, 115, 97, 99, 116, 105, 111, 110]),
    (.vec (.struct [116, 114, 97, 110, 115, 97, 99, 116, 105, 111, 110, 95, 114, 101, 99, 101, 105, 112, 116, 95, 118, 48])),
    (.struct [116, 114, 97, 110, 115, 97, 99, 116, 105, 111, 110, 95, 114, 101, 99, 101, 105, 112, 116, 95, 118, 48]),
    (.opt (.struct [112, 114, 111, 100, 117, 99, 101, 114, 95, 115, 99, 104, 101, 100, 117, 108, 101])),
    (.leaf .signature),
    (.vec (.struct [116, 114, 97, 110, 115, 97, 99, 116, 105, 111, 110, 95, 114, 101, 99, 101, 105, 112, 116])),
    (.struct [116, 114, 97, 110, 115, 97, 99, 116, 105, 111, 110, 95, 114, 101, 99, 101, 105, 112, 116]),
    (.opt (.struct [98, 108, 111, 99, 107, 95, 112, 111, 115, 105, 116, 105, 111, 110])),
    (.struct [98, 108, 111, 99, 107, 95, 112, 111, 115, 105, 116, 105, 111, 110]),
    (.opt (.variant [(.struct [115, 105, 103, 110, 101, 100, 95, 98, 108, 111, 99, 107, 95, 118, 48]), (.struct [115, 105, 103, 110, 101, 100, 95, 98, 108, 111, 99, 107, 95, 118, 49])])),
    (.variant [(.struct [115, 105, 103, 110, 101, 100, 95, 98, 108, 111, 99, 107, 95, 118, 48]), (.struct [115, 105, 103, 110, 101, 100, 95, 98, 108, 111, 99, 107, 95, 118, 49])]),
    (.struct [115, 105, 103, 110, 101, 100, 95, 98, 108, 111, 99, 107, 95, 118, 48]),
    (.struct [115, 105, 103, 110, 101, 100, 95, 98, 108, 111, 99, 107, 95, 118, 49]),
    (.leaf .time_point_sec),
    (.leaf .varuint32),
    (.vec (.struct [97, 99, 116, 105, 111, 110])),
    (.struct [97, 99, 116, 105, 111, 110]),
    (.vec (.struct [101, 120, 116, 101, 110, 115, 105, 111, 110])),
    (.struct [101, 120, 116, 101, 110, 115, 105, 111, 110]),
    (.leaf .block_timestamp),
    (.leaf .bool),
    (.opt (.struct [99, 111, 100, 101, 95, 105, 100])),
    (.struct [99, 111, 100, 101, 95, 105, 100]),
    (.leaf .uint8),
    (.leaf .float64),
    (.leaf .float128),
    (.leaf .public_key),
    (.variant [(.struct [98, 108, 111, 99, 107, 95, 115, 105, 103, 110, 105, 110, 103, 95, 97, 117, 116, 104, 111, 114, 105, 116, 121, 95, 118, 48])]),
    (.struct [98, 108, 111, 99, 107, 95, 115, 105, 103, 110, 105, 110, 103, 95, 97, 117, 116, 104, 111, 114, 105, 116, 121, 95, 118, 48]),
    (.vec (.struct [112, 114, 111, 100, 117, 99, 101, 114, 95, 97, 117, 116, 104, 111, 114, 105, 116, 121])),
    (.struct [112, 114, 111, 100, 117, 99, 101, 114, 95, 97, 117, 116, 104, 111, 114, 105, 116, 121]),
    (.struct [112, 114, 111, 100, 117, 99, 101, 114, 95, 115, 99, 104, 101, 100, 117, 108, 101]),
    (.opt (.leaf .uint32)),
    (.struct [112, 114, 111, 100, 117, 99, 101, 114, 95, 97, 117, 116, 104, 111, 114, 105, 116, 121, 95, 115, 99, 104, 101, 100, 117, 108, 101]),
    (.variant [(.struct [99, 104, 97, 105, 110, 95, 99, 111, 110, 102, 105, 103, 95, 118, 48])]),
    (.struct [99, 104, 97, 105, 110, 95, 99, 111, 110, 102, 105, 103, 95, 118, 48]),
    (.leaf .uint128),
    (.leaf .bytes),
    (.leaf .checksum256),
    (.vec (.variant [(.struct [97, 99, 116, 105, 118, 97, 116, 101, 100, 95, 112, 114, 111, 116, 111, 99, 111, 108, 95, 102, 101, 97, 116, 117, 114, 101, 95, 118, 48])])),
    (.variant [(.struct [97, 99, 116, 105, 118, 97, 116, 101, 100, 95, 112, 114, 111, 116, 111, 99, 111, 108, 95, 102, 101, 97, 116, 117, 114, 101, 95, 118, 48])]),
    (.struct [97, 99, 116, 105, 118, 97, 116, 101, 100, 95, 112, 114, 111, 116, 111, 99, 111, 108, 95, 102, 101, 97, 116, 117, 114, 101, 95, 118, 48]),
    (.struct [112, 101, 114, 109, 105, 115, 115, 105, 111, 110, 95, 108, 101, 118, 101, 108]),
    (.leaf .uint16),
    (.vec (.struct [107, 101, 121, 95, 119, 101, 105, 103, 104, 116])),
    (.struct [107, 101, 121, 95, 119, 101, 105, 103, 104, 116]),
    (.vec (.struct [112, 101, 114, 109, 105, 115, 115, 105, 111, 110, 95, 108, 101, 118, 101, 108, 95, 119, 101, 105, 103, 104, 116])),
    (.struct [112, 101, 114, 109, 105, 115, 115, 105, 111, 110, 95, 108, 101, 118, 101, 108, 95, 119, 101, 105, 103, 104, 116]),
    (.vec (.struct [119, 97, 105, 116, 95, 119, 101, 105, 103, 104, 116])),
    (.struct [119, 97, 105, 116, 95, 119, 101, 105, 103, 104, 116]),
    (.leaf .time_point),
    (.struct [97, 117, 116, 104, 111, 114, 105, 116, 121]),
    (.leaf .int64),
    (.leaf .name),
    (.variant [(.struct [117, 115, 97, 103, 101, 95, 97, 99, 99, 117, 109, 117, 108, 97, 116, 111, 114, 95, 118, 48])]),
    (.struct [117, 115, 97, 103, 101, 95, 97, 99, 99, 117, 109, 117, 108, 97, 116, 111, 114, 95, 118, 48]),
    (.leaf .uint64),
    (.variant [(.struct [114, 101, 115, 111, 117, 114, 99, 101, 95, 108, 105, 109, 105, 116, 115, 95, 114, 97, 116, 105, 111, 95, 118, 48])]),
    (.struct [114, 101, 115, 111, 117, 114, 99, 101, 95, 108, 105, 109, 105, 116, 115, 95, 114, 97, 116, 105, 111, 95, 118, 48]),
    (.variant [(.struct [101, 108, 97, 115, 116, 105, 99, 95, 108, 105, 109, 105, 116, 95, 112, 97, 114, 97, 109, 101, 116, 101, 114, 115, 95, 118, 48])]),
    (.struct [101, 108, 97, 115, 116, 105, 99, 95, 108, 105, 109, 105, 116, 95, 112, 97, 114, 97, 109, 101, 116, 101, 114, 115, 95, 118, 48]),
    (.leaf .uint32)]

/-- `prog`, evaluated -/
def progLit : Prog :=
  [([101, 120, 116, 101, 110, 115, 105, 111, 110], [([116, 121, 112, 101], (.leaf .uint16)), ([100, 97, 116, 97], (.leaf .bytes))]),
    ([103, 101, 116, 95, 115, 116, 97, 116, 117, 115, 95, 114, 101, 113, 117, 101, 115, 116, 95, 118, 48], []),
    ([98, 108, 111, 99, 107, 95, 112, 111, 115, 105, 116, 105, 111, 110], [([98, 108, 111, 99, 107, 95, 110, 117, 109], (.leaf .uint32)), ([98, 108, 111, 99, 107, 95, 105, 100], (.leaf .checksum256))]),
    ([103, 101, 116, 95, 115, 116, 97, 116, 117, 115, 95, 114, 101, 115, 117, 108, 116, 95, 118, 48], [([104, 101, 97, 100], (.struct [98, 108, 111, 99, 107, 95, 112, 111, 115, 105, 116, 105, 111, 110])), ([108, 97, 115, 116, 95, 105, 114, 114, 101, 118, 101, 114, 115, 105, 98, 108, 101], (.struct [98, 108, 111, 99, 107, 95, 112, 111, 115, 105, 116, 105, 111, 110])), ([116, 114, 97, 99, 101, 95, 98, 101, 103, 105, 110, 95, 98, 108, 111, 99, 107], (.leaf .uint32)), ([116, 114, 97, 99, 101, 95, 101, 110, 100, 95, 98, 108, 111, 99, 107], (.leaf .uint32)), ([99, 104, 97, 105, 110, 95, 115, 116, 97, 116, 101, 95, 98, 101, 103, 105, 110, 95, 98, 108, 111, 99, 107], (.leaf .uint32)), ([99, 104, 97, 105, 110, 95, 115, 116, 97, 116, 101, 95, 101, 110, 100, 95, 98, 108, 111, 99, 107], (.leaf .uint32)), ([99, 104, 97, 105, 110, 95, 105, 100], (.leaf .checksum256))]),
    ([103, 101, 116, 95, 98, 108, 111, 99, 107, 115, 95, 114, 101, 113, 117, 101, 115, 116, 95, 118, 48], [([115, 116, 97, 114, 116, 95, 98, 108, 111, 99, 107, 95, 110, 117, 109], (.leaf .uint32)), ([101, 110, 100, 95, 98, 108, 111, 99, 107, 95, 110, 117, 109], (.leaf .uint32)), ([109, 97, 120, 95, 109, 101, 115, 115, 97, 103, 101, 115, 95, 105, 110, 95, 102, 108, 105, 103, 104, 116], (.leaf .uint32)), ([104, 97, 118, 101, 95, 112, 111, 115, 105, 116, 105, 111, 110, 115], (.vec (.struct [98, 108, 111, 99, 107, 95, 112, 111, 115, 105, 116, 105, 111, 110]))), ([105, 114, 114, 101, 118, 101, 114, 115, 105, 98, 108, 101, 95, 111, 110, 108, 121], (.leaf .bool)), ([102, 101, 116, 99, 104, 95, 98, 108, 111, 99, 107], (.leaf .bool)), ([102, 101, 116, 99, 104, 95, 116, 114, 97, 99, 101, 115], (.leaf .bool)), ([102, 101, 116, 99, 104, 95, 100, 101, 108, 116, 97, 115], (.leaf .bool))]),
    ([103, 101, 116, 95, 98, 108, 111, 99, 107, 115, 95, 97, 99, 107, 95, 114, 101, 113, 117, 101, 115, 116, 95, 118, 48], [([110, 117, 109, 95, 109, 101, 115, 115, 97, 103, 101, 115], (.leaf .uint32))]),
    ([103, 101, 116, 95, 98, 108, 111, 99, 107, 115, 95, 114, 101, 115, 117, 108, 116, 95, 98, 97, 115, 101], [([104, 101, 97, 100], (.struct [98, 108, 111, 99, 107, 95, 112, 111, 115, 105, 116, 105, 111, 110])), ([108, 97, 115, 116, 95, 105, 114, 114, 101, 118, 101, 114, 115, 105, 98, 108, 101], (.struct [98, 108, 111, 99, 107, 95, 112, 111, 115, 105, 116, 105, 111, 110])), ([116, 104, 105, 115, 95, 98, 108, 111, 99, 107], (.opt (.struct [98, 108, 111, 99, 107, 95, 112, 111, 115, 105, 116, 105, 111, 110]))), ([112, 114, 101, 118, 95, 98, 108, 111, 99, 107], (.opt (.struct [98, 108, 111, 99, 107, 95, 112, 111, 115, 105, 116, 105, 111, 110])))]),
    ([103, 101, 116, 95, 98, 108, 111, 99, 107, 115, 95, 114, 101, 115, 117, 108, 116, 95, 118, 48], [([104, 101, 97, 100], (.struct [98, 108, 111, 99, 107, 95, 112, 111, 115, 105, 116, 105, 111, 110])), ([108, 97, 115, 116, 95, 105, 114, 114, 101, 118, 101, 114, 115, 105, 98, 108, 101], (.struct [98, 108, 111, 99, 107, 95, 112, 111, 115, 105, 116, 105, 111, 110])), ([116, 104, 105, 115, 95, 98, 108, 111, 99, 107], (.opt (.struct [98, 108, 111, 99, 107, 95, 112, 111, 115, 105, 116, 105, 111, 110]))), ([112, 114, 101, 118, 95, 98, 108, 111, 99, 107], (.opt (.struct [98, 108, 111, 99, 107, 95, 112, 111, 115, 105, 116, 105, 111, 110]))), ([98, 108, 111, 99, 107], (.opt (.leaf .bytes))), ([116, 114, 97, 99, 101, 115], (.opt (.leaf .bytes))), ([100, 101, 108, 116, 97, 115], (.opt (.leaf .bytes)))]),
    ([114, 111, 119], [([112, 114, 101, 115, 101, 110, 116], (.leaf .bool)), ([100, 97, 116, 97], (.leaf .bytes))]),
    ([116, 97, 98, 108, 101, 95, 100, 101, 108, 116, 97, 95, 118, 48], [([110, 97, 109, 101], (.leaf .string)), ([114, 111, 119, 115], (.vec (.struct [114, 111, 119])))]),
    ([112, 101, 114, 109, 105, 115, 115, 105, 111, 110, 95, 108, 101, 118, 101, 108], [([97, 99, 116, 111, 114], (.leaf .name)), ([112, 101, 114, 109, 105, 115, 115, 105, 111, 110], (.leaf .name))]),
    ([97, 99, 116, 105, 111, 110], [([97, 99, 99, 111, 117, 110, 116], (.leaf .name)), ([110, 97, 109, 101], (.leaf .name)), ([97, 117, 116, 104, 111, 114, 105, 122, 97, 116, 105, 111, 110], (.vec (.struct [112, 101, 114, 109, 105, 115, 115, 105, 111, 110, 95, 108, 101, 118, 101, 108]))), ([100, 97, 116, 97], (.leaf .bytes))]),
    ([97, 99, 99, 111, 117, 110, 116, 95, 97, 117, 116, 104, 95, 115, 101, 113, 117, 101, 110, 99, 101], [([97, 99, 99, 111, 117, 110, 116], (.leaf .name)), ([115, 101, 113, 117, 101, 110, 99, 101], (.leaf .uint64))]),
    ([97, 99, 116, 105, 111, 110, 95, 114, 101, 99, 101, 105, 112, 116, 95, 118, 48], [([114, 101, 99, 101, 105, 118, 101, 114], (.leaf .name)), ([97, 99, 116, 95, 100, 105, 103, 101, 115, 116], (.leaf .checksum256)), ([103, 108, 111, 98, 97, 108, 95, 115, 101, 113, 117, 101, 110, 99, 101], (.leaf .uint64)), ([114, 101, 99, 118, 95, 115, 101, 113, 117, 101, 110, 99, 101], (.leaf .uint64)), ([97, 117, 116, 104, 95, 115, 101, 113, 117, 101, 110, 99, 101], (.vec (.struct [97, 99, 99, 111, 117, 110, 116, 95, 97, 117, 116, 104, 95, 115, 101, 113, 117, 101, 110, 99, 101]))), ([99, 111, 100, 101, 95, 115, 101, 113, 117, 101, 110, 99, 101], (.leaf .varuint32)), ([97, 98, 105, 95, 115, 101, 113, 117, 101, 110, 99, 101], (.leaf .varuint32))]),
    ([97, 99, 99, 111, 117, 110, 116, 95, 100, 101, 108, 116, 97], [([97, 99, 99, 111, 117, 110, 116], (.leaf .name)), ([100, 101, 108, 116, 97], (.leaf .int64))]),
    ([97, 99, 116, 105, 111, 110, 95, 116, 114, 97, 99, 101, 95, 118, 48], [([97, 99, 116, 105, 111, 110, 95, 111, 114, 100, 105, 110, 97, 108], (.leaf .varuint32)), ([99, 114, 101, 97, 116, 111, 114, 95, 97, 99, 116, 105, 111, 110, 95, 111, 114, 100, 105, 110, 97, 108], (.leaf .varuint32)), ([114, 101, 99, 101, 105, 112, 116], (.opt (.variant [(.struct [97, 99, 116, 105, 111, 110, 95, 114, 101, 99, 101, 105, 112, 116, 95, 118, 48])]))), ([114, 101, 99, 101, 105, 118, 101, 114], (.leaf .name)), ([97, 99, 116], (.struct [97, 99, 116, 105, 111, 110])), ([99, 111, 110, 116, 101, 120, 116, 95, 102, 114, 101, 101], (.leaf .bool)), ([101, 108, 97, 112, 115, 101, 100], (.leaf .int64)), ([99, 111, 110, 115, 111, 108, 101], (.leaf .string)), ([97, 99, 99, 111, 117, 110, 116, 95, 114, 97, 109, 95, 100, 101, 108, 116, 97, 115], (.vec (.struct [97, 99, 99, 111, 117, 110, 116, 95, 100, 101, 108, 116, 97]))), ([101, 120, 99, 101, 112, 116], (.opt (.leaf .string))), ([101, 114, 114, 111, 114, 95, 99, 111, 100, 101], (.opt (.leaf .uint64)))]),
    ([97, 99, 116, 105, 111, 110, 95, 116, 114, 97, 99, 101, 95, 118, 49], [([97, 99, 116, 105, 111, 110, 95, 111, 114, 100, 105, 110, 97, 108], (.leaf .varuint32)), ([99, 114, 101, 97, 116, 111, 114, 95, 97, 99, 116, 105, 111, 110, 95, 111, 114, 100, 105, 110, 97, 108], (.leaf .varuint32)), ([114, 101, 99, 101, 105, 112, 116], (.opt (.variant [(.struct [97, 99, 116, 105, 111, 110, 95, 114, 101, 99, 101, 105, 112, 116, 95, 118, 48])]))), ([114, 101, 99, 101, 105, 118, 101, 114], (.leaf .name)), ([97, 99, 116], (.struct [97, 99, 116, 105, 111, 110])), ([99, 111, 110, 116, 101, 120, 116, 95, 102, 114, 101, 101], (.leaf .bool)), ([101, 108, 97, 112, 115, 101, 100], (.leaf .int64)), ([99, 111, 110, 115, 111, 108, 101], (.leaf .string)), ([97, 99, 99, 111, 117, 110, 116, 95, 114, 97, 109, 95, 100, 101, 108, 116, 97, 115], (.vec (.struct [97, 99, 99, 111, 117, 110, 116, 95, 100, 101, 108, 116, 97]))), ([97, 99, 99, 111, 117, 110, 116, 95, 100, 105, 115, 107, 95, 100, 101, 108, 116, 97, 115], (.vec (.struct [97, 99, 99, 111, 117, 110, 116, 95, 100, 101, 108, 116, 97]))), ([101, 120, 99, 101, 112, 116], (.opt (.leaf .string))), ([101, 114, 114, 111, 114, 95, 99, 111, 100, 101], (.opt (.leaf .uint64))), ([114, 101, 116, 117, 114, 110, 95, 118, 97, 108, 117, 101], (.leaf .bytes))]),
    ([112, 114, 117, 110, 97, 98, 108, 101, 95, 100, 97, 116, 97, 95, 116, 121, 112, 101], [([112, 114, 117, 110, 97, 98, 108, 101, 95, 100, 97, 116, 97], (.variant [(.struct [112, 114, 117, 110, 97, 98, 108, 101, 95, 100, 97, 116, 97, 95, 116, 121, 112, 101, 58, 58, 102, 117, 108, 108, 95, 108, 101, 103, 97, 99, 121]), (.struct [112, 114, 117, 110, 97, 98, 108, 101, 95, 100, 97, 116, 97, 95, 116, 121, 112, 101, 58, 58, 110, 111, 110, 101]), (.struct [112, 114, 117, 110, 97, 98, 108, 101, 95, 100, 97, 116, 97, 95, 116, 121, 112, 101, 58, 58, 112, 97, 114, 116, 105, 97, 108]), (.struct [112, 114, 117, 110, 97, 98, 108, 101, 95, 100, 97, 116, 97, 95, 116, 121, 112, 101, 58, 58, 102, 117, 108, 108])]))]),
    ([112, 114, 117, 110, 97, 98, 108, 101, 95, 100, 97, 116, 97, 95, 116, 121, 112, 101, 58, 58, 110, 111, 110, 101], [([112, 114, 117, 110, 97, 98, 108, 101, 95, 100, 105, 103, 101, 115, 116], (.leaf .checksum256))]),
    ([112, 114, 117, 110, 97, 98, 108, 101, 95, 100, 97, 116, 97, 95, 116, 121, 112, 101, 58, 58, 112, 97, 114, 116, 105, 97, 108], [([115, 105, 103, 110, 97, 116, 117, 114, 101, 115], (.vec (.leaf .signature))), ([99, 111, 110, 116, 101, 120, 116, 95, 102, 114, 101, 101, 95, 115, 101, 103, 109, 101, 110, 116, 115], (.vec (.variant [(.leaf .checksum256), (.leaf .bytes)])))]),
    ([112, 114, 117, 110, 97, 98, 108, 101, 95, 100, 97, 116, 97, 95, 116, 121, 112, 101, 58, 58, 102, 117, 108, 108], [([115, 105, 103, 110, 97, 116, 117, 114, 101, 115], (.vec (.leaf .signature))), ([99, 111, 110, 116, 101, 120, 116, 95, 102, 114, 101, 101, 95, 115, 101, 103, 109, 101, 110, 116, 115], (.vec (.leaf .bytes)))]),
    ([112, 114, 117, 110, 97, 98, 108, 101, 95, 100, 97, 116, 97, 95, 116, 121, 112, 101, 58, 58, 102, 117, 108, 108, 95, 108, 101, 103, 97, 99, 121], [([115, 105, 103, 110, 97, 116, 117, 114, 101, 115], (.vec (.leaf .signature))), ([112, 97, 99, 107, 101, 100, 95, 99, 111, 110, 116, 101, 120, 116, 95, 102, 114, 101, 101, 95, 100, 97, 116, 97], (.leaf .bytes))]),
    ([112, 97, 114, 116, 105, 97, 108, 95, 116, 114, 97, 110, 115, 97, 99, 116, 105, 111, 110, 95, 118, 48], [([101, 120, 112, 105, 114, 97, 116, 105, 111, 110], (.leaf .time_point_sec)), ([114, 101, 102, 95, 98, 108, 111, 99, 107, 95, 110, 117, 109], (.leaf .uint16)), ([114, 101, 102, 95, 98, 108, 111, 99, 107, 95, 112, 114, 101, 102, 105, 120], (.leaf .uint32)), ([109, 97, 120, 95, 110, 101, 116, 95, 117, 115, 97, 103, 101, 95, 119, 111, 114, 100, 115], (.leaf .varuint32)), ([109, 97, 120, 95, 99, 112, 117, 95, 117, 115, 97, 103, 101, 95, 109, 115], (.leaf .uint8)), ([100, 101, 108, 97, 121, 95, 115, 101, 99], (.leaf .varuint32)), ([116, 114, 97, 110, 115, 97, 99, 116, 105, 111, 110, 95, 101, 120, 116, 101, 110, 115, 105, 111, 110, 115], (.vec (.struct [101, 120, 116, 101, 110, 115, 105, 111, 110]))), ([115, 105, 103, 110, 97, 116, 117, 114, 101, 115], (.vec (.leaf .signature))), ([99, 111, 110, 116, 101, 120, 116, 95, 102, 114, 101, 101, 95, 100, 97, 116, 97], (.vec (.leaf .bytes)))]),
    ([112, 97, 114, 116, 105, 97, 108, 95, 116, 114, 97, 110, 115, 97, 99, 116, 105, 111, 110, 95, 118, 49], [([101, 120, 112, 105, 114, 97, 116, 105, 111, 110], (.leaf .time_point_sec)), ([114, 101, 102, 95, 98, 108, 111, 99, 107, 95, 110, 117, 109], (.leaf .uint16)), ([114, 101, 102, 95, 98, 108, 111, 99, 107, 95, 112, 114, 101, 102, 105, 120], (.leaf .uint32)), ([109, 97, 120, 95, 110, 101, 116, 95, 117, 115, 97, 103, 101, 95, 119, 111, 114, 100, 115], (.leaf .varuint32)), ([109, 97, 120, 95, 99, 112, 117, 95, 117, 115, 97, 103, 101, 95, 109, 115], (.leaf .uint8)), ([100, 101, 108, 97, 121, 95, 115, 101, 99], (.leaf .varuint32)), ([116, 114, 97, 110, 115, 97, 99, 116, 105, 111, 110, 95, 101, 120, 116, 101, 110, 115, 105, 111, 110, 115], (.vec (.struct [101, 120, 116, 101, 110, 115, 105, 111, 110]))), ([112, 114, 117, 110, 97, 98, 108, 101, 95, 100, 97, 116, 97], (.opt (.struct [112, 114, 117, 110, 97, 98, 108, 101, 95, 100, 97, 116, 97, 95, 116, 121, 112, 101])))]),
    ([116, 114, 97, 110, 115, 97, 99, 116, 105, 111, 110, 95, 116, 114, 97, 99, 101, 95, 118, 48], [([105, 100], (.leaf .checksum256)), ([115, 116, 97, 116, 117, 115], (.leaf .uint8)), ([99, 112, 117, 95, 117, 115, 97, 103, 101, 95, 117, 115], (.leaf .uint32)), ([110, 101, 116, 95, 117, 115, 97, 103, 101, 95, 119, 111, 114, 100, 115], (.leaf .varuint32)), ([101, 108, 97, 112, 115, 101, 100], (.leaf .int64)), ([110, 101, 116, 95, 117, 115, 97, 103, 101], (.leaf .uint64)), ([115, 99, 104, 101, 100, 117, 108, 101, 100], (.leaf .bool)), ([97, 99, 116, 105, 111, 110, 95, 116, 114, 97, 99, 101, 115], (.vec (.variant [(.struct [97, 99, 116, 105, 111, 110, 95, 116, 114, 97, 99, 101, 95, 118, 48]), (.struct [97, 99, 116, 105, 111, 110, 95, 116, 114, 97, 99, 101, 95, 118, 49])]))), ([97, 99, 99, 111, 117, 110, 116, 95, 114, 97, 109, 95, 100, 101, 108, 116, 97], (.opt (.struct [97, 99, 99, 111, 117, 110, 116, 95, 100, 101, 108, 116, 97]))), ([101, 120, 99, 101, 112, 116], (.opt (.leaf .string))), ([101, 114, 114, 111, 114, 95, 99, 111, 100, 101], (.opt (.leaf .uint64))), ([102, 97, 105, 108, 101, 100, 95, 100, 116, 114, 120, 95, 116, 114, 97, 99, 101], (.vec (.variant [(.struct [116, 114, 97, 110, 115, 97, 99, 116, 105, 111, 110, 95, 116, 114, 97, 99, 101, 95, 118, 48])]))), ([112, 97, 114, 116, 105, 97, 108], (.opt (.variant [(.struct [112, 97, 114, 116, 105, 97, 108, 95, 116, 114, 97, 110, 115, 97, 99, 116, 105, 111, 110, 95, 118, 48]), (.struct [112, 97, 114, 116, 105, 97, 108, 95, 116, 114, 97, 110, 115, 97, 99, 116, 105, 111, 110, 95, 118, 49])])))]),
    ([112, 114, 111, 100, 117, 99, 101, 114, 95, 107, 101, 121], [([112, 114, 111, 100, 117, 99, 101, 114, 95, 110, 97, 109, 101], (.leaf .name)), ([98, 108, 111, 99, 107, 95, 115, 105, 103, 110, 105, 110, 103, 95, 107, 101, 121], (.leaf .public_key))]),
    ([112, 114, 111, 100, 117, 99, 101, 114, 95, 115, 99, 104, 101, 100, 117, 108, 101], [([118, 101, 114, 115, 105, 111, 110], (.leaf .uint32)), ([112, 114, 111, 100, 117, 99, 101, 114, 115], (.vec (.struct [112, 114, 111, 100, 117, 99, 101, 114, 95, 107, 101, 121])))]),
    ([116, 114, 97, 110, 115, 97, 99, 116, 105, 111, 110, 95, 114, 101, 99, 101, 105, 112, 116, 95, 104, 101, 97, 100, 101, 114], [([115, 116, 97, 116, 117, 115], (.leaf .uint8)), ([99, 112, 117, 95, 117, 115, 97, 103, 101, 95, 117, 115], (.leaf .uint32)), ([110, 101, 116, 95, 117, 115, 97, 103, 101, 95, 119, 111, 114, 100, 115], (.leaf .varuint32))]),
    ([112, 97, 99, 107, 101, 100, 95, 116, 114, 97, 110, 115, 97, 99, 116, 105, 111, 110, 95, 118, 48], [([115, 105, 103, 110, 97, 116, 117, 114, 101, 115], (.vec (.leaf .signature))), ([99, 111, 109, 112, 114, 101, 115, 115, 105, 111, 110], (.leaf .uint8)), ([112, 97, 99, 107, 101, 100, 95, 99, 111, 110, 116, 101, 120, 116, 95, 102, 114, 101, 101, 95, 100, 97, 116, 97], (.leaf .bytes)), ([112, 97, 99, 107, 101, 100, 95, 116, 114, 120], (.leaf .bytes))]),
    ([112, 97, 99, 107, 101, 100, 95, 116, 114, 97, 110, 115, 97, 99, 116, 105, 111, 110], [([99, 111, 109, 112, 114, 101, 115, 115, 105, 111, 110], (.leaf .uint8)), ([112, 114, 117, 110, 97, 98, 108, 101, 95, 100, 97, 116, 97], (.struct [112, 114, 117, 110, 97, 98, 108, 101, 95, 100, 97, 116, 97, 95, 116, 121, 112, 101])), ([112, 97, 99, 107, 101, 100, 95, 116, 114, 120], (.leaf .bytes))]),
    ([116, 114, 97, 110, 115, 97, 99, 116, 105, 111, 110, 95, 114, 101, 99, 101, 105, 112, 116, 95, 118, 48], [([115, 116, 97, 116, 117, 115], (.leaf .uint8)), ([99, 112, 117, 95, 117, 115, 97, 103, 101, 95, 117, 115], (.leaf .uint32)), ([110, 101, 116, 95, 117, 115, 97, 103, 101, 95, 119, 111, 114, 100, 115], (.leaf .varuint32)), ([116, 114, 120], (.variant [(.leaf .checksum256), (.struct [112, 97, 99, 107, 101, 100, 95, 116, 114, 97, 110, 115, 97, 99, 116, 105, 111, 110, 95, 118, 48])]))]),
    ([116, 114, 97, 110, 115, 97, 99, 116, 105, 111, 110, 95, 114, 101, 99, 101, 105, 112, 116], [([115, 116, 97, 116, 117, 115], (.leaf .uint8)), ([99, 112, 117, 95, 117, 115, 97, 103, 101, 95, 117, 115], (.leaf .uint32)), ([110, 101, 116, 95, 117, 115, 97, 103, 101, 95, 119, 111, 114, 100, 115], (.leaf .varuint32)), ([116, 114, 120], (.variant [(.leaf .checksum256), (.struct [112, 97, 99, 107, 101, 100, 95, 116, 114, 97, 110, 115, 97, 99, 116, 105, 111, 110])]))]),
    ([98, 108, 111, 99, 107, 95, 104, 101, 97, 100, 101, 114], [([116, 105, 109, 101, 115, 116, 97, 109, 112], (.leaf .block_timestamp)), ([112, 114, 111, 100, 117, 99, 101, 114], (.leaf .name)), ([99, 111, 110, 102, 105, 114, 109, 101, 100], (.leaf .uint16)), ([112, 114, 101, 118, 105, 111, 117, 115], (.leaf .checksum256)), ([116, 114, 97, 110, 115, 97, 99, 116, 105, 111, 110, 95, 109, 114, 111, 111, 116], (.leaf .checksum256)), ([97, 99, 116, 105, 111, 110, 95, 109, 114, 111, 111, 116], (.leaf .checksum256)), ([115, 99, 104, 101, 100, 117, 108, 101, 95, 118, 101, 114, 115, 105, 111, 110], (.leaf .uint32)), ([110, 101, 119, 95, 112, 114, 111, 100, 117, 99, 101, 114, 115], (.opt (.struct [112, 114, 111, 100, 117, 99, 101, 114, 95, 115, 99, 104, 101, 100, 117, 108, 101]))), ([104, 101, 97, 100, 101, 114, 95, 101, 120, 116, 101, 110, 115, 105, 111, 110, 115], (.vec (.struct [101, 120, 116, 101, 110, 115, 105, 111, 110])))]),
    ([115, 105, 103, 110, 101, 100, 95, 98, 108, 111, 99, 107, 95, 104, 101, 97, 100, 101, 114], [([116, 105, 109, 101, 115, 116, 97, 109, 112], (.leaf .block_timestamp)), ([112, 114, 111, 100, 117, 99, 101, 114], (.leaf .name)), ([99, 111, 110, 102, 105, 114, 109, 101, 100], (.leaf .uint16)), ([112, 114, 101, 118, 105, 111, 117, 115], (.leaf .checksum256)), ([116, 114, 97, 110, 115, 97, 99, 116, 105, 111, 110, 95, 109, 114, 111, 111, 116], (.leaf .checksum256)), ([97, 99, 116, 105, 111, 110, 95, 109, 114, 111, 111, 116], (.leaf .checksum256)), ([115, 99, 104, 101, 100, 117, 108, 101, 95, 118, 101, 114, 115, 105, 111, 110], (.leaf .uint32)), ([110, 101, 119, 95, 112, 114, 111, 100, 117, 99, 101, 114, 115], (.opt (.struct [112, 114, 111, 100, 117, 99, 101, 114, 95, 115, 99, 104, 101, 100, 117, 108, 101]))), ([104, 101, 97, 100, 101, 114, 95, 101, 120, 116, 101, 110, 115, 105, 111, 110, 115], (.vec (.struct [101, 120, 116, 101, 110, 115, 105, 111, 110]))), ([112, 114, 111, 100, 117, 99, 101, 114, 95, 115, 105, 103, 110, 97, 116, 117, 114, 101], (.leaf .signature))]),
    ([115, 105, 103, 110, 101, 100, 95, 98, 108, 111, 99, 107, 95, 118, 48], [([116, 105, 109, 101, 115, 116, 97, 109, 112], (.leaf .block_timestamp)), ([112, 114, 111, 100, 117, 99, 101, 114], (.leaf .name)), ([99, 111, 110, 102, 105, 114, 109, 101, 100], (.leaf .uint16)), ([112, 114, 101, 118, 105, 111, 117, 115], (.leaf .checksum256)), ([116, 114, 97, 110, 115, 97, 99, 116, 105, 111, 110, 95, 109, 114, 111, 111, 116], (.leaf .checksum256)), ([97, 99, 116, 105, 111, 110, 95, 109, 114, 111, 111, 116], (.leaf .checksum256)), ([115, 99, 104, 101, 100, 117, 108, 101, 95, 118, 101, 114, 115, 105, 111, 110], (.leaf .uint32)), ([110, 101, 119, 95, 112, 114, 111, 100, 117, 99, 101, 114, 115], (.opt (.struct [112, 114, 111, 100, 117, 99, 101, 114, 95, 115, 99, 104, 101, 100, 117, 108, 101]))), ([104, 101, 97, 100, 101, 114, 95, 101, 120, 116, 101, 110, 115, 105, 111, 110, 115], (.vec (.struct [101, 120, 116, 101, 110, 115, 105, 111, 110]))), ([112, 114, 111, 100, 117, 99, 101, 114, 95, 115, 105, 103, 110, 97, 116, 117, 114, 101], (.leaf .signature)), ([116, 114, 97, 110, 115, 97, 99, 116, 105, 111, 110, 115], (.vec (.struct [116, 114, 97, 110, 115, 97, 99, 116, 105, 111, 110, 95, 114, 101, 99, 101, 105, 112, 116, 95, 118, 48]))), ([98, 108, 111, 99, 107, 95, 101, 120, 116, 101, 110, 115, 105, 111, 110, 115], (.vec (.struct [101, 120, 116, 101, 110, 115, 105, 111, 110])))]),
    ([115, 105, 103, 110, 101, 100, 95, 98, 108, 111, 99, 107, 95, 118, 49], [([116, 105, 109, 101, 115, 116, 97, 109, 112], (.leaf .block_timestamp)), ([112, 114, 111, 100, 117, 99, 101, 114], (.leaf .name)), ([99, 111, 110, 102, 105, 114, 109, 101, 100], (.leaf .uint16)), ([112, 114, 101, 118, 105, 111, 117, 115], (.leaf .checksum256)), ([116, 114, 97, 110, 115, 97, 99, 116, 105, 111, 110, 95, 109, 114, 111, 111, 116], (.leaf .checksum256)), ([97, 99, 116, 105, 111, 110, 95, 109, 114, 111, 111, 116], (.leaf .checksum256)), ([115, 99, 104, 101, 100, 117, 108, 101, 95, 118, 101, 114, 115, 105, 111, 110], (.leaf .uint32)), ([110, 101, 119, 95, 112, 114, 111, 100, 117, 99, 101, 114, 115], (.opt (.struct [112, 114, 111, 100, 117, 99, 101, 114, 95, 115, 99, 104, 101, 100, 117, 108, 101]))), ([104, 101, 97, 100, 101, 114, 95, 101, 120, 116, 101, 110, 115, 105, 111, 110, 115], (.vec (.struct [101, 120, 116, 101, 110, 115, 105, 111, 110]))), ([112, 114, 111, 100, 117, 99, 101, 114, 95, 115, 105, 103, 110, 97, 116, 117, 114, 101], (.leaf .signature)), ([112, 114, 117, 110, 101, 95, 115, 116, 97, 116, 101], (.leaf .uint8)), ([116, 114, 97, 110, 115, 97, 99, 116, 105, 111, 110, 115], (.vec (.struct [116, 114, 97, 110, 115, 97, 99, 116, 105, 111, 110, 95, 114, 101, 99, 101, 105, 112, 116]))), ([98, 108, 111, 99, 107, 95, 101, 120, 116, 101, 110, 115, 105, 111, 110, 115], (.vec (.struct [101, 120, 116, 101, 110, 115, 105, 111, 110])))]),
    ([103, 101, 116, 95, 98, 108, 111, 99, 107, 115, 95, 114, 101, 115, 117, 108, 116, 95, 118, 49], [([104, 101, 97, 100], (.struct [98, 108, 111, 99, 107, 95, 112, 111, 115, 105, 116, 105, 111, 110])), ([108, 97, 115, 116, 95, 105, 114, 114, 101, 118, 101, 114, 115, 105, 98, 108, 101], (.struct [98, 108, 111, 99, 107, 95, 112, 111, 115, 105, 116, 105, 111, 110])), ([116, 104, 105, 115, 95, 98, 108, 111, 99, 107], (.opt (.struct [98, 108, 111, 99, 107, 95, 112, 111, 115, 105, 116, 105, 111, 110]))), ([112, 114, 101, 118, 95, 98, 108, 111, 99, 107], (.opt (.struct [98, 108, 111, 99, 107, 95, 112, 111, 115, 105, 116, 105, 111, 110]))), ([98, 108, 111, 99, 107], (.opt (.variant [(.struct [115, 105, 103, 110, 101, 100, 95, 98, 108, 111, 99, 107, 95, 118, 48]), (.struct [115, 105, 103, 110, 101, 100, 95, 98, 108, 111, 99, 107, 95, 118, 49])]))), ([116, 114, 97, 99, 101, 115], (.leaf .bytes)), ([100, 101, 108, 116, 97, 115], (.leaf .bytes))]),
    ([116, 114, 97, 110, 115, 97, 99, 116, 105, 111, 110, 95, 104, 101, 97, 100, 101, 114], [([101, 120, 112, 105, 114, 97, 116, 105, 111, 110], (.leaf .time_point_sec)), ([114, 101, 102, 95, 98, 108, 111, 99, 107, 95, 110, 117, 109], (.leaf .uint16)), ([114, 101, 102, 95, 98, 108, 111, 99, 107, 95, 112, 114, 101, 102, 105, 120], (.leaf .uint32)), ([109, 97, 120, 95, 110, 101, 116, 95, 117, 115, 97, 103, 101, 95, 119, 111, 114, 100, 115], (.leaf .varuint32)), ([109, 97, 120, 95, 99, 112, 117, 95, 117, 115, 97, 103, 101, 95, 109, 115], (.leaf .uint8)), ([100, 101, 108, 97, 121, 95, 115, 101, 99], (.leaf .varuint32))]),
    ([116, 114, 97, 110, 115, 97, 99, 116, 105, 111, 110], [([101, 120, 112, 105, 114, 97, 116, 105, 111, 110], (.leaf .time_point_sec)), ([114, 101, 102, 95, 98, 108, 111, 99, 107, 95, 110, 117, 109], (.leaf .uint16)), ([114, 101, 102, 95, 98, 108, 111, 99, 107, 95, 112, 114, 101, 102, 105, 120], (.leaf .uint32)), ([109, 97, 120, 95, 110, 101, 116, 95, 117, 115, 97, 103, 101, 95, 119, 111, 114, 100, 115], (.leaf .varuint32)), ([109, 97, 120, 95, 99, 112, 117, 95, 117, 115, 97, 103, 101, 95, 109, 115], (.leaf .uint8)), ([100, 101, 108, 97, 121, 95, 115, 101, 99], (.leaf .varuint32)), ([99, 111, 110, 116, 101, 120, 116, 95, 102, 114, 101, 101, 95, 97, 99, 116, 105, 111, 110, 115], (.vec (.struct [97, 99, 116, 105, 111, 110]))), ([97, 99, 116, 105, 111, 110, 115], (.vec (.struct [97, 99, 116, 105, 111, 110]))), ([116, 114, 97, 110, 115, 97, 99, 116, 105, 111, 110, 95, 101, 120, 116, 101, 110, 115, 105, 111, 110, 115], (.vec (.struct [101, 120, 116, 101, 110, 115, 105, 111, 110])))]),
    ([99, 111, 100, 101, 95, 105, 100], [([118, 109, 95, 116, 121, 112, 101], (.leaf .uint8)), ([118, 109, 95, 118, 101, 114, 115, 105, 111, 110], (.leaf .uint8)), ([99, 111, 100, 101, 95, 104, 97, 115, 104], (.leaf .checksum256))]),
    ([97, 99, 99, 111, 117, 110, 116, 95, 118, 48], [([110, 97, 109, 101], (.leaf .name)), ([99, 114, 101, 97, 116, 105, 111, 110, 95, 100, 97, 116, 101], (.leaf .block_timestamp)), ([97, 98, 105], (.leaf .bytes))]),
    ([97, 99, 99, 111, 117, 110, 116, 95, 109, 101, 116, 97, 100, 97, 116, 97, 95, 118, 48], [([110, 97, 109, 101], (.leaf .name)), ([112, 114, 105, 118, 105, 108, 101, 103, 101, 100], (.leaf .bool)), ([108, 97, 115, 116, 95, 99, 111, 100, 101, 95, 117, 112, 100, 97, 116, 101], (.leaf .time_point)), ([99, 111, 100, 101], (.opt (.struct [99, 111, 100, 101, 95, 105, 100])))]),
    ([99, 111, 100, 101, 95, 118, 48], [([118, 109, 95, 116, 121, 112, 101], (.leaf .uint8)), ([118, 109, 95, 118, 101, 114, 115, 105, 111, 110], (.leaf .uint8)), ([99, 111, 100, 101, 95, 104, 97, 115, 104], (.leaf .checksum256)), ([99, 111, 100, 101], (.leaf .bytes))]),
    ([99, 111, 110, 116, 114, 97, 99, 116, 95, 116, 97, 98, 108, 101, 95, 118, 48], [([99, 111, 100, 101], (.leaf .name)), ([115, 99, 111, 112, 101], (.leaf .name)), ([116, 97, 98, 108, 101], (.leaf .name)), ([112, 97, 121, 101, 114], (.leaf .name))]),
    ([99, 111, 110, 116, 114, 97, 99, 116, 95, 114, 111, 119, 95, 118, 48], [([99, 111, 100, 101], (.leaf .name)), ([115, 99, 111, 112, 101], (.leaf .name)), ([116, 97, 98, 108, 101], (.leaf .name)), ([112, 114, 105, 109, 97, 114, 121, 95, 107, 101, 121], (.leaf .uint64)), ([112, 97, 121, 101, 114], (.leaf .name)), ([118, 97, 108, 117, 101], (.leaf .bytes))]),
    ([99, 111, 110, 116, 114, 97, 99, 116, 95, 105, 110, 100, 101, 120, 54, 52, 95, 118, 48], [([99, 111, 100, 101], (.leaf .name)), ([115, 99, 111, 112, 101], (.leaf .name)), ([116, 97, 98, 108, 101], (.leaf .name)), ([112, 114, 105, 109, 97, 114, 121, 95, 107, 101, 121], (.leaf .uint64)), ([112, 97, 121, 101, 114], (.leaf .name)), ([115, 101, 99, 111, 110, 100, 97, 114, 121, 95, 107, 101, 121], (.leaf .uint64))]),
    ([99, 111, 110, 116, 114, 97, 99, 116, 95, 105, 110, 100, 101, 120, 49, 50, 56, 95, 118, 48], [([99, 111, 100, 101], (.leaf .name)), ([115, 99, 111, 112, 101], (.leaf .name)), ([116, 97, 98, 108, 101], (.leaf .name)), ([112, 114, 105, 109, 97, 114, 121, 95, 107, 101, 121], (.leaf .uint64)), ([112, 97, 121, 101, 114], (.leaf .name)), ([115, 101, 99, 111, 110, 100, 97, 114, 121, 95, 107, 101, 121], (.leaf .uint128))]),
    ([99, 111, 110, 116, 114, 97, 99, 116, 95, 105, 110, 100, 101, 120, 50, 53, 54, 95, 118, 48], [([99, 111, 100, 101], (.leaf .name)), ([115, 99, 111, 112, 101], (.leaf .name)), ([116, 97, 98, 108, 101], (.leaf .name)), ([112, 114, 105, 109, 97, 114, 121, 95, 107, 101, 121], (.leaf .uint64)), ([112, 97, 121, 101, 114], (.leaf .name)), ([115, 101, 99, 111, 110, 100, 97, 114, 121, 95, 107, 101, 121], (.leaf .checksum256))]),
    ([99, 111, 110, 116, 114, 97, 99, 116, 95, 105, 110, 100, 101, 120, 95, 100, 111, 117, 98, 108, 101, 95, 118, 48], [([99, 111, 100, 101], (.leaf .name)), ([115, 99, 111, 112, 101], (.leaf .name)), ([116, 97, 98, 108, 101], (.leaf .name)), ([112, 114, 105, 109, 97, 114, 121, 95, 107, 101, 121], (.leaf .uint64)), ([112, 97, 121, 101, 114], (.leaf .name)), ([115, 101, 99, 111, 110, 100, 97, 114, 121, 95, 107, 101, 121], (.leaf .float64))]),
    ([99, 111, 110, 116, 114, 97, 99, 116, 95, 105, 110, 100, 101, 120, 95, 108, 111, 110, 103, 95, 100, 111, 117, 98, 108, 101, 95, 118, 48], [([99, 111, 100, 101], (.leaf .name)), ([115, 99, 111, 112, 101], (.leaf .name)), ([116, 97, 98, 108, 101], (.leaf .name)), ([112, 114, 105, 109, 97, 114, 121, 95, 107, 101, 121], (.leaf .uint64)), ([112, 97, 121, 101, 114], (.leaf .name)), ([115, 101, 99, 111, 110, 100, 97, 114, 121, 95, 107, 101, 121], (.leaf .float128))]),
    ([107, 101, 121, 95, 118, 97, 108, 117, 101, 95, 118, 48], [([100, 97, 116, 97, 98, 97, 115, 101], (.leaf .name)), ([99, 111, 110, 116, 114, 97, 99, 116], (.leaf .name)), ([107, 101, 121], (.leaf .bytes)), ([118, 97, 108, 117, 101], (.leaf .bytes))]),
    ([107, 101, 121, 95, 119, 101, 105, 103, 104, 116], [([107, 101, 121], (.leaf .public_key)), ([119, 101, 105, 103, 104, 116], (.leaf .uint16))]),
    ([98, 108, 111, 99, 107, 95, 115, 105, 103, 110, 105, 110, 103, 95, 97, 117, 116, 104, 111, 114, 105, 116, 121, 95, 118, 48], [([116, 104, 114, 101, 115, 104, 111, 108, 100], (.leaf .uint32)), ([107, 101, 121, 115], (.vec (.struct [107, 101, 121, 95, 119, 101, 105, 103, 104, 116])))]),
    ([112, 114, 111, 100, 117, 99, 101, 114, 95, 97, 117, 116, 104, 111, 114, 105, 116, 121], [([112, 114, 111, 100, 117, 99, 101, 114, 95, 110, 97, 109, 101], (.leaf .name)), ([97, 117, 116, 104, 111, 114, 105, 116, 121], (.variant [(.struct [98, 108, 111, 99, 107, 95, 115, 105, 103, 110, 105, 110, 103, 95, 97, 117, 116, 104, 111, 114, 105, 116, 121, 95, 118, 48])]))]),
    ([112, 114, 111, 100, 117, 99, 101, 114, 95, 97, 117, 116, 104, 111, 114, 105, 116, 121, 95, 115, 99, 104, 101, 100, 117, 108, 101], [([118, 101, 114, 115, 105, 111, 110], (.leaf .uint32)), ([112, 114, 111, 100, 117, 99, 101, 114, 115], (.vec (.struct [112, 114, 111, 100, 117, 99, 101, 114, 95, 97, 117, 116, 104, 111, 114, 105, 116, 121])))]),
    ([99, 104, 97, 105, 110, 95, 99, 111, 110, 102, 105, 103, 95, 118, 48], [([109, 97, 120, 95, 98, 108, 111, 99, 107, 95, 110, 101, 116, 95, 117, 115, 97, 103, 101], (.leaf .uint64)), ([116, 97, 114, 103, 101, 116, 95, 98, 108, 111, 99, 107, 95, 110, 101, 116, 95, 117, 115, 97, 103, 101, 95, 112, 99, 116], (.leaf .uint32)), ([109, 97, 120, 95, 116, 114, 97, 110, 115, 97, 99, 116, 105, 111, 110, 95, 110, 101, 116, 95, 117, 115, 97, 103, 101], (.leaf .uint32)), ([98, 97, 115, 101, 95, 112, 101, 114, 95, 116, 114, 97, 110, 115, 97, 99, 116, 105, 111, 110, 95, 110, 101, 116, 95, 117, 115, 97, 103, 101], (.leaf .uint32)), ([110, 101, 116, 95, 117, 115, 97, 103, 101, 95, 108, 101, 101, 119, 97, 121], (.leaf .uint32)), ([99, 111, 110, 116, 101, 120, 116, 95, 102, 114, 101, 101, 95, 100, 105, 115, 99, 111, 117, 110, 116, 95, 110, 101, 116, 95, 117, 115, 97, 103, 101, 95, 110, 117, 109], (.leaf .uint32)), ([99, 111, 110, 116, 101, 120, 116, 95, 102, 114, 101, 101, 95, 100, 105, 115, 99, 111, 117, 110, 116, 95, 110, 101, 116, 95, 117, 115, 97, 103, 101, 95, 100, 101, 110], (.leaf .uint32)), ([109, 97, 120, 95, 98, 108, 111, 99, 107, 95, 99, 112, 117, 95, 117, 115, 97, 103, 101], (.leaf .uint32)), ([116, 97, 114, 103, 101, 116, 95, 98, 108, 111, 99, 107, 95, 99, 112, 117, 95, 117, 115, 97, 103, 101, 95, 112, 99, 116], (.leaf .uint32)), ([109, 97, 120, 95, 116, 114, 97, 110, 115, 97, 99, 116, 105, 111, 110, 95, 99, 112, 117, 95, 117, 115, 97, 103, 101], (.leaf .uint32)), ([109, 105, 110, 95, 116, 114, 97, 110, 115, 97, 99, 116, 105, 111, 110, 95, 99, 112, 117, 95, 117, 115, 97, 103, 101], (.leaf .uint32)), ([109, 97, 120, 95, 116, 114, 97, 110, 115, 97, 99, 116, 105, 111, 110, 95, 108, 105, 102, 101, 116, 105, 109, 101], (.leaf .uint32)), ([100, 101, 102, 101, 114, 114, 101, 100, 95, 116, 114, 120, 95, 101, 120, 112, 105, 114, 97, 116, 105, 111, 110, 95, 119, 105, 110, 100, 111, 119], (.leaf .uint32)), ([109, 97, 120, 95, 116, 114, 97, 110, 115, 97, 99, 116, 105, 111, 110, 95, 100, 101, 108, 97, 121], (.leaf .uint32)), ([109, 97, 120, 95, 105, 110, 108, 105, 110, 101, 95, 97, 99, 116, 105, 111, 110, 95, 115, 105, 122, 101], (.leaf .uint32)), ([109, 97, 120, 95, 105, 110, 108, 105, 110, 101, 95, 97, 99, 116, 105, 111, 110, 95, 100, 101, 112, 116, 104], (.leaf .uint16)), ([109, 97, 120, 95, 97, 117, 116, 104, 111, 114, 105, 116, 121, 95, 100, 101, 112, 116, 104], (.leaf .uint16))]),
    ([103, 108, 111, 98, 97, 108, 95, 112, 114, 111, 112, 101, 114, 116, 121, 95, 118, 48], [([112, 114, 111, 112, 111, 115, 101, 100, 95, 115, 99, 104, 101, 100, 117, 108, 101, 95, 98, 108, 111, 99, 107, 95, 110, 117, 109], (.opt (.leaf .uint32))), ([112, 114, 111, 112, 111, 115, 101, 100, 95, 115, 99, 104, 101, 100, 117, 108, 101], (.struct [112, 114, 111, 100, 117, 99, 101, 114, 95, 115, 99, 104, 101, 100, 117, 108, 101])), ([99, 111, 110, 102, 105, 103, 117, 114, 97, 116, 105, 111, 110], (.variant [(.struct [99, 104, 97, 105, 110, 95, 99, 111, 110, 102, 105, 103, 95, 118, 48])]))]),
    ([103, 108, 111, 98, 97, 108, 95, 112, 114, 111, 112, 101, 114, 116, 121, 95, 118, 49], [([112, 114, 111, 112, 111, 115, 101, 100, 95, 115, 99, 104, 101, 100, 117, 108, 101, 95, 98, 108, 111, 99, 107, 95, 110, 117, 109], (.opt (.leaf .uint32))), ([112, 114, 111, 112, 111, 115, 101, 100, 95, 115, 99, 104, 101, 100, 117, 108, 101], (.struct [112, 114, 111, 100, 117, 99, 101, 114, 95, 97, 117, 116, 104, 111, 114, 105, 116, 121, 95, 115, 99, 104, 101, 100, 117, 108, 101])), ([99, 111, 110, 102, 105, 103, 117, 114, 97, 116, 105, 111, 110], (.variant [(.struct [99, 104, 97, 105, 110, 95, 99, 111, 110, 102, 105, 103, 95, 118, 48])])), ([99, 104, 97, 105, 110, 95, 105, 100], (.leaf .checksum256))]),
    ([103, 101, 110, 101, 114, 97, 116, 101, 100, 95, 116, 114, 97, 110, 115, 97, 99, 116, 105, 111, 110, 95, 118, 48], [([115, 101, 110, 100, 101, 114], (.leaf .name)), ([115, 101, 110, 100, 101, 114, 95, 105, 100], (.leaf .uint128)), ([112, 97, 121, 101, 114], (.leaf .name)), ([116, 114, 120, 95, 105, 100], (.leaf .checksum256)), ([112, 97, 99, 107, 101, 100, 95, 116, 114, 120], (.leaf .bytes))]),
    ([97, 99, 116, 105, 118, 97, 116, 101, 100, 95, 112, 114, 111, 116, 111, 99, 111, 108, 95, 102, 101, 97, 116, 117, 114, 101, 95, 118, 48], [([102, 101, 97, 116, 117, 114, 101, 95, 100, 105, 103, 101, 115, 116], (.leaf .checksum256)), ([97, 99, 116, 105, 118, 97, 116, 105, 111, 110, 95, 98, 108, 111, 99, 107, 95, 110, 117, 109], (.leaf .uint32))]),
    ([112, 114, 111, 116, 111, 99, 111, 108, 95, 115, 116, 97, 116, 101, 95, 118, 48], [([97, 99, 116, 105, 118, 97, 116, 101, 100, 95, 112, 114, 111, 116, 111, 99, 111, 108, 95, 102, 101, 97, 116, 117, 114, 101, 115], (.vec (.variant [(.struct [97, 99, 116, 105, 118, 97, 116, 101, 100, 95, 112, 114, 111, 116, 111, 99, 111, 108, 95, 102, 101, 97, 116, 117, 114, 101, 95, 118, 48])])))]),
    ([112, 101, 114, 109, 105, 115, 115, 105, 111, 110, 95, 108, 101, 118, 101, 108, 95, 119, 101, 105, 103, 104, 116], [([112, 101, 114, 109, 105, 115, 115, 105, 111, 110], (.struct [112, 101, 114, 109, 105, 115, 115, 105, 111, 110, 95, 108, 101, 118, 101, 108])), ([119, 101, 105, 103, 104, 116], (.leaf .uint16))]),
    ([119, 97, 105, 116, 95, 119, 101, 105, 103, 104, 116], [([119, 97, 105, 116, 95, 115, 101, 99], (.leaf .uint32)), ([119, 101, 105, 103, 104, 116], (.leaf .uint16))]),
    ([97, 117, 116, 104, 111, 114, 105, 116, 121], [([116, 104, 114, 101, 115, 104, 111, 108, 100], (.leaf .uint32)), ([107, 101, 121, 115], (.vec (.struct [107, 101, 121, 95, 119, 101, 105, 103, 104, 116]))), ([97, 99, 99, 111, 117, 110, 116, 115], (.vec (.struct [112, 101, 114, 109, 105, 115, 115, 105, 111, 110, 95, 108, 101, 118, 101, 108, 95, 119, 101, 105, 103, 104, 116]))), ([119, 97, 105, 116, 115], (.vec (.struct [119, 97, 105, 116, 95, 119, 101, 105, 103, 104, 116])))]),
    ([112, 101, 114, 109, 105, 115, 115, 105, 111, 110, 95, 118, 48], [([111, 119, 110, 101, 114], (.leaf .name)), ([110, 97, 109, 101], (.leaf .name)), ([112, 97, 114, 101, 110, 116], (.leaf .name)), ([108, 97, 115, 116, 95, 117, 112, 100, 97, 116, 101, 100], (.leaf .time_point)), ([97, 117, 116, 104], (.struct [97, 117, 116, 104, 111, 114, 105, 116, 121]))]),
    ([112, 101, 114, 109, 105, 115, 115, 105, 111, 110, 95, 108, 105, 110, 107, 95, 118, 48], [([97, 99, 99, 111, 117, 110, 116], (.leaf .name)), ([99, 111, 100, 101], (.leaf .name)), ([109, 101, 115, 115, 97, 103, 101, 95, 116, 121, 112, 101], (.leaf .name)), ([114, 101, 113, 117, 105, 114, 101, 100, 95, 112, 101, 114, 109, 105, 115, 115, 105, 111, 110], (.leaf .name))]),
    ([114, 101, 115, 111, 117, 114, 99, 101, 95, 108, 105, 109, 105, 116, 115, 95, 118, 48], [([111, 119, 110, 101, 114], (.leaf .name)), ([110, 101, 116, 95, 119, 101, 105, 103, 104, 116], (.leaf .int64)), ([99, 112, 117, 95, 119, 101, 105, 103, 104, 116], (.leaf .int64)), ([114, 97, 109, 95, 98, 121, 116, 101, 115], (.leaf .int64))]),
    ([117, 115, 97, 103, 101, 95, 97, 99, 99, 117, 109, 117, 108, 97, 116, 111, 114, 95, 118, 48], [([108, 97, 115, 116, 95, 111, 114, 100, 105, 110, 97, 108], (.leaf .uint32)), ([118, 97, 108, 117, 101, 95, 101, 120], (.leaf .uint64)), ([99, 111, 110, 115, 117, 109, 101, 100], (.leaf .uint64))]),
    ([114, 101, 115, 111, 117, 114, 99, 101, 95, 117, 115, 97, 103, 101, 95, 118, 48], [([111, 119, 110, 101, 114], (.leaf .name)), ([110, 101, 116, 95, 117, 115, 97, 103, 101], (.variant [(.struct [117, 115, 97, 103, 101, 95, 97, 99, 99, 117, 109, 117, 108, 97, 116, 111, 114, 95, 118, 48])])), ([99, 112, 117, 95, 117, 115, 97, 103, 101], (.variant [(.struct [117, 115, 97, 103, 101, 95, 97, 99, 99, 117, 109, 117, 108, 97, 116, 111, 114, 95, 118, 48])])), ([114, 97, 109, 95, 117, 115, 97, 103, 101], (.leaf .uint64))]),
    ([114, 101, 115, 111, 117, 114, 99, 101, 95, 108, 105, 109, 105, 116, 115, 95, 115, 116, 97, 116, 101, 95, 118, 48], [([97, 118, 101, 114, 97, 103, 101, 95, 98, 108, 111, 99, 107, 95, 110, 101, 116, 95, 117, 115, 97, 103, 101], (.variant [(.struct [117, 115, 97, 103, 101, 95, 97, 99, 99, 117, 109, 117, 108, 97, 116, 111, 114, 95, 118, 48])])), ([97, 118, 101, 114, 97, 103, 101, 95, 98, 108, 111, 99, 107, 95, 99, 112, 117, 95, 117, 115, 97, 103, 101], (.variant [(.struct [117, 115, 97, 103, 101, 95, 97, 99, 99, 117, 109, 117, 108, 97, 116, 111, 114, 95, 118, 48])])), ([116, 111, 116, 97, 108, 95, 110, 101, 116, 95, 119, 101, 105, 103, 104, 116], (.leaf .uint64)), ([116, 111, 116, 97, 108, 95, 99, 112, 117, 95, 119, 101, 105, 103, 104, 116], (.leaf .uint64)), ([116, 111, 116, 97, 108, 95, 114, 97, 109, 95, 98, 121, 116, 101, 115], (.leaf .uint64)), ([118, 105, 114, 116, 117, 97, 108, 95, 110, 101, 116, 95, 108, 105, 109, 105, 116], (.leaf .uint64)), ([118, 105, 114, 116, 117, 97, 108, 95, 99, 112, 117, 95, 108, 105, 109, 105, 116], (.leaf .uint64))]),
    ([114, 101, 115, 111, 117, 114, 99, 101, 95, 108, 105, 109, 105, 116, 115, 95, 114, 97, 116, 105, 111, 95, 118, 48], [([110, 117, 109, 101, 114, 97, 116, 111, 114], (.leaf .uint64)), ([100, 101, 110, 111, 109, 105, 110, 97, 116, 111, 114], (.leaf .uint64))]),
    ([101, 108, 97, 115, 116, 105, 99, 95, 108, 105, 109, 105, 116, 95, 112, 97, 114, 97, 109, 101, 116, 101, 114, 115, 95, 118, 48], [([116, 97, 114, 103, 101, 116], (.leaf .uint64)), ([109, 97, 120], (.leaf .uint64)), ([112, 101, 114, 105, 111, 100, 115], (.leaf .uint32)), ([109, 97, 120, 95, 109, 117, 108, 116, 105, 112, 108, 105, 101, 114], (.leaf .uint32)), ([99, 111, 110, 116, 114, 97, 99, 116, 95, 114, 97, 116, 101], (.variant [(.struct [114, 101, 115, 111, 117, 114, 99, 101, 95, 108, 105, 109, 105, 116, 115, 95, 114, 97, 116, 105, 111, 95, 118, 48])])), ([101, 120, 112, 97, 110, 100, 95, 114, 97, 116, 101], (.variant [(.struct [114, 101, 115, 111, 117, 114, 99, 101, 95, 108, 105, 109, 105, 116, 115, 95, 114, 97, 116, 105, 111, 95, 118, 48])]))]),
    ([114, 101, 115, 111, 117, 114, 99, 101, 95, 108, 105, 109, 105, 116, 115, 95, 99, 111, 110, 102, 105, 103, 95, 118, 48], [([99, 112, 117, 95, 108, 105, 109, 105, 116, 95, 112, 97, 114, 97, 109, 101, 116, 101, 114, 115], (.variant [(.struct [101, 108, 97, 115, 116, 105, 99, 95, 108, 105, 109, 105, 116, 95, 112, 97, 114, 97, 109, 101, 116, 101, 114, 115, 95, 118, 48])])), ([110, 101, 116, 95, 108, 105, 109, 105, 116, 95, 112, 97, 114, 97, 109, 101, 116, 101, 114, 115], (.variant [(.struct [101, 108, 97, 115, 116, 105, 99, 95, 108, 105, 109, 105, 116, 95, 112, 97, 114, 97, 109, 101, 116, 101, 114, 115, 95, 118, 48])])), ([97, 99, 99, 111, 117, 110, 116, 95, 99, 112, 117, 95, 117, 115, 97, 103, 101, 95, 97, 118, 101, 114, 97, 103, 101, 95, 119, 105, 110, 100, 111, 119], (.leaf .uint32)), ([97, 99, 99, 111, 117, 110, 116, 95, 110, 101, 116, 95, 117, 115, 97, 103, 101, 95, 97, 118, 101, 114, 97, 103, 101, 95, 119, 105, 110, 100, 111, 119], (.leaf .uint32))])]

/-- its structs -/
def structsLit : List StructDef :=
  [⟨[101, 120, 116, 101, 110, 115, 105, 111, 110], [], [⟨[116, 121, 112, 101], [117, 105, 110, 116, 49, 54]⟩, ⟨[100, 97, 116, 97], [98, 121, 116, 101, 115]⟩]⟩,
    ⟨[103, 101, 116, 95, 115, 116, 97, 116, 117, 115, 95, 114, 101, 113, 117, 101, 115, 116, 95, 118, 48], [], []⟩,
    ⟨[98, 108, 111, 99, 107, 95, 112, 111, 115, 105, 116, 105, 111, 110], [], [⟨[98, 108, 111, 99, 107, 95, 110, 117, 109], [117, 105, 110, 116, 51, 50]⟩, ⟨[98, 108, 111, 99, 107, 95, 105, 100], [99, 104, 101, 99, 107, 115, 117, 109, 50, 53, 54]⟩]⟩,
    ⟨[103, 101, 116, 95, 115, 116, 97, 116, 117, 115, 95, 114, 101, 115, 117, 108, 116, 95, 118, 48], [], [⟨[104, 101, 97, 100], [98, 108, 111, 99, 107, 95, 112, 111, 115, 105, 116, 105, 111, 110]⟩, ⟨[108, 97, 115, 116, 95, 105, 114, 114, 101, 118, 101, 114, 115, 105, 98, 108, 101], [98, 108, 111, 99, 107, 95, 112, 111, 115, 105, 116, 105, 111, 110]⟩, ⟨[116, 114, 97, 99, 101, 95, 98, 101, 103, 105, 110, 95, 98, 108, 111, 99, 107], [117, 105, 110, 116, 51, 50]⟩, ⟨[116, 114, 97, 99, 101, 95, 101, 110, 100, 95, 98, 108, 111, 99, 107], [117, 105, 110, 116, 51, 50]⟩, ⟨[99, 104, 97, 105, 110, 95, 115, 116, 97, 116, 101, 95, 98, 101, 103, 105, 110, 95, 98, 108, 111, 99, 107], [117, 105, 110, 116, 51, 50]⟩, ⟨[99, 104, 97, 105, 110, 95, 115, 116, 97, 116, 101, 95, 101, 110, 100, 95, 98, 108, 111, 99, 107], [117, 105, 110, 116, 51, 50]⟩, ⟨[99, 104, 97, 105, 110, 95, 105, 100], [99, 104, 101, 99, 107, 115, 117, 109, 50, 53, 54]⟩]⟩,
    ⟨[103, 101, 116, 95, 98, 108, 111, 99, 107, 115, 95, 114, 101, 113, 117, 101, 115, 116, 95, 118, 48], [], [⟨[115, 116, 97, 114, 116, 95, 98, 108, 111, 99, 107, 95, 110, 117, 109], [117, 105, 110, 116, 51, 50]⟩, ⟨[101, 110, 100, 95, 98, 108, 111, 99, 107, 95, 110, 117, 109], [117, 105, 110, 116, 51, 50]⟩, ⟨[109, 97, 120, 95, 109, 101, 115, 115, 97, 103, 101, 115, 95, 105, 110, 95, 102, 108, 105, 103, 104, 116], [117, 105, 110, 116, 51, 50]⟩, ⟨[104, 97, 118, 101, 95, 112, 111, 115, 105, 116, 105, 111, 110, 115], [98, 108, 111, 99, 107, 95, 112, 111, 115, 105, 116, 105, 111, 110, 91, 93]⟩, ⟨[105, 114, 114, 101, 118, 101, 114, 115, 105, 98, 108, 101, 95, 111, 110, 108, 121], [98, 111, 111, 108]⟩, ⟨[102, 101, 116, 99, 104, 95, 98, 108, 111, 99, 107], [98, 111, 111, 108]⟩, ⟨[102, 101, 116, 99, 104, 95, 116, 114, 97, 99, 101, 115], [98, 111, 111, 108]⟩, ⟨[102, 101, 116, 99, 104, 95, 100, 101, 108, 116, 97, 115], [98, 111, 111, 108]⟩]⟩,
    ⟨[103, 101, 116, 95, 98, 108, 111, 99, 107, 115, 95, 97, 99, 107, 95, 114, 101, 113, 117, 101, 115, 116, 95, 118, 48], [], [⟨[110, 117, 109, 95, 109, 101, 115, 115, 97, 103, 101, 115], [117, 105, 110, 116, 51, 50]⟩]⟩,
    ⟨[103, 101, 116, 95, 98, 108, 111, 99, 107, 115, 95, 114, 101, 115, 117, 108, 116, 95, 98, 97, 115, 101], [], [⟨[104, 101, 97, 100], [98, 108, 111, 99, 107, 95, 112, 111, 115, 105, 116, 105, 111, 110]⟩, ⟨[108, 97, 115, 116, 95, 105, 114, 114, 101, 118, 101, 114, 115, 105, 98, 108, 101], [98, 108, 111, 99, 107, 95, 112, 111, 115, 105, 116, 105, 111, 110]⟩, ⟨[116, 104, 105, 115, 95, 98, 108, 111, 99, 107], [98, 108, 111, 99, 107, 95, 112, 111, 115, 105, 116, 105, 111, 110, 63]⟩, ⟨[112, 114, 101, 118, 95, 98, 108, 111, 99, 107], [98, 108, 111, 99, 107, 95, 112, 111, 115, 105, 116, 105, 111, 110, 63]⟩]⟩,
    ⟨[103, 101, 116, 95, 98, 108, 111, 99, 107, 115, 95, 114, 101, 115, 117, 108, 116, 95, 118, 48], [103, 101, 116, 95, 98, 108, 111, 99, 107, 115, 95, 114, 101, 115, 117, 108, 116, 95, 98, 97, 115, 101], [⟨[98, 108, 111, 99, 107], [98, 121, 116, 101, 115, 63]⟩, ⟨[116, 114, 97, 99, 101, 115], [98, 121, 116, 101, 115, 63]⟩, ⟨[100, 101, 108, 116, 97, 115], [98, 121, 116, 101, 115, 63]⟩]⟩,
    ⟨[103, 101, 116, 95, 98, 108, 111, 99, 107, 115, 95, 114, 101, 115, 117, 108, 116, 95, 118, 49], [103, 101, 116, 95, 98, 108, 111, 99, 107, 115, 95, 114, 101, 115, 117, 108, 116, 95, 98, 97, 115, 101], [⟨[98, 108, 111, 99, 107], [115, 105, 103, 110, 101, 100, 95, 98, 108, 111, 99, 107, 95, 118, 97, 114, 105, 97, 110, 116, 63]⟩, ⟨[116, 114, 97, 99, 101, 115], [98, 121, 116, 101, 115]⟩, ⟨[100, 101, 108, 116, 97, 115], [98, 121, 116, 101, 115]⟩]⟩,
    ⟨[114, 111, 119], [], [⟨[112, 114, 101, 115, 101, 110, 116], [98, 111, 111, 108]⟩, ⟨[100, 97, 116, 97], [98, 121, 116, 101, 115]⟩]⟩,
    ⟨[116, 97, 98, 108, 101, 95, 100, 101, 108, 116, 97, 95, 118, 48], [], [⟨[110, 97, 109, 101], [115, 116, 114, 105, 110, 103]⟩, ⟨[114, 111, 119, 115], [114, 111, 119, 91, 93]⟩]⟩,
    ⟨[112, 101, 114, 109, 105, 115, 115, 105, 111, 110, 95, 108, 101, 118, 101, 108], [], [⟨[97, 99, 116, 111, 114], [110, 97, 109, 101]⟩, ⟨[112, 101, 114, 109, 105, 115, 115, 105, 111, 110], [110, 97, 109, 101]⟩]⟩,
    ⟨[97, 99, 116, 105, 111, 110], [], [⟨[97, 99, 99, 111, 117, 110, 116], [110, 97, 109, 101]⟩, ⟨[110, 97, 109, 101], [110, 97, 109, 101]⟩, ⟨[97, 117, 116, 104, 111, 114, 105, 122, 97, 116, 105, 111, 110], [112, 101, 114, 109, 105, 115, 115, 105, 111, 110, 95, 108, 101, 118, 101, 108, 91, 93]⟩, ⟨[100, 97, 116, 97], [98, 121, 116, 101, 115]⟩]⟩,
    ⟨[97, 99, 99, 111, 117, 110, 116, 95, 97, 117, 116, 104, 95, 115, 101, 113, 117, 101, 110, 99, 101], [], [⟨[97, 99, 99, 111, 117, 110, 116], [110, 97, 109, 101]⟩, ⟨[115, 101, 113, 117, 101, 110, 99, 101], [117, 105, 110, 116, 54, 52]⟩]⟩,
    ⟨[97, 99, 116, 105, 111, 110, 95, 114, 101, 99, 101, 105, 112, 116, 95, 118, 48], [], [⟨[114, 101, 99, 101, 105, 118, 101, 114], [110, 97, 109, 101]⟩, ⟨[97, 99, 116, 95, 100, 105, 103, 101, 115, 116], [99, 104, 101, 99, 107, 115, 117, 109, 50, 53, 54]⟩, ⟨[103, 108, 111, 98, 97, 108, 95, 115, 101, 113, 117, 101, 110, 99, 101], [117, 105, 110, 116, 54, 52]⟩, ⟨[114, 101, 99, 118, 95, 115, 101, 113, 117, 101, 110, 99, 101], [117, 105, 110, 116, 54, 52]⟩, ⟨[97, 117, 116, 104, 95, 115, 101, 113, 117, 101, 110, 99, 101], [97, 99, 99, 111, 117, 110, 116, 95, 97, 117, 116, 104, 95, 115, 101, 113, 117, 101, 110, 99, 101, 91, 93]⟩, ⟨[99, 111, 100, 101, 95, 115, 101, 113, 117, 101, 110, 99, 101], [118, 97, 114, 117, 105, 110, 116, 51, 50]⟩, ⟨[97, 98, 105, 95, 115, 101, 113, 117, 101, 110, 99, 101], [118, 97, 114, 117, 105, 110, 116, 51, 50]⟩]⟩,
    ⟨[97, 99, 99, 111, 117, 110, 116, 95, 100, 101, 108, 116, 97], [], [⟨[97, 99, 99, 111, 117, 110, 116], [110, 97, 109, 101]⟩, ⟨[100, 101, 108, 116, 97], [105, 110, 116, 54, 52]⟩]⟩,
    ⟨[97, 99, 116, 105, 111, 110, 95, 116, 114, 97, 99, 101, 95, 118, 48], [], [⟨[97, 99, 116, 105, 111, 110, 95, 111, 114, 100, 105, 110, 97, 108], [118, 97, 114, 117, 105, 110, 116, 51, 50]⟩, ⟨[99, 114, 101, 97, 116, 111, 114, 95, 97, 99, 116, 105, 111, 110, 95, 111, 114, 100, 105, 110, 97, 108], [118, 97, 114, 117, 105, 110, 116, 51, 50]⟩, ⟨[114, 101, 99, 101, 105, 112, 116], [97, 99, 116, 105, 111, 110, 95, 114, 101, 99, 101, 105, 112, 116, 63]⟩, ⟨[114, 101, 99, 101, 105, 118, 101, 114], [110, 97, 109, 101]⟩, ⟨[97, 99, 116], [97, 99, 116, 105, 111, 110]⟩, ⟨[99, 111, 110, 116, 101, 120, 116, 95, 102, 114, 101, 101], [98, 111, 111, 108]⟩, ⟨[101, 108, 97, 112, 115, 101, 100], [105, 110, 116, 54, 52]⟩, ⟨[99, 111, 110, 115, 111, 108, 101], [115, 116, 114, 105, 110, 103]⟩, ⟨[97, 99, 99, 111, 117, 110, 116, 95, 114, 97, 109, 95, 100, 101, 108, 116, 97, 115], [97, 99, 99, 111, 117, 110, 116, 95, 100, 101, 108, 116, 97, 91, 93]⟩, ⟨[101, 120, 99, 101, 112, 116], [115, 116, 114, 105, 110, 103, 63]⟩, ⟨[101, 114, 114, 111, 114, 95, 99, 111, 100, 101], [117, 105, 110, 116, 54, 52, 63]⟩]⟩,
    ⟨[97, 99, 116, 105, 111, 110, 95, 116, 114, 97, 99, 101, 95, 118, 49], [], [⟨[97, 99, 116, 105, 111, 110, 95, 111, 114, 100, 105, 110, 97, 108], [118, 97, 114, 117, 105, 110, 116, 51, 50]⟩, ⟨[99, 114, 101, 97, 116, 111, 114, 95, 97, 99, 116, 105, 111, 110, 95, 111, 114, 100, 105, 110, 97, 108], [118, 97, 114, 117, 105, 110, 116, 51, 50]⟩, ⟨[114, 101, 99, 101, 105, 112, 116], [97, 99, 116, 105, 111, 110, 95, 114, 101, 99, 101, 105, 112, 116, 63]⟩, ⟨[114, 101, 99, 101, 105, 118, 101, 114], [110, 97, 109, 101]⟩, ⟨[97, 99, 116], [97, 99, 116, 105, 111, 110]⟩, ⟨[99, 111, 110, 116, 101, 120, 116, 95, 102, 114, 101, 101], [98, 111, 111, 108]⟩, ⟨[101, 108, 97, 112, 115, 101, 100], [105, 110, 116, 54, 52]⟩, ⟨[99, 111, 110, 115, 111, 108, 101], [115, 116, 114, 105, 110, 103]⟩, ⟨[97, 99, 99, 111, 117, 110, 116, 95, 114, 97, 109, 95, 100, 101, 108, 116, 97, 115], [97, 99, 99, 111, 117, 110, 116, 95, 100, 101, 108, 116, 97, 91, 93]⟩, ⟨[97, 99, 99, 111, 117, 110, 116, 95, 100, 105, 115, 107, 95, 100, 101, 108, 116, 97, 115], [97, 99, 99, 111, 117, 110, 116, 95, 100, 101, 108, 116, 97, 91, 93]⟩, ⟨[101, 120, 99, 101, 112, 116], [115, 116, 114, 105, 110, 103, 63]⟩, ⟨[101, 114, 114, 111, 114, 95, 99, 111, 100, 101], [117, 105, 110, 116, 54, 52, 63]⟩, ⟨[114, 101, 116, 117, 114, 110, 95, 118, 97, 108, 117, 101], [98, 121, 116, 101, 115]⟩]⟩,
    ⟨[112, 114, 117, 110, 97, 98, 108, 101, 95, 100, 97, 116, 97, 95, 116, 121, 112, 101], [], [⟨[112, 114, 117, 110, 97, 98, 108, 101, 95, 100, 97, 116, 97], [112, 114, 117, 110, 97, 98, 108, 101, 95, 100, 97, 116, 97, 95, 116]⟩]⟩,
    ⟨[112, 114, 117, 110, 97, 98, 108, 101, 95, 100, 97, 116, 97, 95, 116, 121, 112, 101, 58, 58, 110, 111, 110, 101], [], [⟨[112, 114, 117, 110, 97, 98, 108, 101, 95, 100, 105, 103, 101, 115, 116], [99, 104, 101, 99, 107, 115, 117, 109, 50, 53, 54]⟩]⟩,
    ⟨[112, 114, 117, 110, 97, 98, 108, 101, 95, 100, 97, 116, 97, 95, 116, 121, 112, 101, 58, 58, 112, 97, 114, 116, 105, 97, 108], [], [⟨[115, 105, 103, 110, 97, 116, 117, 114, 101, 115], [115, 105, 103, 110, 97, 116, 117, 114, 101, 91, 93]⟩, ⟨[99, 111, 110, 116, 101, 120, 116, 95, 102, 114, 101, 101, 95, 115, 101, 103, 109, 101, 110, 116, 115], [115, 101, 103, 109, 101, 110, 116, 95, 116, 121, 112, 101, 91, 93]⟩]⟩,
    ⟨[112, 114, 117, 110, 97, 98, 108, 101, 95, 100, 97, 116, 97, 95, 116, 121, 112, 101, 58, 58, 102, 117, 108, 108], [], [⟨[115, 105, 103, 110, 97, 116, 117, 114, 101, 115], [115, 105, 103, 110, 97, 116, 117, 114, 101, 91, 93]⟩, ⟨[99, 111, 110, 116, 101, 120, 116, 95, 102, 114, 101, 101, 95, 115, 101, 103, 109, 101, 110, 116, 115], [98, 121, 116, 101, 115, 91, 93]⟩]⟩,
    ⟨[112, 114, 117, 110, 97, 98, 108, 101, 95, 100, 97, 116, 97, 95, 116, 121, 112, 101, 58, 58, 102, 117, 108, 108, 95, 108, 101, 103, 97, 99, 121], [], [⟨[115, 105, 103, 110, 97, 116, 117, 114, 101, 115], [115, 105, 103, 110, 97, 116, 117, 114, 101, 91, 93]⟩, ⟨[112, 97, 99, 107, 101, 100, 95, 99, 111, 110, 116, 101, 120, 116, 95, 102, 114, 101, 101, 95, 100, 97, 116, 97], [98, 121, 116, 101, 115]⟩]⟩,
    ⟨[112, 97, 114, 116, 105, 97, 108, 95, 116, 114, 97, 110, 115, 97, 99, 116, 105, 111, 110, 95, 118, 48], [116, 114, 97, 110, 115, 97, 99, 116, 105, 111, 110, 95, 104, 101, 97, 100, 101, 114], [⟨[116, 114, 97, 110, 115, 97, 99, 116, 105, 111, 110, 95, 101, 120, 116, 101, 110, 115, 105, 111, 110, 115], [101, 120, 116, 101, 110, 115, 105, 111, 110, 91, 93]⟩, ⟨[115, 105, 103, 110, 97, 116, 117, 114, 101, 115], [115, 105, 103, 110, 97, 116, 117, 114, 101, 91, 93]⟩, ⟨[99, 111, 110, 116, 101, 120, 116, 95, 102, 114, 101, 101, 95, 100, 97, 116, 97], [98, 121, 116, 101, 115, 91, 93]⟩]⟩,
    ⟨[112, 97, 114, 116, 105, 97, 108, 95, 116, 114, 97, 110, 115, 97, 99, 116, 105, 111, 110, 95, 118, 49], [116, 114, 97, 110, 115, 97, 99, 116, 105, 111, 110, 95, 104, 101, 97, 100, 101, 114], [⟨[116, 114, 97, 110, 115, 97, 99, 116, 105, 111, 110, 95, 101, 120, 116, 101, 110, 115, 105, 111, 110, 115], [101, 120, 116, 101, 110, 115, 105, 111, 110, 91, 93]⟩, ⟨[112, 114, 117, 110, 97, 98, 108, 101, 95, 100, 97, 116, 97], [112, 114, 117, 110, 97, 98, 108, 101, 95, 100, 97, 116, 97, 95, 116, 121, 112, 101, 63]⟩]⟩,
    ⟨[116, 114, 97, 110, 115, 97, 99, 116, 105, 111, 110, 95, 116, 114, 97, 99, 101, 95, 118, 48], [], [⟨[105, 100], [99, 104, 101, 99, 107, 115, 117, 109, 50, 53, 54]⟩, ⟨[115, 116, 97, 116, 117, 115], [117, 105, 110, 116, 56]⟩, ⟨[99, 112, 117, 95, 117, 115, 97, 103, 101, 95, 117, 115], [117, 105, 110, 116, 51, 50]⟩, ⟨[110, 101, 116, 95, 117, 115, 97, 103, 101, 95, 119, 111, 114, 100, 115], [118, 97, 114, 117, 105, 110, 116, 51, 50]⟩, ⟨[101, 108, 97, 112, 115, 101, 100], [105, 110, 116, 54, 52]⟩, ⟨[110, 101, 116, 95, 117, 115, 97, 103, 101], [117, 105, 110, 116, 54, 52]⟩, ⟨[115, 99, 104, 101, 100, 117, 108, 101, 100], [98, 111, 111, 108]⟩, ⟨[97, 99, 116, 105, 111, 110, 95, 116, 114, 97, 99, 101, 115], [97, 99, 116, 105, 111, 110, 95, 116, 114, 97, 99, 101, 91, 93]⟩, ⟨[97, 99, 99, 111, 117, 110, 116, 95, 114, 97, 109, 95, 100, 101, 108, 116, 97], [97, 99, 99, 111, 117, 110, 116, 95, 100, 101, 108, 116, 97, 63]⟩, ⟨[101, 120, 99, 101, 112, 116], [115, 116, 114, 105, 110, 103, 63]⟩, ⟨[101, 114, 114, 111, 114, 95, 99, 111, 100, 101], [117, 105, 110, 116, 54, 52, 63]⟩, ⟨[102, 97, 105, 108, 101, 100, 95, 100, 116, 114, 120, 95, 116, 114, 97, 99, 101], [116, 114, 97, 110, 115, 97, 99, 116, 105, 111, 110, 95, 116, 114, 97, 99, 101, 91, 93]⟩, ⟨[112, 97, 114, 116, 105, 97, 108], [112, 97, 114, 116, 105, 97, 108, 95, 116, 114, 97, 110, 115, 97, 99, 116, 105, 111, 110, 63]⟩]⟩,
    ⟨[112, 114, 111, 100, 117, 99, 101, 114, 95, 107, 101, 121], [], [⟨[112, 114, 111, 100, 117, 99, 101, 114, 95, 110, 97, 109, 101], [110, 97, 109, 101]⟩, ⟨[98, 108, 111, 99, 107, 95, 115, 105, 103, 110, 105, 110, 103, 95, 107, 101, 121], [112, 117, 98, 108, 105, 99, 95, 107, 101, 121]⟩]⟩,
    ⟨[112, 114, 111, 100, 117, 99, 101, 114, 95, 115, 99, 104, 101, 100, 117, 108, 101], [], [⟨[118, 101, 114, 115, 105, 111, 110], [117, 105, 110, 116, 51, 50]⟩, ⟨[112, 114, 111, 100, 117, 99, 101, 114, 115], [112, 114, 111, 100, 117, 99, 101, 114, 95, 107, 101, 121, 91, 93]⟩]⟩,
    ⟨[116, 114, 97, 110, 115, 97, 99, 116, 105, 111, 110, 95, 114, 101, 99, 101, 105, 112, 116, 95, 104, 101, 97, 100, 101, 114], [], [⟨[115, 116, 97, 116, 117, 115], [117, 105, 110, 116, 56]⟩, ⟨[99, 112, 117, 95, 117, 115, 97, 103, 101, 95, 117, 115], [117, 105, 110, 116, 51, 50]⟩, ⟨[110, 101, 116, 95, 117, 115, 97, 103, 101, 95, 119, 111, 114, 100, 115], [118, 97, 114, 117, 105, 110, 116, 51, 50]⟩]⟩,
    ⟨[112, 97, 99, 107, 101, 100, 95, 116, 114, 97, 110, 115, 97, 99, 116, 105, 111, 110, 95, 118, 48], [], [⟨[115, 105, 103, 110, 97, 116, 117, 114, 101, 115], [115, 105, 103, 110, 97, 116, 117, 114, 101, 91, 93]⟩, ⟨[99, 111, 109, 112, 114, 101, 115, 115, 105, 111, 110], [117, 105, 110, 116, 56]⟩, ⟨[112, 97, 99, 107, 101, 100, 95, 99, 111, 110, 116, 101, 120, 116, 95, 102, 114, 101, 101, 95, 100, 97, 116, 97], [98, 121, 116, 101, 115]⟩, ⟨[112, 97, 99, 107, 101, 100, 95, 116, 114, 120], [98, 121, 116, 101, 115]⟩]⟩,
    ⟨[112, 97, 99, 107, 101, 100, 95, 116, 114, 97, 110, 115, 97, 99, 116, 105, 111, 110], [], [⟨[99, 111, 109, 112, 114, 101, 115, 115, 105, 111, 110], [117, 105, 110, 116, 56]⟩, ⟨[112, 114, 117, 110, 97, 98, 108, 101, 95, 100, 97, 116, 97], [112, 114, 117, 110, 97, 98, 108, 101, 95, 100, 97, 116, 97, 95, 116, 121, 112, 101]⟩, ⟨[112, 97, 99, 107, 101, 100, 95, 116, 114, 120], [98, 121, 116, 101, 115]⟩]⟩,
    ⟨[116, 114, 97, 110, 115, 97, 99, 116, 105, 111, 110, 95, 114, 101, 99, 101, 105, 112, 116, 95, 118, 48], [116, 114, 97, 110, 115, 97, 99, 116, 105, 111, 110, 95, 114, 101, 99, 101, 105, 112, 116, 95, 104, 101, 97, 100, 101, 114], [⟨[116, 114, 120], [116, 114, 97, 110, 115, 97, 99, 116, 105, 111, 110, 95, 118, 97, 114, 105, 97, 110, 116, 95, 118, 48]⟩]⟩,
    ⟨[116, 114, 97, 110, 115, 97, 99, 116, 105, 111, 110, 95, 114, 101, 99, 101, 105, 112, 116], [116, 114, 97, 110, 115, 97, 99, 116, 105, 111, 110, 95, 114, 101, 99, 101, 105, 112, 116, 95, 104, 101, 97, 100, 101, 114], [⟨[116, 114, 120], [116, 114, 97, 110, 115, 97, 99, 116, 105, 111, 110, 95, 118, 97, 114, 105, 97, 110, 116]⟩]⟩,
    ⟨[98, 108, 111, 99, 107, 95, 104, 101, 97, 100, 101, 114], [], [⟨[116, 105, 109, 101, 115, 116, 97, 109, 112], [98, 108, 111, 99, 107, 95, 116, 105, 109, 101, 115, 116, 97, 109, 112, 95, 116, 121, 112, 101]⟩, ⟨[112, 114, 111, 100, 117, 99, 101, 114], [110, 97, 109, 101]⟩, ⟨[99, 111, 110, 102, 105, 114, 109, 101, 100], [117, 105, 110, 116, 49, 54]⟩, ⟨[112, 114, 101, 118, 105, 111, 117, 115], [99, 104, 101, 99, 107, 115, 117, 109, 50, 53, 54]⟩, ⟨[116, 114, 97, 110, 115, 97, 99, 116, 105, 111, 110, 95, 109, 114, 111, 111, 116], [99, 104, 101, 99, 107, 115, 117, 109, 50, 53, 54]⟩, ⟨[97, 99, 116, 105, 111, 110, 95, 109, 114, 111, 111, 116], [99, 104, 101, 99, 107, 115, 117, 109, 50, 53, 54]⟩, ⟨[115, 99, 104, 101, 100, 117, 108, 101, 95, 118, 101, 114, 115, 105, 111, 110], [117, 105, 110, 116, 51, 50]⟩, ⟨[110, 101, 119, 95, 112, 114, 111, 100, 117, 99, 101, 114, 115], [112, 114, 111, 100, 117, 99, 101, 114, 95, 115, 99, 104, 101, 100, 117, 108, 101, 63]⟩, ⟨[104, 101, 97, 100, 101, 114, 95, 101, 120, 116, 101, 110, 115, 105, 111, 110, 115], [101, 120, 116, 101, 110, 115, 105, 111, 110, 91, 93]⟩]⟩,
    ⟨[115, 105, 103, 110, 101, 100, 95, 98, 108, 111, 99, 107, 95, 104, 101, 97, 100, 101, 114], [98, 108, 111, 99, 107, 95, 104, 101, 97, 100, 101, 114], [⟨[112, 114, 111, 100, 117, 99, 101, 114, 95, 115, 105, 103, 110, 97, 116, 117, 114, 101], [115, 105, 103, 110, 97, 116, 117, 114, 101]⟩]⟩,
    ⟨[115, 105, 103, 110, 101, 100, 95, 98, 108, 111, 99, 107, 95, 118, 48], [115, 105, 103, 110, 101, 100, 95, 98, 108, 111, 99, 107, 95, 104, 101, 97, 100, 101, 114], [⟨[116, 114, 97, 110, 115, 97, 99, 116, 105, 111, 110, 115], [116, 114, 97, 110, 115, 97, 99, 116, 105, 111, 110, 95, 114, 101, 99, 101, 105, 112, 116, 95, 118, 48, 91, 93]⟩, ⟨[98, 108, 111, 99, 107, 95, 101, 120, 116, 101, 110, 115, 105, 111, 110, 115], [101, 120, 116, 101, 110, 115, 105, 111, 110, 91, 93]⟩]⟩,
    ⟨[115, 105, 103, 110, 101, 100, 95, 98, 108, 111, 99, 107, 95, 118, 49], [115, 105, 103, 110, 101, 100, 95, 98, 108, 111, 99, 107, 95, 104, 101, 97, 100, 101, 114], [⟨[112, 114, 117, 110, 101, 95, 115, 116, 97, 116, 101], [117, 105, 110, 116, 56]⟩, ⟨[116, 114, 97, 110, 115, 97, 99, 116, 105, 111, 110, 115], [116, 114, 97, 110, 115, 97, 99, 116, 105, 111, 110, 95, 114, 101, 99, 101, 105, 112, 116, 91, 93]⟩, ⟨[98, 108, 111, 99, 107, 95, 101, 120, 116, 101, 110, 115, 105, 111, 110, 115], [101, 120, 116, 101, 110, 115, 105, 111, 110, 91, 93]⟩]⟩,
    ⟨[116, 114, 97, 110, 115, 97, 99, 116, 105, 111, 110, 95, 104, 101, 97, 100, 101, 114], [], [⟨[101, 120, 112, 105, 114, 97, 116, 105, 111, 110], [116, 105, 109, 101, 95, 112, 111, 105, 110, 116, 95, 115, 101, 99]⟩, ⟨[114, 101, 102, 95, 98, 108, 111, 99, 107, 95, 110, 117, 109], [117, 105, 110, 116, 49, 54]⟩, ⟨[114, 101, 102, 95, 98, 108, 111, 99, 107, 95, 112, 114, 101, 102, 105, 120], [117, 105, 110, 116, 51, 50]⟩, ⟨[109, 97, 120, 95, 110, 101, 116, 95, 117, 115, 97, 103, 101, 95, 119, 111, 114, 100, 115], [118, 97, 114, 117, 105, 110, 116, 51, 50]⟩, ⟨[109, 97, 120, 95, 99, 112, 117, 95, 117, 115, 97, 103, 101, 95, 109, 115], [117, 105, 110, 116, 56]⟩, ⟨[100, 101, 108, 97, 121, 95, 115, 101, 99], [118, 97, 114, 117, 105, 110, 116, 51, 50]⟩]⟩,
    ⟨[116, 114, 97, 110, 115, 97, 99, 116, 105, 111, 110], [116, 114, 97, 110, 115, 97, 99, 116, 105, 111, 110, 95, 104, 101, 97, 100, 101, 114], [⟨[99, 111, 110, 116, 101, 120, 116, 95, 102, 114, 101, 101, 95, 97, 99, 116, 105, 111, 110, 115], [97, 99, 116, 105, 111, 110, 91, 93]⟩, ⟨[97, 99, 116, 105, 111, 110, 115], [97, 99, 116, 105, 111, 110, 91, 93]⟩, ⟨[116, 114, 97, 110, 115, 97, 99, 116, 105, 111, 110, 95, 101, 120, 116, 101, 110, 115, 105, 111, 110, 115], [101, 120, 116, 101, 110, 115, 105, 111, 110, 91, 93]⟩]⟩,
    ⟨[99, 111, 100, 101, 95, 105, 100], [], [⟨[118, 109, 95, 116, 121, 112, 101], [117, 105, 110, 116, 56]⟩, ⟨[118, 109, 95, 118, 101, 114, 115, 105, 111, 110], [117, 105, 110, 116, 56]⟩, ⟨[99, 111, 100, 101, 95, 104, 97, 115, 104], [99, 104, 101, 99, 107, 115, 117, 109, 50, 53, 54]⟩]⟩,
    ⟨[97, 99, 99, 111, 117, 110, 116, 95, 118, 48], [], [⟨[110, 97, 109, 101], [110, 97, 109, 101]⟩, ⟨[99, 114, 101, 97, 116, 105, 111, 110, 95, 100, 97, 116, 101], [98, 108, 111, 99, 107, 95, 116, 105, 109, 101, 115, 116, 97, 109, 112, 95, 116, 121, 112, 101]⟩, ⟨[97, 98, 105], [98, 121, 116, 101, 115]⟩]⟩,
    ⟨[97, 99, 99, 111, 117, 110, 116, 95, 109, 101, 116, 97, 100, 97, 116, 97, 95, 118, 48], [], [⟨[110, 97, 109, 101], [110, 97, 109, 101]⟩, ⟨[112, 114, 105, 118, 105, 108, 101, 103, 101, 100], [98, 111, 111, 108]⟩, ⟨[108, 97, 115, 116, 95, 99, 111, 100, 101, 95, 117, 112, 100, 97, 116, 101], [116, 105, 109, 101, 95, 112, 111, 105, 110, 116]⟩, ⟨[99, 111, 100, 101], [99, 111, 100, 101, 95, 105, 100, 63]⟩]⟩,
    ⟨[99, 111, 100, 101, 95, 118, 48], [], [⟨[118, 109, 95, 116, 121, 112, 101], [117, 105, 110, 116, 56]⟩, ⟨[118, 109, 95, 118, 101, 114, 115, 105, 111, 110], [117, 105, 110, 116, 56]⟩, ⟨[99, 111, 100, 101, 95, 104, 97, 115, 104], [99, 104, 101, 99, 107, 115, 117, 109, 50, 53, 54]⟩, ⟨[99, 111, 100, 101], [98, 121, 116, 101, 115]⟩]⟩,
    ⟨[99, 111, 110, 116, 114, 97, 99, 116, 95, 116, 97, 98, 108, 101, 95, 118, 48], [], [⟨[99, 111, 100, 101], [110, 97, 109, 101]⟩, ⟨[115, 99, 111, 112, 101], [110, 97, 109, 101]⟩, ⟨[116, 97, 98, 108, 101], [110, 97, 109, 101]⟩, ⟨[112, 97, 121, 101, 114], [110, 97, 109, 101]⟩]⟩,
    ⟨[99, 111, 110, 116, 114, 97, 99, 116, 95, 114, 111, 119, 95, 118, 48], [], [⟨[99, 111, 100, 101], [110, 97, 109, 101]⟩, ⟨[115, 99, 111, 112, 101], [110, 97, 109, 101]⟩, ⟨[116, 97, 98, 108, 101], [110, 97, 109, 101]⟩, ⟨[112, 114, 105, 109, 97, 114, 121, 95, 107, 101, 121], [117, 105, 110, 116, 54, 52]⟩, ⟨[112, 97, 121, 101, 114], [110, 97, 109, 101]⟩, ⟨[118, 97, 108, 117, 101], [98, 121, 116, 101, 115]⟩]⟩,
    ⟨[99, 111, 110, 116, 114, 97, 99, 116, 95, 105, 110, 100, 101, 120, 54, 52, 95, 118, 48], [], [⟨[99, 111, 100, 101], [110, 97, 109, 101]⟩, ⟨[115, 99, 111, 112, 101], [110, 97, 109, 101]⟩, ⟨[116, 97, 98, 108, 101], [110, 97, 109, 101]⟩, ⟨[112, 114, 105, 109, 97, 114, 121, 95, 107, 101, 121], [117, 105, 110, 116, 54, 52]⟩, ⟨[112, 97, 121, 101, 114], [110, 97, 109, 101]⟩, ⟨[115, 101, 99, 111, 110, 100, 97, 114, 121, 95, 107, 101, 121], [117, 105, 110, 116, 54, 52]⟩]⟩,
    ⟨[99, 111, 110, 116, 114, 97, 99, 116, 95, 105, 110, 100, 101, 120, 49, 50, 56, 95, 118, 48], [], [⟨[99, 111, 100, 101], [110, 97, 109, 101]⟩, ⟨[115, 99, 111, 112, 101], [110, 97, 109, 101]⟩, ⟨[116, 97, 98, 108, 101], [110, 97, 109, 101]⟩, ⟨[112, 114, 105, 109, 97, 114, 121, 95, 107, 101, 121], [117, 105, 110, 116, 54, 52]⟩, ⟨[112, 97, 121, 101, 114], [110, 97, 109, 101]⟩, ⟨[115, 101, 99, 111, 110, 100, 97, 114, 121, 95, 107, 101, 121], [117, 105, 110, 116, 49, 50, 56]⟩]⟩,
    ⟨[99, 111, 110, 116, 114, 97, 99, 116, 95, 105, 110, 100, 101, 120, 50, 53, 54, 95, 118, 48], [], [⟨[99, 111, 100, 101], [110, 97, 109, 101]⟩, ⟨[115, 99, 111, 112, 101], [110, 97, 109, 101]⟩, ⟨[116, 97, 98, 108, 101], [110, 97, 109, 101]⟩, ⟨[112, 114, 105, 109, 97, 114, 121, 95, 107, 101, 121], [117, 105, 110, 116, 54, 52]⟩, ⟨[112, 97, 121, 101, 114], [110, 97, 109, 101]⟩, ⟨[115, 101, 99, 111, 110, 100, 97, 114, 121, 95, 107, 101, 121], [99, 104, 101, 99, 107, 115, 117, 109, 50, 53, 54]⟩]⟩,
    ⟨[99, 111, 110, 116, 114, 97, 99, 116, 95, 105, 110, 100, 101, 120, 95, 100, 111, 117, 98, 108, 101, 95, 118, 48], [], [⟨[99, 111, 100, 101], [110, 97, 109, 101]⟩, ⟨[115, 99, 111, 112, 101], [110, 97, 109, 101]⟩, ⟨[116, 97, 98, 108, 101], [110, 97, 109, 101]⟩, ⟨[112, 114, 105, 109, 97, 114, 121, 95, 107, 101, 121], [117, 105, 110, 116, 54, 52]⟩, ⟨[112, 97, 121, 101, 114], [110, 97, 109, 101]⟩, ⟨[115, 101, 99, 111, 110, 100, 97, 114, 121, 95, 107, 101, 121], [102, 108, 111, 97, 116, 54, 52]⟩]⟩,
    ⟨[99, 111, 110, 116, 114, 97, 99, 116, 95, 105, 110, 100, 101, 120, 95, 108, 111, 110, 103, 95, 100, 111, 117, 98, 108, 101, 95, 118, 48], [], [⟨[99, 111, 100, 101], [110, 97, 109, 101]⟩, ⟨[115, 99, 111, 112, 101], [110, 97, 109, 101]⟩, ⟨[116, 97, 98, 108, 101], [110, 97, 109, 101]⟩, ⟨[112, 114, 105, 109, 97, 114, 121, 95, 107, 101, 121], [117, 105, 110, 116, 54, 52]⟩, ⟨[112, 97, 121, 101, 114], [110, 97, 109, 101]⟩, ⟨[115, 101, 99, 111, 110, 100, 97, 114, 121, 95, 107, 101, 121], [102, 108, 111, 97, 116, 49, 50, 56]⟩]⟩,
    ⟨[107, 101, 121, 95, 118, 97, 108, 117, 101, 95, 118, 48], [], [⟨[100, 97, 116, 97, 98, 97, 115, 101], [110, 97, 109, 101]⟩, ⟨[99, 111, 110, 116, 114, 97, 99, 116], [110, 97, 109, 101]⟩, ⟨[107, 101, 121], [98, 121, 116, 101, 115]⟩, ⟨[118, 97, 108, 117, 101], [98, 121, 116, 101, 115]⟩]⟩,
    ⟨[107, 101, 121, 95, 119, 101, 105, 103, 104, 116], [], [⟨[107, 101, 121], [112, 117, 98, 108, 105, 99, 95, 107, 101, 121]⟩, ⟨[119, 101, 105, 103, 104, 116], [117, 105, 110, 116, 49, 54]⟩]⟩,
    ⟨[98, 108, 111, 99, 107, 95, 115, 105, 103, 110, 105, 110, 103, 95, 97, 117, 116, 104, 111, 114, 105, 116, 121, 95, 118, 48], [], [⟨[116, 104, 114, 101, 115, 104, 111, 108, 100], [117, 105, 110, 116, 51, 50]⟩, ⟨[107, 101, 121, 115], [107, 101, 121, 95, 119, 101, 105, 103, 104, 116, 91, 93]⟩]⟩,
    ⟨[112, 114, 111, 100, 117, 99, 101, 114, 95, 97, 117, 116, 104, 111, 114, 105, 116, 121], [], [⟨[112, 114, 111, 100, 117, 99, 101, 114, 95, 110, 97, 109, 101], [110, 97, 109, 101]⟩, ⟨[97, 117, 116, 104, 111, 114, 105, 116, 121], [98, 108, 111, 99, 107, 95, 115, 105, 103, 110, 105, 110, 103, 95, 97, 117, 116, 104, 111, 114, 105, 116, 121]⟩]⟩,
    ⟨[112, 114, 111, 100, 117, 99, 101, 114, 95, 97, 117, 116, 104, 111, 114, 105, 116, 121, 95, 115, 99, 104, 101, 100, 117, 108, 101], [], [⟨[118, 101, 114, 115, 105, 111, 110], [117, 105, 110, 116, 51, 50]⟩, ⟨[112, 114, 111, 100, 117, 99, 101, 114, 115], [112, 114, 111, 100, 117, 99, 101, 114, 95, 97, 117, 116, 104, 111, 114, 105, 116, 121, 91, 93]⟩]⟩,
    ⟨[99, 104, 97, 105, 110, 95, 99, 111, 110, 102, 105, 103, 95, 118, 48], [], [⟨[109, 97, 120, 95, 98, 108, 111, 99, 107, 95, 110, 101, 116, 95, 117, 115, 97, 103, 101], [117, 105, 110, 116, 54, 52]⟩, ⟨[116, 97, 114, 103, 101, 116, 95, 98, 108, 111, 99, 107, 95, 110, 101, 116, 95, 117, 115, 97, 103, 101, 95, 112, 99, 116], [117, 105, 110, 116, 51, 50]⟩, ⟨[109, 97, 120, 95, 116, 114, 97, 110, 115, 97, 99, 116, 105, 111, 110, 95, 110, 101, 116, 95, 117, 115, 97, 103, 101], [117, 105, 110, 116, 51, 50]⟩, ⟨[98, 97, 115, 101, 95, 112, 101, 114, 95, 116, 114, 97, 110, 115, 97, 99, 116, 105, 111, 110, 95, 110, 101, 116, 95, 117, 115, 97, 103, 101], [117, 105, 110, 116, 51, 50]⟩, ⟨[110, 101, 116, 95, 117, 115, 97, 103, 101, 95, 108, 101, 101, 119, 97, 121], [117, 105, 110, 116, 51, 50]⟩, ⟨[99, 111, 110, 116, 101, 120, 116, 95, 102, 114, 101, 101, 95, 100, 105, 115, 99, 111, 117, 110, 116, 95, 110, 101, 116, 95, 117, 115, 97, 103, 101, 95, 110, 117, 109], [117, 105, 110, 116, 51, 50]⟩, ⟨[99, 111, 110, 116, 101, 120, 116, 95, 102, 114, 101, 101, 95, 100, 105, 115, 99, 111, 117, 110, 116, 95, 110, 101, 116, 95, 117, 115, 97, 103, 101, 95, 100, 101, 110], [117, 105, 110, 116, 51, 50]⟩, ⟨[109, 97, 120, 95, 98, 108, 111, 99, 107, 95, 99, 112, 117, 95, 117, 115, 97, 103, 101], [117, 105, 110, 116, 51, 50]⟩, ⟨[116, 97, 114, 103, 101, 116, 95, 98, 108, 111, 99, 107, 95, 99, 112, 117, 95, 117, 115, 97, 103, 101, 95, 112, 99, 116], [117, 105, 110, 116, 51, 50]⟩, ⟨[109, 97, 120, 95, 116, 114, 97, 110, 115, 97, 99, 116, 105, 111, 110, 95, 99, 112, 117, 95, 117, 115, 97, 103, 101], [117, 105, 110, 116, 51, 50]⟩, ⟨[109, 105, 110, 95, 116, 114, 97, 110, 115, 97, 99, 116, 105, 111, 110, 95, 99, 112, 117, 95, 117, 115, 97, 103, 101], [117, 105, 110, 116, 51, 50]⟩, ⟨[109, 97, 120, 95, 116, 114, 97, 110, 115, 97, 99, 116, 105, 111, 110, 95, 108, 105, 102, 101, 116, 105, 109, 101], [117, 105, 110, 116, 51, 50]⟩, ⟨[100, 101, 102, 101, 114, 114, 101, 100, 95, 116, 114, 120, 95, 101, 120, 112, 105, 114, 97, 116, 105, 111, 110, 95, 119, 105, 110, 100, 111, 119], [117, 105, 110, 116, 51, 50]⟩, ⟨[109, 97, 120, 95, 116, 114, 97, 110, 115, 97, 99, 116, 105, 111, 110, 95, 100, 101, 108, 97, 121], [117, 105, 110, 116, 51, 50]⟩, ⟨[109, 97, 120, 95, 105, 110, 108, 105, 110, 101, 95, 97, 99, 116, 105, 111, 110, 95, 115, 105, 122, 101], [117, 105, 110, 116, 51, 50]⟩, ⟨[109, 97, 120, 95, 105, 110, 108, 105, 110, 101, 95, 97, 99, 116, 105, 111, 110, 95, 100, 101, 112, 116, 104], [117, 105, 110, 116, 49, 54]⟩, ⟨[109, 97, 120, 95, 97, 117, 116, 104, 111, 114, 105, 116, 121, 95, 100, 101, 112, 116, 104], [117, 105, 110, 116, 49, 54]⟩]⟩,
    ⟨[103, 108, 111, 98, 97, 108, 95, 112, 114, 111, 112, 101, 114, 116, 121, 95, 118, 48], [], [⟨[112, 114, 111, 112, 111, 115, 101, 100, 95, 115, 99, 104, 101, 100, 117, 108, 101, 95, 98, 108, 111, 99, 107, 95, 110, 117, 109], [117, 105, 110, 116, 51, 50, 63]⟩, ⟨[112, 114, 111, 112, 111, 115, 101, 100, 95, 115, 99, 104, 101, 100, 117, 108, 101], [112, 114, 111, 100, 117, 99, 101, 114, 95, 115, 99, 104, 101, 100, 117, 108, 101]⟩, ⟨[99, 111, 110, 102, 105, 103, 117, 114, 97, 116, 105, 111, 110], [99, 104, 97, 105, 110, 95, 99, 111, 110, 102, 105, 103]⟩]⟩,
    ⟨[103, 108, 111, 98, 97, 108, 95, 112, 114, 111, 112, 101, 114, 116, 121, 95, 118, 49], [], [⟨[112, 114, 111, 112, 111, 115, 101, 100, 95, 115, 99, 104, 101, 100, 117, 108, 101, 95, 98, 108, 111, 99, 107, 95, 110, 117, 109], [117, 105, 110, 116, 51, 50, 63]⟩, ⟨[112, 114, 111, 112, 111, 115, 101, 100, 95, 115, 99, 104, 101, 100, 117, 108, 101], [112, 114, 111, 100, 117, 99, 101, 114, 95, 97, 117, 116, 104, 111, 114, 105, 116, 121, 95, 115, 99, 104, 101, 100, 117, 108, 101]⟩, ⟨[99, 111, 110, 102, 105, 103, 117, 114, 97, 116, 105, 111, 110], [99, 104, 97, 105, 110, 95, 99, 111, 110, 102, 105, 103]⟩, ⟨[99, 104, 97, 105, 110, 95, 105, 100], [99, 104, 101, 99, 107, 115, 117, 109, 50, 53, 54]⟩]⟩,
    ⟨[103, 101, 110, 101, 114, 97, 116, 101, 100, 95, 116, 114, 97, 110, 115, 97, 99, 116, 105, 111, 110, 95, 118, 48], [], [⟨[115, 101, 110, 100, 101, 114], [110, 97, 109, 101]⟩, ⟨[115, 101, 110, 100, 101, 114, 95, 105, 100], [117, 105, 110, 116, 49, 50, 56]⟩, ⟨[112, 97, 121, 101, 114], [110, 97, 109, 101]⟩, ⟨[116, 114, 120, 95, 105, 100], [99, 104, 101, 99, 107, 115, 117, 109, 50, 53, 54]⟩, ⟨[112, 97, 99, 107, 101, 100, 95, 116, 114, 120], [98, 121, 116, 101, 115]⟩]⟩,
    ⟨[97, 99, 116, 105, 118, 97, 116, 101, 100, 95, 112, 114, 111, 116, 111, 99, 111, 108, 95, 102, 101, 97, 116, 117, 114, 101, 95, 118, 48], [], [⟨[102, 101, 97, 116, 117, 114, 101, 95, 100, 105, 103, 101, 115, 116], [99, 104, 101, 99, 107, 115, 117, 109, 50, 53, 54]⟩, ⟨[97, 99, 116, 105, 118, 97, 116, 105, 111, 110, 95, 98, 108, 111, 99, 107, 95, 110, 117, 109], [117, 105, 110, 116, 51, 50]⟩]⟩,
    ⟨[112, 114, 111, 116, 111, 99, 111, 108, 95, 115, 116, 97, 116, 101, 95, 118, 48], [], [⟨[97, 99, 116, 105, 118, 97, 116, 101, 100, 95, 112, 114, 111, 116, 111, 99, 111, 108, 95, 102, 101, 97, 116, 117, 114, 101, 115], [97, 99, 116, 105, 118, 97, 116, 101, 100, 95, 112, 114, 111, 116, 111, 99, 111, 108, 95, 102, 101, 97, 116, 117, 114, 101, 91, 93]⟩]⟩,
    ⟨[112, 101, 114, 109, 105, 115, 115, 105, 111, 110, 95, 108, 101, 118, 101, 108, 95, 119, 101, 105, 103, 104, 116], [], [⟨[112, 101, 114, 109, 105, 115, 115, 105, 111, 110], [112, 101, 114, 109, 105, 115, 115, 105, 111, 110, 95, 108, 101, 118, 101, 108]⟩, ⟨[119, 101, 105, 103, 104, 116], [117, 105, 110, 116, 49, 54]⟩]⟩,
    ⟨[119, 97, 105, 116, 95, 119, 101, 105, 103, 104, 116], [], [⟨[119, 97, 105, 116, 95, 115, 101, 99], [117, 105, 110, 116, 51, 50]⟩, ⟨[119, 101, 105, 103, 104, 116], [117, 105, 110, 116, 49, 54]⟩]⟩,
    ⟨[97, 117, 116, 104, 111, 114, 105, 116, 121], [], [⟨[116, 104, 114, 101, 115, 104, 111, 108, 100], [117, 105, 110, 116, 51, 50]⟩, ⟨[107, 101, 121, 115], [107, 101, 121, 95, 119, 101, 105, 103, 104, 116, 91, 93]⟩, ⟨[97, 99, 99, 111, 117, 110, 116, 115], [112, 101, 114, 109, 105, 115, 115, 105, 111, 110, 95, 108, 101, 118, 101, 108, 95, 119, 101, 105, 103, 104, 116, 91, 93]⟩, ⟨[119, 97, 105, 116, 115], [119, 97, 105, 116, 95, 119, 101, 105, 103, 104, 116, 91, 93]⟩]⟩,
    ⟨[112, 101, 114, 109, 105, 115, 115, 105, 111, 110, 95, 118, 48], [], [⟨[111, 119, 110, 101, 114], [110, 97, 109, 101]⟩, ⟨[110, 97, 109, 101], [110, 97, 109, 101]⟩, ⟨[112, 97, 114, 101, 110, 116], [110, 97, 109, 101]⟩, ⟨[108, 97, 115, 116, 95, 117, 112, 100, 97, 116, 101, 100], [116, 105, 109, 101, 95, 112, 111, 105, 110, 116]⟩, ⟨[97, 117, 116, 104], [97, 117, 116, 104, 111, 114, 105, 116, 121]⟩]⟩,
    ⟨[112, 101, 114, 109, 105, 115, 115, 105, 111, 110, 95, 108, 105, 110, 107, 95, 118, 48], [], [⟨[97, 99, 99, 111, 117, 110, 116], [110, 97, 109, 101]⟩, ⟨[99, 111, 100, 101], [110, 97, 109, 101]⟩, ⟨[109, 101, 115, 115, 97, 103, 101, 95, 116, 121, 112, 101], [110, 97, 109, 101]⟩, ⟨[114, 101, 113, 117, 105, 114, 101, 100, 95, 112, 101, 114, 109, 105, 115, 115, 105, 111, 110], [110, 97, 109, 101]⟩]⟩,
    ⟨[114, 101, 115, 111, 117, 114, 99, 101, 95, 108, 105, 109, 105, 116, 115, 95, 118, 48], [], [⟨[111, 119, 110, 101, 114], [110, 97, 109, 101]⟩, ⟨[110, 101, 116, 95, 119, 101, 105, 103, 104, 116], [105, 110, 116, 54, 52]⟩, ⟨[99, 112, 117, 95, 119, 101, 105, 103, 104, 116], [105, 110, 116, 54, 52]⟩, ⟨[114, 97, 109, 95, 98, 121, 116, 101, 115], [105, 110, 116, 54, 52]⟩]⟩,
    ⟨[117, 115, 97, 103, 101, 95, 97, 99, 99, 117, 109, 117, 108, 97, 116, 111, 114, 95, 118, 48], [], [⟨[108, 97, 115, 116, 95, 111, 114, 100, 105, 110, 97, 108], [117, 105, 110, 116, 51, 50]⟩, ⟨[118, 97, 108, 117, 101, 95, 101, 120], [117, 105, 110, 116, 54, 52]⟩, ⟨[99, 111, 110, 115, 117, 109, 101, 100], [117, 105, 110, 116, 54, 52]⟩]⟩,
    ⟨[114, 101, 115, 111, 117, 114, 99, 101, 95, 117, 115, 97, 103, 101, 95, 118, 48], [], [⟨[111, 119, 110, 101, 114], [110, 97, 109, 101]⟩, ⟨[110, 101, 116, 95, 117, 115, 97, 103, 101], [117, 115, 97, 103, 101, 95, 97, 99, 99, 117, 109, 117, 108, 97, 116, 111, 114]⟩, ⟨[99, 112, 117, 95, 117, 115, 97, 103, 101], [117, 115, 97, 103, 101, 95, 97, 99, 99, 117, 109, 117, 108, 97, 116, 111, 114]⟩, ⟨[114, 97, 109, 95, 117, 115, 97, 103, 101], [117, 105, 110, 116, 54, 52]⟩]⟩,
    ⟨[114, 101, 115, 111, 117, 114, 99, 101, 95, 108, 105, 109, 105, 116, 115, 95, 115, 116, 97, 116, 101, 95, 118, 48], [], [⟨[97, 118, 101, 114, 97, 103, 101, 95, 98, 108, 111, 99, 107, 95, 110, 101, 116, 95, 117, 115, 97, 103, 101], [117, 115, 97, 103, 101, 95, 97, 99, 99, 117, 109, 117, 108, 97, 116, 111, 114]⟩, ⟨[97, 118, 101, 114, 97, 103, 101, 95, 98, 108, 111, 99, 107, 95, 99, 112, 117, 95, 117, 115, 97, 103, 101], [117, 115, 97, 103, 101, 95, 97, 99, 99, 117, 109, 117, 108, 97, 116, 111, 114]⟩, ⟨[116, 111, 116, 97, 108, 95, 110, 101, 116, 95, 119, 101, 105, 103, 104, 116], [117, 105, 110, 116, 54, 52]⟩, ⟨[116, 111, 116, 97, 108, 95, 99, 112, 117, 95, 119, 101, 105, 103, 104, 116], [117, 105, 110, 116, 54, 52]⟩, ⟨[116, 111, 116, 97, 108, 95, 114, 97, 109, 95, 98, 121, 116, 101, 115], [117, 105, 110, 116, 54, 52]⟩, ⟨[118, 105, 114, 116, 117, 97, 108, 95, 110, 101, 116, 95, 108, 105, 109, 105, 116], [117, 105, 110, 116, 54, 52]⟩, ⟨[118, 105, 114, 116, 117, 97, 108, 95, 99, 112, 117, 95, 108, 105, 109, 105, 116], [117, 105, 110, 116, 54, 52]⟩]⟩,
    ⟨[114, 101, 115, 111, 117, 114, 99, 101, 95, 108, 105, 109, 105, 116, 115, 95, 114, 97, 116, 105, 111, 95, 118, 48], [], [⟨[110, 117, 109, 101, 114, 97, 116, 111, 114], [117, 105, 110, 116, 54, 52]⟩, ⟨[100, 101, 110, 111, 109, 105, 110, 97, 116, 111, 114], [117, 105, 110, 116, 54, 52]⟩]⟩,
    ⟨[101, 108, 97, 115, 116, 105, 99, 95, 108, 105, 109, 105, 116, 95, 112, 97, 114, 97, 109, 101, 116, 101, 114, 115, 95, 118, 48], [], [⟨[116, 97, 114, 103, 101, 116], [117, 105, 110, 116, 54, 52]⟩, ⟨[109, 97, 120], [117, 105, 110, 116, 54, 52]⟩, ⟨[112, 101, 114, 105, 111, 100, 115], [117, 105, 110, 116, 51, 50]⟩, ⟨[109, 97, 120, 95, 109, 117, 108, 116, 105, 112, 108, 105, 101, 114], [117, 105, 110, 116, 51, 50]⟩, ⟨[99, 111, 110, 116, 114, 97, 99, 116, 95, 114, 97, 116, 101], [114, 101, 115, 111, 117, 114, 99, 101, 95, 108, 105, 109, 105, 116, 115, 95, 114, 97, 116, 105, 111]⟩, ⟨[101, 120, 112, 97, 110, 100, 95, 114, 97, 116, 101], [114, 101, 115, 111, 117, 114, 99, 101, 95, 108, 105, 109, 105, 116, 115, 95, 114, 97, 116, 105, 111]⟩]⟩,
    ⟨[114, 101, 115, 111, 117, 114, 99, 101, 95, 108, 105, 109, 105, 116, 115, 95, 99, 111, 110, 102, 105, 103, 95, 118, 48], [], [⟨[99, 112, 117, 95, 108, 105, 109, 105, 116, 95, 112, 97, 114, 97, 109, 101, 116, 101, 114, 115], [101, 108, 97, 115, 116, 105, 99, 95, 108, 105, 109, 105, 116, 95, 112, 97, 114, 97, 109, 101, 116, 101, 114, 115]⟩, ⟨[110, 101, 116, 95, 108, 105, 109, 105, 116, 95, 112, 97, 114, 97, 109, 101, 116, 101, 114, 115], [101, 108, 97, 115, 116, 105, 99, 95, 108, 105, 109, 105, 116, 95, 112, 97, 114, 97, 109, 101, 116, 101, 114, 115]⟩, ⟨[97, 99, 99, 111, 117, 110, 116, 95, 99, 112, 117, 95, 117, 115, 97, 103, 101, 95, 97, 118, 101, 114, 97, 103, 101, 95, 119, 105, 110, 100, 111, 119], [117, 105, 110, 116, 51, 50]⟩, ⟨[97, 99, 99, 111, 117, 110, 116, 95, 110, 101, 116, 95, 117, 115, 97, 103, 101, 95, 97, 118, 101, 114, 97, 103, 101, 95, 119, 105, 110, 100, 111, 119], [117, 105, 110, 116, 51, 50]⟩]⟩]

/-- its variants -/
def variantsLit : List VariantDef :=
  [⟨[114, 101, 113, 117, 101, 115, 116], [[103, 101, 116, 95, 115, 116, 97, 116, 117, 115, 95, 114, 101, 113, 117, 101, 115, 116, 95, 118, 48], [103, 101, 116, 95, 98, 108, 111, 99, 107, 115, 95, 114, 101, 113, 117, 101, 115, 116, 95, 118, 48], [103, 101, 116, 95, 98, 108, 111, 99, 107, 115, 95, 97, 99, 107, 95, 114, 101, 113, 117, 101, 115, 116, 95, 118, 48]]⟩,
    ⟨[114, 101, 115, 117, 108, 116], [[103, 101, 116, 95, 115, 116, 97, 116, 117, 115, 95, 114, 101, 115, 117, 108, 116, 95, 118, 48], [103, 101, 116, 95, 98, 108, 111, 99, 107, 115, 95, 114, 101, 115, 117, 108, 116, 95, 118, 48], [103, 101, 116, 95, 98, 108, 111, 99, 107, 115, 95, 114, 101, 115, 117, 108, 116, 95, 118, 49]]⟩,
    ⟨[116, 97, 98, 108, 101, 95, 100, 101, 108, 116, 97], [[116, 97, 98, 108, 101, 95, 100, 101, 108, 116, 97, 95, 118, 48]]⟩,
    ⟨[97, 99, 116, 105, 111, 110, 95, 114, 101, 99, 101, 105, 112, 116], [[97, 99, 116, 105, 111, 110, 95, 114, 101, 99, 101, 105, 112, 116, 95, 118, 48]]⟩,
    ⟨[97, 99, 116, 105, 111, 110, 95, 116, 114, 97, 99, 101], [[97, 99, 116, 105, 111, 110, 95, 116, 114, 97, 99, 101, 95, 118, 48], [97, 99, 116, 105, 111, 110, 95, 116, 114, 97, 99, 101, 95, 118, 49]]⟩,
    ⟨[115, 101, 103, 109, 101, 110, 116, 95, 116, 121, 112, 101], [[99, 104, 101, 99, 107, 115, 117, 109, 50, 53, 54], [98, 121, 116, 101, 115]]⟩,
    ⟨[112, 114, 117, 110, 97, 98, 108, 101, 95, 100, 97, 116, 97, 95, 116], [[112, 114, 117, 110, 97, 98, 108, 101, 95, 100, 97, 116, 97, 95, 116, 121, 112, 101, 58, 58, 102, 117, 108, 108, 95, 108, 101, 103, 97, 99, 121], [112, 114, 117, 110, 97, 98, 108, 101, 95, 100, 97, 116, 97, 95, 116, 121, 112, 101, 58, 58, 110, 111, 110, 101], [112, 114, 117, 110, 97, 98, 108, 101, 95, 100, 97, 116, 97, 95, 116, 121, 112, 101, 58, 58, 112, 97, 114, 116, 105, 97, 108], [112, 114, 117, 110, 97, 98, 108, 101, 95, 100, 97, 116, 97, 95, 116, 121, 112, 101, 58, 58, 102, 117, 108, 108]]⟩,
    ⟨[112, 97, 114, 116, 105, 97, 108, 95, 116, 114, 97, 110, 115, 97, 99, 116, 105, 111, 110], [[112, 97, 114, 116, 105, 97, 108, 95, 116, 114, 97, 110, 115, 97, 99, 116, 105, 111, 110, 95, 118, 48], [112, 97, 114, 116, 105, 97, 108, 95, 116, 114, 97, 110, 115, 97, 99, 116, 105, 111, 110, 95, 118, 49]]⟩,
    ⟨[116, 114, 97, 110, 115, 97, 99, 116, 105, 111, 110, 95, 116, 114, 97, 99, 101], [[116, 114, 97, 110, 115, 97, 99, 116, 105, 111, 110, 95, 116, 114, 97, 99, 101, 95, 118, 48]]⟩,
    ⟨[116, 114, 97, 110, 115, 97, 99, 116, 105, 111, 110, 95, 118, 97, 114, 105, 97, 110, 116, 95, 118, 48], [[99, 104, 101, 99, 107, 115, 117, 109, 50, 53, 54], [112, 97, 99, 107, 101, 100, 95, 116, 114, 97, 110, 115, 97, 99, 116, 105, 111, 110, 95, 118, 48]]⟩,
    ⟨[116, 114, 97, 110, 115, 97, 99, 116, 105, 111, 110, 95, 118, 97, 114, 105, 97, 110, 116], [[99, 104, 101, 99, 107, 115, 117, 109, 50, 53, 54], [112, 97, 99, 107, 101, 100, 95, 116, 114, 97, 110, 115, 97, 99, 116, 105, 111, 110]]⟩,
    ⟨[115, 105, 103, 110, 101, 100, 95, 98, 108, 111, 99, 107, 95, 118, 97, 114, 105, 97, 110, 116], [[115, 105, 103, 110, 101, 100, 95, 98, 108, 111, 99, 107, 95, 118, 48], [115, 105, 103, 110, 101, 100, 95, 98, 108, 111, 99, 107, 95, 118, 49]]⟩,
    ⟨[97, 99, 99, 111, 117, 110, 116], [[97, 99, 99, 111, 117, 110, 116, 95, 118, 48]]⟩,
    ⟨[97, 99, 99, 111, 117, 110, 116, 95, 109, 101, 116, 97, 100, 97, 116, 97], [[97, 99, 99, 111, 117, 110, 116, 95, 109, 101, 116, 97, 100, 97, 116, 97, 95, 118, 48]]⟩,
    ⟨[99, 111, 100, 101], [[99, 111, 100, 101, 95, 118, 48]]⟩,
    ⟨[99, 111, 110, 116, 114, 97, 99, 116, 95, 116, 97, 98, 108, 101], [[99, 111, 110, 116, 114, 97, 99, 116, 95, 116, 97, 98, 108, 101, 95, 118, 48]]⟩,
    ⟨[99, 111, 110, 116, 114, 97, 99, 116, 95, 114, 111, 119], [[99, 111, 110, 116, 114, 97, 99, 116, 95, 114, 111, 119, 95, 118, 48]]⟩,
    ⟨[99, 111, 110, 116, 114, 97, 99, 116, 95, 105, 110, 100, 101, 120, 54, 52], [[99, 111, 110, 116, 114, 97, 99, 116, 95, 105, 110, 100, 101, 120, 54, 52, 95, 118, 48]]⟩,
    ⟨[99, 111, 110, 116, 114, 97, 99, 116, 95, 105, 110, 100, 101, 120, 49, 50, 56], [[99, 111, 110, 116, 114, 97, 99, 116, 95, 105, 110, 100, 101, 120, 49, 50, 56, 95, 118, 48]]⟩,
    ⟨[99, 111, 110, 116, 114, 97, 99, 116, 95, 105, 110, 100, 101, 120, 50, 53, 54], [[99, 111, 110, 116, 114, 97, 99, 116, 95, 105, 110, 100, 101, 120, 50, 53, 54, 95, 118, 48]]⟩,
    ⟨[99, 111, 110, 116, 114, 97, 99, 116, 95, 105, 110, 100, 101, 120, 95, 100, 111, 117, 98, 108, 101], [[99, 111, 110, 116, 114, 97, 99, 116, 95, 105, 110, 100, 101, 120, 95, 100, 111, 117, 98, 108, 101, 95, 118, 48]]⟩,
    ⟨[99, 111, 110, 116, 114, 97, 99, 116, 95, 105, 110, 100, 101, 120, 95, 108, 111, 110, 103, 95, 100, 111, 117, 98, 108, 101], [[99, 111, 110, 116, 114, 97, 99, 116, 95, 105, 110, 100, 101, 120, 95, 108, 111, 110, 103, 95, 100, 111, 117, 98, 108, 101, 95, 118, 48]]⟩,
    ⟨[107, 101, 121, 95, 118, 97, 108, 117, 101], [[107, 101, 121, 95, 118, 97, 108, 117, 101, 95, 118, 48]]⟩,
    ⟨[98, 108, 111, 99, 107, 95, 115, 105, 103, 110, 105, 110, 103, 95, 97, 117, 116, 104, 111, 114, 105, 116, 121], [[98, 108, 111, 99, 107, 95, 115, 105, 103, 110, 105, 110, 103, 95, 97, 117, 116, 104, 111, 114, 105, 116, 121, 95, 118, 48]]⟩,
    ⟨[99, 104, 97, 105, 110, 95, 99, 111, 110, 102, 105, 103], [[99, 104, 97, 105, 110, 95, 99, 111, 110, 102, 105, 103, 95, 118, 48]]⟩,
    ⟨[103, 108, 111, 98, 97, 108, 95, 112, 114, 111, 112, 101, 114, 116, 121], [[103, 108, 111, 98, 97, 108, 95, 112, 114, 111, 112, 101, 114, 116, 121, 95, 118, 48], [103, 108, 111, 98, 97, 108, 95, 112, 114, 111, 112, 101, 114, 116, 121, 95, 118, 49]]⟩,
    ⟨[103, 101, 110, 101, 114, 97, 116, 101, 100, 95, 116, 114, 97, 110, 115, 97, 99, 116, 105, 111, 110], [[103, 101, 110, 101, 114, 97, 116, 101, 100, 95, 116, 114, 97, 110, 115, 97, 99, 116, 105, 111, 110, 95, 118, 48]]⟩,
    ⟨[97, 99, 116, 105, 118, 97, 116, 101, 100, 95, 112, 114, 111, 116, 111, 99, 111, 108, 95, 102, 101, 97, 116, 117, 114, 101], [[97, 99, 116, 105, 118, 97, 116, 101, 100, 95, 112, 114, 111, 116, 111, 99, 111, 108, 95, 102, 101, 97, 116, 117, 114, 101, 95, 118, 48]]⟩,
    ⟨[112, 114, 111, 116, 111, 99, 111, 108, 95, 115, 116, 97, 116, 101], [[112, 114, 111, 116, 111, 99, 111, 108, 95, 115, 116, 97, 116, 101, 95, 118, 48]]⟩,
    ⟨[112, 101, 114, 109, 105, 115, 115, 105, 111, 110], [[112, 101, 114, 109, 105, 115, 115, 105, 111, 110, 95, 118, 48]]⟩,
    ⟨[112, 101, 114, 109, 105, 115, 115, 105, 111, 110, 95, 108, 105, 110, 107], [[112, 101, 114, 109, 105, 115, 115, 105, 111, 110, 95, 108, 105, 110, 107, 95, 118, 48]]⟩,
    ⟨[114, 101, 115, 111, 117, 114, 99, 101, 95, 108, 105, 109, 105, 116, 115], [[114, 101, 115, 111, 117, 114, 99, 101, 95, 108, 105, 109, 105, 116, 115, 95, 118, 48]]⟩,
    ⟨[117, 115, 97, 103, 101, 95, 97, 99, 99, 117, 109, 117, 108, 97, 116, 111, 114], [[117, 115, 97, 103, 101, 95, 97, 99, 99, 117, 109, 117, 108, 97, 116, 111, 114, 95, 118, 48]]⟩,
    ⟨[114, 101, 115, 111, 117, 114, 99, 101, 95, 117, 115, 97, 103, 101], [[114, 101, 115, 111, 117, 114, 99, 101, 95, 117, 115, 97, 103, 101, 95, 118, 48]]⟩,
    ⟨[114, 101, 115, 111, 117, 114, 99, 101, 95, 108, 105, 109, 105, 116, 115, 95, 115, 116, 97, 116, 101], [[114, 101, 115, 111, 117, 114, 99, 101, 95, 108, 105, 109, 105, 116, 115, 95, 115, 116, 97, 116, 101, 95, 118, 48]]⟩,
    ⟨[114, 101, 115, 111, 117, 114, 99, 101, 95, 108, 105, 109, 105, 116, 115, 95, 114, 97, 116, 105, 111], [[114, 101, 115, 111, 117, 114, 99, 101, 95, 108, 105, 109, 105, 116, 115, 95, 114, 97, 116, 105, 111, 95, 118, 48]]⟩,
    ⟨[101, 108, 97, 115, 116, 105, 99, 95, 108, 105, 109, 105, 116, 95, 112, 97, 114, 97, 109, 101, 116, 101, 114, 115], [[101, 108, 97, 115, 116, 105, 99, 95, 108, 105, 109, 105, 116, 95, 112, 97, 114, 97, 109, 101, 116, 101, 114, 115, 95, 118, 48]]⟩,
    ⟨[114, 101, 115, 111, 117, 114, 99, 101, 95, 108, 105, 109, 105, 116, 115, 95, 99, 111, 110, 102, 105, 103], [[114, 101, 115, 111, 117, 114, 99, 101, 95, 108, 105, 109, 105, 116, 115, 95, 99, 111, 110, 102, 105, 103, 95, 118, 48]]⟩]

/-- its typedefs -/
def aliasesLit : List TypeDef :=
  []

/-- `Spec.Ship.abi`, evaluated -/
def abiLit : AbiDef :=
  { version := [101, 111, 115, 105, 111, 58, 58, 97, 98, 105, 47, 49, 46, 49], types := aliasesLit, structs := structsLit, actions := [], tables := [], clauses := [], errors := [], extensions := [],
    variants := variantsLit }

/-- `table`, evaluated -/
def tableLit : Table :=
  [([97, 99, 99, 111, 117, 110, 116, 95, 97, 117, 116, 104, 95, 115, 101, 113, 117, 101, 110, 99, 101], .struct [⟨[97, 99, 99, 111, 117, 110, 116], [110, 97, 109, 101]⟩, ⟨[115, 101, 113, 117, 101, 110, 99, 101], [117, 105, 110, 116, 54, 52]⟩]),
    ([97, 99, 99, 111, 117, 110, 116, 95, 97, 117, 116, 104, 95, 115, 101, 113, 117, 101, 110, 99, 101, 91, 93], .array [97, 99, 99, 111, 117, 110, 116, 95, 97, 117, 116, 104, 95, 115, 101, 113, 117, 101, 110, 99, 101]),
    ([97, 99, 99, 111, 117, 110, 116, 95, 100, 101, 108, 116, 97], .struct [⟨[97, 99, 99, 111, 117, 110, 116], [110, 97, 109, 101]⟩, ⟨[100, 101, 108, 116, 97], [105, 110, 116, 54, 52]⟩]),
    ([97, 99, 99, 111, 117, 110, 116, 95, 100, 101, 108, 116, 97, 63], .optional [97, 99, 99, 111, 117, 110, 116, 95, 100, 101, 108, 116, 97]),
    ([97, 99, 99, 111, 117, 110, 116, 95, 100, 101, 108, 116, 97, 91, 93], .array [97, 99, 99, 111, 117, 110, 116, 95, 100, 101, 108, 116, 97]),
    ([97, 99, 99, 111, 117, 110, 116, 95, 109, 101, 116, 97, 100, 97, 116, 97, 95, 118, 48], .struct [⟨[110, 97, 109, 101], [110, 97, 109, 101]⟩, ⟨[112, 114, 105, 118, 105, 108, 101, 103, 101, 100], [98, 111, 111, 108]⟩, ⟨[108, 97, 115, 116, 95, 99, 111, 100, 101, 95, 117, 112, 100, 97, 116, 101], [116, 105, 109, 101, 95, 112, 111, 105, 110, 116]⟩, ⟨[99, 111, 100, 101], [99, 111, 100, 101, 95, 105, 100, 63]⟩]),
    ([97, 99, 99, 111, 117, 110, 116, 95, 118, 48], .struct [⟨[110, 97, 109, 101], [110, 97, 109, 101]⟩, ⟨[99, 114, 101, 97, 116, 105, 111, 110, 95, 100, 97, 116, 101], [98, 108, 111, 99, 107, 95, 116, 105, 109, 101, 115, 116, 97, 109, 112, 95, 116, 121, 112, 101]⟩, ⟨[97, 98, 105], [98, 121, 116, 101, 115]⟩]),
    ([97, 99, 116, 105, 111, 110], .struct [⟨[97, 99, 99, 111, 117, 110, 116], [110, 97, 109, 101]⟩, ⟨[110, 97, 109, 101], [110, 97, 109, 101]⟩, ⟨[97, 117, 116, 104, 111, 114, 105, 122, 97, 116, 105, 111, 110], [112, 101, 114, 109, 105, 115, 115, 105, 111, 110, 95, 108, 101, 118, 101, 108, 91, 93]⟩, ⟨[100, 97, 116, 97], [98, 121, 116, 101, 115]⟩]),
    ([97, 99, 116, 105, 111, 110, 91, 93], .array [97, 99, 116, 105, 111, 110]),
    ([97, 99, 116, 105, 111, 110, 95, 114, 101, 99, 101, 105, 112, 116, 95, 118, 48], .struct [⟨[114, 101, 99, 101, 105, 118, 101, 114], [110, 97, 109, 101]⟩, ⟨[97, 99, 116, 95, 100, 105, 103, 101, 115, 116], [99, 104, 101, 99, 107, 115, 117, 109, 50, 53, 54]⟩, ⟨[103, 108, 111, 98, 97, 108, 95, 115, 101, 113, 117, 101, 110, 99, 101], [117, 105, 110, 116, 54, 52]⟩, ⟨[114, 101, 99, 118, 95, 115, 101, 113, 117, 101, 110, 99, 101], [117, 105, 110, 116, 54, 52]⟩, ⟨[97, 117, 116, 104, 95, 115, 101, 113, 117, 101, 110, 99, 101], [97, 99, 99, 111, 117, 110, 116, 95, 97, 117, 116, 104, 95, 115, 101, 113, 117, 101, 110, 99, 101, 91, 93]⟩, ⟨[99, 111, 100, 101, 95, 115, 101, 113, 117, 101, 110, 99, 101], [118, 97, 114, 117, 105, 110, 116, 51, 50]⟩, ⟨[97, 98, 105, 95, 115, 101, 113, 117, 101, 110, 99, 101], [118, 97, 114, 117, 105, 110, 116, 51, 50]⟩]),
    ([97, 99, 116, 105, 111, 110, 95, 116, 114, 97, 99, 101, 95, 118, 48], .struct [⟨[97, 99, 116, 105, 111, 110, 95, 111, 114, 100, 105, 110, 97, 108], [118, 97, 114, 117, 105, 110, 116, 51, 50]⟩, ⟨[99, 114, 101, 97, 116, 111, 114, 95, 97, 99, 116, 105, 111, 110, 95, 111, 114, 100, 105, 110, 97, 108], [118, 97, 114, 117, 105, 110, 116, 51, 50]⟩, ⟨[114, 101, 99, 101, 105, 112, 116], [118, 97, 114, 105, 97, 110, 116, 95, 97, 99, 116, 105, 111, 110, 95, 114, 101, 99, 101, 105, 112, 116, 95, 118, 48, 63]⟩, ⟨[114, 101, 99, 101, 105, 118, 101, 114], [110, 97, 109, 101]⟩, ⟨[97, 99, 116], [97, 99, 116, 105, 111, 110]⟩, ⟨[99, 111, 110, 116, 101, 120, 116, 95, 102, 114, 101, 101], [98, 111, 111, 108]⟩, ⟨[101, 108, 97, 112, 115, 101, 100], [105, 110, 116, 54, 52]⟩, ⟨[99, 111, 110, 115, 111, 108, 101], [115, 116, 114, 105, 110, 103]⟩, ⟨[97, 99, 99, 111, 117, 110, 116, 95, 114, 97, 109, 95, 100, 101, 108, 116, 97, 115], [97, 99, 99, 111, 117, 110, 116, 95, 100, 101, 108, 116, 97, 91, 93]⟩, ⟨[101, 120, 99, 101, 112, 116], [115, 116, 114, 105, 110, 103, 63]⟩, ⟨[101, 114, 114, 111, 114, 95, 99, 111, 100, 101], [117, 105, 110, 116, 54, 52, 63]⟩]),
    ([97, 99, 116, 105, 111, 110, 95, 116, 114, 97, 99, 101, 95, 118, 49], .struct [⟨[97, 99, 116, 105, 111, 110, 95, 111, 114, 100, 105, 110, 97, 108], [118, 97, 114, 117, 105, 110, 116, 51, 50]⟩, ⟨[99, 114, 101, 97, 116, 111, 114, 95, 97, 99, 116, 105, 111, 110, 95, 111, 114, 100, 105, 110, 97, 108], [118, 97, 114, 117, 105, 110, 116, 51, 50]⟩, ⟨[114, 101, 99, 101, 105, 112, 116], [118, 97, 114, 105, 97, 110, 116, 95, 97, 99, 116, 105, 111, 110, 95, 114, 101, 99, 101, 105, 112, 116, 95, 118, 48, 63]⟩, ⟨[114, 101, 99, 101, 105, 118, 101, 114], [110, 97, 109, 101]⟩, ⟨[97, 99, 116], [97, 99, 116, 105, 111, 110]⟩, ⟨[99, 111, 110, 116, 101, 120, 116, 95, 102, 114, 101, 101], [98, 111, 111, 108]⟩, ⟨[101, 108, 97, 112, 115, 101, 100], [105, 110, 116, 54, 52]⟩, ⟨[99, 111, 110, 115, 111, 108, 101], [115, 116, 114, 105, 110, 103]⟩, ⟨[97, 99, 99, 111, 117, 110, 116, 95, 114, 97, 109, 95, 100, 101, 108, 116, 97, 115], [97, 99, 99, 111, 117, 110, 116, 95, 100, 101, 108, 116, 97, 91, 93]⟩, ⟨[97, 99, 99, 111, 117, 110, 116, 95, 100, 105, 115, 107, 95, 100, 101, 108, 116, 97, 115], [97, 99, 99, 111, 117, 110, 116, 95, 100, 101, 108, 116, 97, 91, 93]⟩, ⟨[101, 120, 99, 101, 112, 116], [115, 116, 114, 105, 110, 103, 63]⟩, ⟨[101, 114, 114, 111, 114, 95, 99, 111, 100, 101], [117, 105, 110, 116, 54, 52, 63]⟩, ⟨[114, 101, 116, 117, 114, 110, 95, 118, 97, 108, 117, 101], [98, 121, 116, 101, 115]⟩]),
    ([97, 99, 116, 105, 118, 97, 116, 101, 100, 95, 112, 114, 111, 116, 111, 99, 111, 108, 95, 102, 101, 97, 116, 117, 114, 101, 95, 118, 48], .struct [⟨[102, 101, 97, 116, 117, 114, 101, 95, 100, 105, 103, 101, 115, 116], [99, 104, 101, 99, 107, 115, 117, 109, 50, 53, 54]⟩, ⟨[97, 99, 116, 105, 118, 97, 116, 105, 111, 110, 95, 98, 108, 111, 99, 107, 95, 110, 117, 109], [117, 105, 110, 116, 51, 50]⟩]),
    ([97, 117, 116, 104, 111, 114, 105, 116, 121], .struct [⟨[116, 104, 114, 101, 115, 104, 111, 108, 100], [117, 105, 110, 116, 51, 50]⟩, ⟨[107, 101, 121, 115], [107, 101, 121, 95, 119, 101, 105, 103, 104, 116, 91, 93]⟩, ⟨[97, 99, 99, 111, 117, 110, 116, 115], [112, 101, 114, 109, 105, 115, 115, 105, 111, 110, 95, 108, 101, 118, 101, 108, 95, 119, 101, 105, 103, 104, 116, 91, 93]⟩, ⟨[119, 97, 105, 116, 115], [119, 97, 105, 116, 95, 119, 101, 105, 103, 104, 116, 91, 93]⟩]),
    ([98, 108, 111, 99, 107, 95, 104, 101, 97, 100, 101, 114], .struct [⟨[116, 105, 109, 101, 115, 116, 97, 109, 112], [98, 108, 111, 99, 107, 95, 116, 105, 109, 101, 115, 116, 97, 109, 112, 95, 116, 121, 112, 101]⟩, ⟨[112, 114, 111, 100, 117, 99, 101, 114], [110, 97, 109, 101]⟩, ⟨[99, 111, 110, 102, 105, 114, 109, 101, 100], [117, 105, 110, 116, 49, 54]⟩, ⟨[112, 114, 101, 118, 105, 111, 117, 115], [99, 104, 101, 99, 107, 115, 117, 109, 50, 53, 54]⟩, ⟨[116, 114, 97, 110, 115, 97, 99, 116, 105, 111, 110, 95, 109, 114, 111, 111, 116], [99, 104, 101, 99, 107, 115, 117, 109, 50, 53, 54]⟩, ⟨[97, 99, 116, 105, 111, 110, 95, 109, 114, 111, 111, 116], [99, 104, 101, 99, 107, 115, 117, 109, 50, 53, 54]⟩, ⟨[115, 99, 104, 101, 100, 117, 108, 101, 95, 118, 101, 114, 115, 105, 111, 110], [117, 105, 110, 116, 51, 50]⟩, ⟨[110, 101, 119, 95, 112, 114, 111, 100, 117, 99, 101, 114, 115], [112, 114, 111, 100, 117, 99, 101, 114, 95, 115, 99, 104, 101, 100, 117, 108, 101, 63]⟩, ⟨[104, 101, 97, 100, 101, 114, 95, 101, 120, 116, 101, 110, 115, 105, 111, 110, 115], [101, 120, 116, 101, 110, 115, 105, 111, 110, 91, 93]⟩]),
    ([98, 108, 111, 99, 107, 95, 112, 111, 115, 105, 116, 105, 111, 110], .struct [⟨[98, 108, 111, 99, 107, 95, 110, 117, 109], [117, 105, 110, 116, 51, 50]⟩, ⟨[98, 108, 111, 99, 107, 95, 105, 100], [99, 104, 101, 99, 107, 115, 117, 109, 50, 53, 54]⟩]),
    ([98, 108, 111, 99, 107, 95, 112, 111, 115, 105, 116, 105, 111, 110, 63], .optional [98, 108, 111, 99, 107, 95, 112, 111, 115, 105, 116, 105, 111, 110]),
    ([98, 108, 111, 99, 107, 95, 112, 111, 115, 105, 116, 105, 111, 110, 91, 93], .array [98, 108, 111, 99, 107, 95, 112, 111, 115, 105, 116, 105, 111, 110]),
    ([98, 108, 111, 99, 107, 95, 115, 105, 103, 110, 105, 110, 103, 95, 97, 117, 116, 104, 111, 114, 105, 116, 121, 95, 118, 48], .struct [⟨[116, 104, 114, 101, 115, 104, 111, 108, 100], [117, 105, 110, 116, 51, 50]⟩, ⟨[107, 101, 121, 115], [107, 101, 121, 95, 119, 101, 105, 103, 104, 116, 91, 93]⟩]),
    ([98, 108, 111, 99, 107, 95, 116, 105, 109, 101, 115, 116, 97, 109, 112, 95, 116, 121, 112, 101], .builtin .block_timestamp),
    ([98, 111, 111, 108], .builtin .bool),
    ([98, 121, 116, 101, 115], .builtin .bytes),
    ([98, 121, 116, 101, 115, 63], .optional [98, 121, 116, 101, 115]),
    ([98, 121, 116, 101, 115, 91, 93], .array [98, 121, 116, 101, 115]),
    ([99, 104, 97, 105, 110, 95, 99, 111, 110, 102, 105, 103, 95, 118, 48], .struct [⟨[109, 97, 120, 95, 98, 108, 111, 99, 107, 95, 110, 101, 116, 95, 117, 115, 97, 103, 101], [117, 105, 110, 116, 54, 52]⟩, ⟨[116, 97, 114, 103, 101, 116, 95, 98, 108, 111, 99, 107, 95, 110, 101, 116, 95, 117, 115, 97, 103, 101, 95, 112, 99, 116], [117, 105, 110, 116, 51, 50]⟩, ⟨[109, 97, 120, 95, 116, 114, 97, 110, 115, 97, 99, 116, 105, 111, 110, 95, 110, 101, 116, 95, 117, 115, 97, 103, 101], [117, 105, 110, 116, 51, 50]⟩, ⟨[98, 97, 115, 101, 95, 112, 101, 114, 95, 116, 114, 97, 110, 115, 97, 99, 116, 105, 111, 110, 95, 110, 101, 116, 95, 117, 115, 97, 103, 101], [117, 105, 110, 116, 51, 50]⟩, ⟨[110, 101, 116, 95, 117, 115, 97, 103, 101, 95, 108, 101, 101, 119, 97, 121], [117, 105, 110, 116, 51, 50]⟩, ⟨[99, 111, 110, 116, 101, 120, 116, 95, 102, 114, 101, 101, 95, 100, 105, 115, 99, 111, 117, 110, 116, 95, 110, 101, 116, 95, 117, 115, 97, 103, 101, 95, 110, 117, 109], [117, 105, 110, 116, 51, 50]⟩, ⟨[99, 111, 110, 116, 101, 120, 116, 95, 102, 114, 101, 101, 95, 100, 105, 115, 99, 111, 117, 110, 116, 95, 110, 101, 116, 95, 117, 115, 97, 103, 101, 95, 100, 101, 110], [117, 105, 110, 116, 51, 50]⟩, ⟨[109, 97, 120, 95, 98, 108, 111, 99, 107, 95, 99, 112, 117, 95, 117, 115, 97, 103, 101], [117, 105, 110, 116, 51, 50]⟩, ⟨[116, 97, 114, 103, 101, 116, 95, 98, 108, 111, 99, 107, 95, 99, 112, 117, 95, 117, 115, 97, 103, 101, 95, 112, 99, 116], [117, 105, 110, 116, 51, 50]⟩, ⟨[109, 97, 120, 95, 116, 114, 97, 110, 115, 97, 99, 116, 105, 111, 110, 95, 99, 112, 117, 95, 117, 115, 97, 103, 101], [117, 105, 110, 116, 51, 50]⟩, ⟨[109, 105, 110, 95, 116, 114, 97, 110, 115, 97, 99, 116, 105, 111, 110, 95, 99, 112, 117, 95, 117, 115, 97, 103, 101], [117, 105, 110, 116, 51, 50]⟩, ⟨[109, 97, 120, 95, 116, 114, 97, 110, 115, 97, 99, 116, 105, 111, 110, 95, 108, 105, 102, 101, 116, 105, 109, 101], [117, 105, 110, 116, 51, 50]⟩, ⟨[100, 101, 102, 101, 114, 114, 101, 100, 95, 116, 114, 120, 95, 101, 120, 112, 105, 114, 97, 116, 105, 111, 110, 95, 119, 105, 110, 100, 111, 119], [117, 105, 110, 116, 51, 50]⟩, ⟨[109, 97, 120, 95, 116, 114, 97, 110, 115, 97, 99, 116, 105, 111, 110, 95, 100, 101, 108, 97, 121], [117, 105, 110, 116, 51, 50]⟩, ⟨[109, 97, 120, 95, 105, 110, 108, 105, 110, 101, 95, 97, 99, 116, 105, 111, 110, 95, 115, 105, 122, 101], [117, 105, 110, 116, 51, 50]⟩, ⟨[109, 97, 120, 95, 105, 110, 108, 105, 110, 101, 95, 97, 99, 116, 105, 111, 110, 95, 100, 101, 112, 116, 104], [117, 105, 110, 116, 49, 54]⟩, ⟨[109, 97, 120, 95, 97, 117, 116, 104, 111, 114, 105, 116, 121, 95, 100, 101, 112, 116, 104], [117, 105, 110, 116, 49, 54]⟩]),
    ([99, 104, 101, 99, 107, 115, 117, 109, 50, 53, 54], .builtin .checksum256),
    ([99, 111, 100, 101, 95, 105, 100], .struct [⟨[118, 109, 95, 116, 121, 112, 101], [117, 105, 110, 116, 56]⟩, ⟨[118, 109, 95, 118, 101, 114, 115, 105, 111, 110], [117, 105, 110, 116, 56]⟩, ⟨[99, 111, 100, 101, 95, 104, 97, 115, 104], [99, 104, 101, 99, 107, 115, 117, 109, 50, 53, 54]⟩]),
    ([99, 111, 100, 101, 95, 105, 100, 63], .optional [99, 111, 100, 101, 95, 105, 100]),
    ([99, 111, 100, 101, 95, 118, 48], .struct [⟨[118, 109, 95, 116, 121, 112, 101], [117, 105, 110, 116, 56]⟩, ⟨[118, 109, 95, 118, 101, 114, 115, 105, 111, 110], [117, 105, 110, 116, 56]⟩, ⟨[99, 111, 100, 101, 95, 104, 97, 115, 104], [99, 104, 101, 99, 107, 115, 117, 109, 50, 53, 54]⟩, ⟨[99, 111, 100, 101], [98, 121, 116, 101, 115]⟩]),
    ([99, 111, 110, 116, 114, 97, 99, 116, 95, 105, 110, 100, 101, 120, 49, 50, 56, 95, 118, 48], .struct [⟨[99, 111, 100, 101], [110, 97, 109, 101]⟩, ⟨[115, 99, 111, 112, 101], [110, 97, 109, 101]⟩, ⟨[116, 97, 98, 108, 101], [110, 97, 109, 101]⟩, ⟨[112, 114, 105, 109, 97, 114, 121, 95, 107, 101, 121], [117, 105, 110, 116, 54, 52]⟩, ⟨[112, 97, 121, 101, 114], [110, 97, 109, 101]⟩, ⟨[115, 101, 99, 111, 110, 100, 97, 114, 121, 95, 107, 101, 121], [117, 105, 110, 116, 49, 50, 56]⟩]),
    ([99, 111, 110, 116, 114, 97, 99, 116, 95, 105, 110, 100, 101, 120, 50, 53, 54, 95, 118, 48], .struct [⟨[99, 111, 100, 101], [110, 97, 109, 101]⟩, ⟨[115, 99, 111, 112, 101], [110, 97, 109, 101]⟩, ⟨[116, 97, 98, 108, 101], [110, 97, 109, 101]⟩, ⟨[112, 114, 105, 109, 97, 114, 121, 95, 107, 101, 121], [117, 105, 110, 116, 54, 52]⟩, ⟨[112, 97, 121, 101, 114], [110, 97, 109, 101]⟩, ⟨[115, 101, 99, 111, 110, 100, 97, 114, 121, 95, 107, 101, 121], [99, 104, 101, 99, 107, 115, 117, 109, 50, 53, 54]⟩]),
    ([99, 111, 110, 116, 114, 97, 99, 116, 95, 105, 110, 100, 101, 120, 54, 52, 95, 118, 48], .struct [⟨[99, 111, 100, 101], [110, 97, 109, 101]⟩, ⟨[115, 99, 111, 112, 101], [110, 97, 109, 101]⟩, ⟨[116, 97, 98, 108, 101], [110, 97, 109, 101]⟩, ⟨[112, 114, 105, 109, 97, 114, 121, 95, 107, 101, 121], [117, 105, 110, 116, 54, 52]⟩, ⟨[112, 97, 121, 101, 114], [110, 97, 109, 101]⟩, ⟨[115, 101, 99, 111, 110, 100, 97, 114, 121, 95, 107, 101, 121], [117, 105, 110, 116, 54, 52]⟩]),
    ([99, 111, 110, 116, 114, 97, 99, 116, 95, 105, 110, 100, 101, 120, 95, 100, 111, 117, 98, 108, 101, 95, 118, 48], .struct [⟨[99, 111, 100, 101], [110, 97, 109, 101]⟩, ⟨[115, 99, 111, 112, 101], [110, 97, 109, 101]⟩, ⟨[116, 97, 98, 108, 101], [110, 97, 109, 101]⟩, ⟨[112, 114, 105, 109, 97, 114, 121, 95, 107, 101, 121], [117, 105, 110, 116, 54, 52]⟩, ⟨[112, 97, 121, 101, 114], [110, 97, 109, 101]⟩, ⟨[115, 101, 99, 111, 110, 100, 97, 114, 121, 95, 107, 101, 121], [102, 108, 111, 97, 116, 54, 52]⟩]),
    ([99, 111, 110, 116, 114, 97, 99, 116, 95, 105, 110, 100, 101, 120, 95, 108, 111, 110, 103, 95, 100, 111, 117, 98, 108, 101, 95, 118, 48], .struct [⟨[99, 111, 100, 101], [110, 97, 109, 101]⟩, ⟨[115, 99, 111, 112, 101], [110, 97, 109, 101]⟩, ⟨[116, 97, 98, 108, 101], [110, 97, 109, 101]⟩, ⟨[112, 114, 105, 109, 97, 114, 121, 95, 107, 101, 121], [117, 105, 110, 116, 54, 52]⟩, ⟨[112, 97, 121, 101, 114], [110, 97, 109, 101]⟩, ⟨[115, 101, 99, 111, 110, 100, 97, 114, 121, 95, 107, 101, 121], [102, 108, 111, 97, 116, 49, 50, 56]⟩]),
    ([99, 111, 110, 116, 114, 97, 99, 116, 95, 114, 111, 119, 95, 118, 48], .struct [⟨[99, 111, 100, 101], [110, 97, 109, 101]⟩, ⟨[115, 99, 111, 112, 101], [110, 97, 109, 101]⟩, ⟨[116, 97, 98, 108, 101], [110, 97, 109, 101]⟩, ⟨[112, 114, 105, 109, 97, 114, 121, 95, 107, 101, 121], [117, 105, 110, 116, 54, 52]⟩, ⟨[112, 97, 121, 101, 114], [110, 97, 109, 101]⟩, ⟨[118, 97, 108, 117, 101], [98, 121, 116, 101, 115]⟩]),
    ([99, 111, 110, 116, 114, 97, 99, 116, 95, 116, 97, 98, 108, 101, 95, 118, 48], .struct [⟨[99, 111, 100, 101], [110, 97, 109, 101]⟩, ⟨[115, 99, 111, 112, 101], [110, 97, 109, 101]⟩, ⟨[116, 97, 98, 108, 101], [110, 97, 109, 101]⟩, ⟨[112, 97, 121, 101, 114], [110, 97, 109, 101]⟩]),
    ([101, 108, 97, 115, 116, 105, 99, 95, 108, 105, 109, 105, 116, 95, 112, 97, 114, 97, 109, 101, 116, 101, 114, 115, 95, 118, 48], .struct [⟨[116, 97, 114, 103, 101, 116], [117, 105, 110, 116, 54, 52]⟩, ⟨[109, 97, 120], [117, 105, 110, 116, 54, 52]⟩, ⟨[112, 101, 114, 105, 111, 100, 115], [117, 105, 110, 116, 51, 50]⟩, ⟨[109, 97, 120, 95, 109, 117, 108, 116, 105, 112, 108, 105, 101, 114], [117, 105, 110, 116, 51, 50]⟩, ⟨[99, 111, 110, 116, 114, 97, 99, 116, 95, 114, 97, 116, 101], [118, 97, 114, 105, 97, 110, 116, 95, 114, 101, 115, 111, 117, 114, 99, 101, 95, 108, 105, 109, 105, 116, 115, 95, 114, 97, 116, 105, 111, 95, 118, 48]⟩, ⟨[101, 120, 112, 97, 110, 100, 95, 114, 97, 116, 101], [118, 97, 114, 105, 97, 110, 116, 95, 114, 101, 115, 111, 117, 114, 99, 101, 95, 108, 105, 109, 105, 116, 115, 95, 114, 97, 116, 105, 111, 95, 118, 48]⟩]),
    ([101, 120, 116, 101, 110, 115, 105, 111, 110], .struct [⟨[116, 121, 112, 101], [117, 105, 110, 116, 49, 54]⟩, ⟨[100, 97, 116, 97], [98, 121, 116, 101, 115]⟩]),
    ([101, 120, 116, 101, 110, 115, 105, 111, 110, 91, 93], .array [101, 120, 116, 101, 110, 115, 105, 111, 110]),
    ([102, 108, 111, 97, 116, 49, 50, 56], .builtin .float128),
    ([102, 108, 111, 97, 116, 54, 52], .builtin .float64),
    ([103, 101, 110, 101, 114, 97, 116, 101, 100, 95, 116, 114, 97, 110, 115, 97, 99, 116, 105, 111, 110, 95, 118, 48], .struct [⟨[115, 101, 110, 100, 101, 114], [110, 97, 109, 101]⟩, ⟨[115, 101, 110, 100, 101, 114, 95, 105, 100], [117, 105, 110, 116, 49, 50, 56]⟩, ⟨[112, 97, 121, 101, 114], [110, 97, 109, 101]⟩, ⟨[116, 114, 120, 95, 105, 100], [99, 104, 101, 99, 107, 115, 117, 109, 50, 53, 54]⟩, ⟨[112, 97, 99, 107, 101, 100, 95, 116, 114, 120], [98, 121, 116, 101, 115]⟩]),
    ([103, 101, 116, 95, 98, 108, 111, 99, 107, 115, 95, 97, 99, 107, 95, 114, 101, 113, 117, 101, 115, 116, 95, 118, 48], .struct [⟨[110, 117, 109, 95, 109, 101, 115, 115, 97, 103, 101, 115], [117, 105, 110, 116, 51, 50]⟩]),
    ([103, 101, 116, 95, 98, 108, 111, 99, 107, 115, 95, 114, 101, 113, 117, 101, 115, 116, 95, 118, 48], .struct [⟨[115, 116, 97, 114, 116, 95, 98, 108, 111, 99, 107, 95, 110, 117, 109], [117, 105, 110, 116, 51, 50]⟩, ⟨[101, 110, 100, 95, 98, 108, 111, 99, 107, 95, 110, 117, 109], [117, 105, 110, 116, 51, 50]⟩, ⟨[109, 97, 120, 95, 109, 101, 115, 115, 97, 103, 101, 115, 95, 105, 110, 95, 102, 108, 105, 103, 104, 116], [117, 105, 110, 116, 51, 50]⟩, ⟨[104, 97, 118, 101, 95, 112, 111, 115, 105, 116, 105, 111, 110, 115], [98, 108, 111, 99, 107, 95, 112, 111, 115, 105, 116, 105, 111, 110, 91, 93]⟩, ⟨[105, 114, 114, 101, 118, 101, 114, 115, 105, 98, 108, 101, 95, 111, 110, 108, 121], [98, 111, 111, 108]⟩, ⟨[102, 101, 116, 99, 104, 95, 98, 108, 111, 99, 107], [98, 111, 111, 108]⟩, ⟨[102, 101, 116, 99, 104, 95, 116, 114, 97, 99, 101, 115], [98, 111, 111, 108]⟩, ⟨[102, 101, 116, 99, 104, 95, 100, 101, 108, 116, 97, 115], [98, 111, 111, 108]⟩]),
    ([103, 101, 116, 95, 98, 108, 111, 99, 107, 115, 95, 114, 101, 115, 117, 108, 116, 95, 98, 97, 115, 101], .struct [⟨[104, 101, 97, 100], [98, 108, 111, 99, 107, 95, 112, 111, 115, 105, 116, 105, 111, 110]⟩, ⟨[108, 97, 115, 116, 95, 105, 114, 114, 101, 118, 101, 114, 115, 105, 98, 108, 101], [98, 108, 111, 99, 107, 95, 112, 111, 115, 105, 116, 105, 111, 110]⟩, ⟨[116, 104, 105, 115, 95, 98, 108, 111, 99, 107], [98, 108, 111, 99, 107, 95, 112, 111, 115, 105, 116, 105, 111, 110, 63]⟩, ⟨[112, 114, 101, 118, 95, 98, 108, 111, 99, 107], [98, 108, 111, 99, 107, 95, 112, 111, 115, 105, 116, 105, 111, 110, 63]⟩]),
    ([103, 101, 116, 95, 98, 108, 111, 99, 107, 115, 95, 114, 101, 115, 117, 108, 116, 95, 118, 48], .struct [⟨[104, 101, 97, 100], [98, 108, 111, 99, 107, 95, 112, 111, 115, 105, 116, 105, 111, 110]⟩, ⟨[108, 97, 115, 116, 95, 105, 114, 114, 101, 118, 101, 114, 115, 105, 98, 108, 101], [98, 108, 111, 99, 107, 95, 112, 111, 115, 105, 116, 105, 111, 110]⟩, ⟨[116, 104, 105, 115, 95, 98, 108, 111, 99, 107], [98, 108, 111, 99, 107, 95, 112, 111, 115, 105, 116, 105, 111, 110, 63]⟩, ⟨[112, 114, 101, 118, 95, 98, 108, 111, 99, 107], [98, 108, 111, 99, 107, 95, 112, 111, 115, 105, 116, 105, 111, 110, 63]⟩, ⟨[98, 108, 111, 99, 107], [98, 121, 116, 101, 115, 63]⟩, ⟨[116, 114, 97, 99, 101, 115], [98, 121, 116, 101, 115, 63]⟩, ⟨[100, 101, 108, 116, 97, 115], [98, 121, 116, 101, 115, 63]⟩]),
    ([103, 101, 116, 95, 98, 108, 111, 99, 107, 115, 95, 114, 101, 115, 117, 108, 116, 95, 118, 49], .struct [⟨[104, 101, 97, 100], [98, 108, 111, 99, 107, 95, 112, 111, 115, 105, 116, 105, 111, 110]⟩, ⟨[108, 97, 115, 116, 95, 105, 114, 114, 101, 118, 101, 114, 115, 105, 98, 108, 101], [98, 108, 111, 99, 107, 95, 112, 111, 115, 105, 116, 105, 111, 110]⟩, ⟨[116, 104, 105, 115, 95, 98, 108, 111, 99, 107], [98, 108, 111, 99, 107, 95, 112, 111, 115, 105, 116, 105, 111, 110, 63]⟩, ⟨[112, 114, 101, 118, 95, 98, 108, 111, 99, 107], [98, 108, 111, 99, 107, 95, 112, 111, 115, 105, 116, 105, 111, 110, 63]⟩, ⟨[98, 108, 111, 99, 107], [118, 97, 114, 105, 97, 110, 116, 95, 115, 105, 103, 110, 101, 100, 95, 98, 108, 111, 99, 107, 95, 118, 48, 95, 115, 105, 103, 110, 101, 100, 95, 98, 108, 111, 99, 107, 95, 118, 49, 63]⟩, ⟨[116, 114, 97, 99, 101, 115], [98, 121, 116, 101, 115]⟩, ⟨[100, 101, 108, 116, 97, 115], [98, 121, 116, 101, 115]⟩]),
    ([103, 101, 116, 95, 115, 116, 97, 116, 117, 115, 95, 114, 101, 113, 117, 101, 115, 116, 95, 118, 48], .struct []),
    ([103, 101, 116, 95, 115, 116, 97, 116, 117, 115, 95, 114, 101, 115, 117, 108, 116, 95, 118, 48], .struct [⟨[104, 101, 97, 100], [98, 108, 111, 99, 107, 95, 112, 111, 115, 105, 116, 105, 111, 110]⟩, ⟨[108, 97, 115, 116, 95, 105, 114, 114, 101, 118, 101, 114, 115, 105, 98, 108, 101], [98, 108, 111, 99, 107, 95, 112, 111, 115, 105, 116, 105, 111, 110]⟩, ⟨[116, 114, 97, 99, 101, 95, 98, 101, 103, 105, 110, 95, 98, 108, 111, 99, 107], [117, 105, 110, 116, 51, 50]⟩, ⟨[116, 114, 97, 99, 101, 95, 101, 110, 100, 95, 98, 108, 111, 99, 107], [117, 105, 110, 116, 51, 50]⟩, ⟨[99, 104, 97, 105, 110, 95, 115, 116, 97, 116, 101, 95, 98, 101, 103, 105, 110, 95, 98, 108, 111, 99, 107], [117, 105, 110, 116, 51, 50]⟩, ⟨[99, 104, 97, 105, 110, 95, 115, 116, 97, 116, 101, 95, 101, 110, 100, 95, 98, 108, 111, 99, 107], [117, 105, 110, 116, 51, 50]⟩, ⟨[99, 104, 97, 105, 110, 95, 105, 100], [99, 104, 101, 99, 107, 115, 117, 109, 50, 53, 54]⟩]),
    ([103, 108, 111, 98, 97, 108, 95, 112, 114, 111, 112, 101, 114, 116, 121, 95, 118, 48], .struct [⟨[112, 114, 111, 112, 111, 115, 101, 100, 95, 115, 99, 104, 101, 100, 117, 108, 101, 95, 98, 108, 111, 99, 107, 95, 110, 117, 109], [117, 105, 110, 116, 51, 50, 63]⟩, ⟨[112, 114, 111, 112, 111, 115, 101, 100, 95, 115, 99, 104, 101, 100, 117, 108, 101], [112, 114, 111, 100, 117, 99, 101, 114, 95, 115, 99, 104, 101, 100, 117, 108, 101]⟩, ⟨[99, 111, 110, 102, 105, 103, 117, 114, 97, 116, 105, 111, 110], [118, 97, 114, 105, 97, 110, 116, 95, 99, 104, 97, 105, 110, 95, 99, 111, 110, 102, 105, 103, 95, 118, 48]⟩]),
    ([103, 108, 111, 98, 97, 108, 95, 112, 114, 111, 112, 101, 114, 116, 121, 95, 118, 49], .struct [⟨[112, 114, 111, 112, 111, 115, 101, 100, 95, 115, 99, 104, 101, 100, 117, 108, 101, 95, 98, 108, 111, 99, 107, 95, 110, 117, 109], [117, 105, 110, 116, 51, 50, 63]⟩, ⟨[112, 114, 111, 112, 111, 115, 101, 100, 95, 115, 99, 104, 101, 100, 117, 108, 101], [112, 114, 111, 100, 117, 99, 101, 114, 95, 97, 117, 116, 104, 111, 114, 105, 116, 121, 95, 115, 99, 104, 101, 100, 117, 108, 101]⟩, ⟨[99, 111, 110, 102, 105, 103, 117, 114, 97, 116, 105, 111, 110], [118, 97, 114, 105, 97, 110, 116, 95, 99, 104, 97, 105, 110, 95, 99, 111, 110, 102, 105, 103, 95, 118, 48]⟩, ⟨[99, 104, 97, 105, 110, 95, 105, 100], [99, 104, 101, 99, 107, 115, 117, 109, 50, 53, 54]⟩]),
    ([105, 110, 116, 54, 52], .builtin .int64),
    ([107, 101, 121, 95, 118, 97, 108, 117, 101, 95, 118, 48], .struct [⟨[100, 97, 116, 97, 98, 97, 115, 101], [110, 97, 109, 101]⟩, ⟨[99, 111, 110, 116, 114, 97, 99, 116], [110, 97, 109, 101]⟩, ⟨[107, 101, 121], [98, 121, 116, 101, 115]⟩, ⟨[118, 97, 108, 117, 101], [98, 121, 116, 101, 115]⟩]),
    ([107, 101, 121, 95, 119, 101, 105, 103, 104, 116], .struct [⟨[107, 101, 121], [112, 117, 98, 108, 105, 99, 95, 107, 101, 121]⟩, ⟨[119, 101, 105, 103, 104, 116], [117, 105, 110, 116, 49, 54]⟩]),
    ([107, 101, 121, 95, 119, 101, 105, 103, 104, 116, 91, 93], .array [107, 101, 121, 95, 119, 101, 105, 103, 104, 116]),
    ([110, 97, 109, 101], .builtin .name),
    ([112, 97, 99, 107, 101, 100, 95, 116, 114, 97, 110, 115, 97, 99, 116, 105, 111, 110], .struct [⟨[99, 111, 109, 112, 114, 101, 115, 115, 105, 111, 110], [117, 105, 110, 116, 56]⟩, ⟨[112, 114, 117, 110, 97, 98, 108, 101, 95, 100, 97, 116, 97], [112, 114, 117, 110, 97, 98, 108, 101, 95, 100, 97, 116, 97, 95, 116, 121, 112, 101]⟩, ⟨[112, 97, 99, 107, 101, 100, 95, 116, 114, 120], [98, 121, 116, 101, 115]⟩]),
    ([112, 97, 99, 107, 101, 100, 95, 116, 114, 97, 110, 115, 97, 99, 116, 105, 111, 110, 95, 118, 48], .struct [⟨[115, 105, 103, 110, 97, 116, 117, 114, 101, 115], [115, 105, 103, 110, 97, 116, 117, 114, 101, 91, 93]⟩, ⟨[99, 111, 109, 112, 114, 101, 115, 115, 105, 111, 110], [117, 105, 110, 116, 56]⟩, ⟨[112, 97, 99, 107, 101, 100, 95, 99, 111, 110, 116, 101, 120, 116, 95, 102, 114, 101, 101, 95, 100, 97, 116, 97], [98, 121, 116, 101, 115]⟩, ⟨[112, 97, 99, 107, 101, 100, 95, 116, 114, 120], [98, 121, 116, 101, 115]⟩]),
    ([112, 97, 114, 116, 105, 97, 108, 95, 116, 114, 97, 110, 115, 97, 99, 116, 105, 111, 110, 95, 118, 48], .struct [⟨[101, 120, 112, 105, 114, 97, 116, 105, 111, 110], [116, 105, 109, 101, 95, 112, 111, 105, 110, 116, 95, 115, 101, 99]⟩, ⟨[114, 101, 102, 95, 98, 108, 111, 99, 107, 95, 110, 117, 109], [117, 105, 110, 116, 49, 54]⟩, ⟨[114, 101, 102, 95, 98, 108, 111, 99, 107, 95, 112, 114, 101, 102, 105, 120], [117, 105, 110, 116, 51, 50]⟩, ⟨[109, 97, 120, 95, 110, 101, 116, 95, 117, 115, 97, 103, 101, 95, 119, 111, 114, 100, 115], [118, 97, 114, 117, 105, 110, 116, 51, 50]⟩, ⟨[109, 97, 120, 95, 99, 112, 117, 95, 117, 115, 97, 103, 101, 95, 109, 115], [117, 105, 110, 116, 56]⟩, ⟨[100, 101, 108, 97, 121, 95, 115, 101, 99], [118, 97, 114, 117, 105, 110, 116, 51, 50]⟩, ⟨[116, 114, 97, 110, 115, 97, 99, 116, 105, 111, 110, 95, 101, 120, 116, 101, 110, 115, 105, 111, 110, 115], [101, 120, 116, 101, 110, 115, 105, 111, 110, 91, 93]⟩, ⟨[115, 105, 103, 110, 97, 116, 117, 114, 101, 115], [115, 105, 103, 110, 97, 116, 117, 114, 101, 91, 93]⟩, ⟨[99, 111, 110, 116, 101, 120, 116, 95, 102, 114, 101, 101, 95, 100, 97, 116, 97], [98, 121, 116, 101, 115, 91, 93]⟩]),
    ([112, 97, 114, 116, 105, 97, 108, 95, 116, 114, 97, 110, 115, 97, 99, 116, 105, 111, 110, 95, 118, 49], .struct [⟨[101, 120, 112, 105, 114, 97, 116, 105, 111, 110], [116, 105, 109, 101, 95, 112, 111, 105, 110, 116, 95, 115, 101, 99]⟩, ⟨[114, 101, 102, 95, 98, 108, 111, 99, 107, 95, 110, 117, 109], [117, 105, 110, 116, 49, 54]⟩, ⟨[114, 101, 102, 95, 98, 108, 111, 99, 107, 95, 112, 114, 101, 102, 105, 120], [117, 105, 110, 116, 51, 50]⟩, ⟨[109, 97, 120, 95, 110, 101, 116, 95, 117, 115, 97, 103, 101, 95, 119, 111, 114, 100, 115], [118, 97, 114, 117, 105, 110, 116, 51, 50]⟩, ⟨[109, 97, 120, 95, 99, 112, 117, 95, 117, 115, 97, 103, 101, 95, 109, 115], [117, 105, 110, 116, 56]⟩, ⟨[100, 101, 108, 97, 121, 95, 115, 101, 99], [118, 97, 114, 117, 105, 110, 116, 51, 50]⟩, ⟨[116, 114, 97, 110, 115, 97, 99, 116, 105, 111, 110, 95, 101, 120, 116, 101, 110, 115, 105, 111, 110, 115], [101, 120, 116, 101, 110, 115, 105, 111, 110, 91, 93]⟩, ⟨[112, 114, 117, 110, 97, 98, 108, 101, 95, 100, 97, 116, 97], [112, 114, 117, 110, 97, 98, 108, 101, 95, 100, 97, 116, 97, 95, 116, 121, 112, 101, 63]⟩]),
    ([112, 101, 114, 109, 105, 115, 115, 105, 111, 110, 95, 108, 101, 118, 101, 108], .struct [⟨[97, 99, 116, 111, 114], [110, 97, 109, 101]⟩, ⟨[112, 101, 114, 109, 105, 115, 115, 105, 111, 110], [110, 97, 109, 101]⟩]),
    ([112, 101, 114, 109, 105, 115, 115, 105, 111, 110, 95, 108, 101, 118, 101, 108, 91, 93], .array [112, 101, 114, 109, 105, 115, 115, 105, 111, 110, 95, 108, 101, 118, 101, 108]),
    ([112, 101, 114, 109, 105, 115, 115, 105, 111, 110, 95, 108, 101, 118, 101, 108, 95, 119, 101, 105, 103, 104, 116], .struct [⟨[112, 101, 114, 109, 105, 115, 115, 105, 111, 110], [112, 101, 114, 109, 105, 115, 115, 105, 111, 110, 95, 108, 101, 118, 101, 108]⟩, ⟨[119, 101, 105, 103, 104, 116], [117, 105, 110, 116, 49, 54]⟩]),
    ([112, 101, 114, 109, 105, 115, 115, 105, 111, 110, 95, 108, 101, 118, 101, 108, 95, 119, 101, 105, 103, 104, 116, 91, 93], .array [112, 101, 114, 109, 105, 115, 115, 105, 111, 110, 95, 108, 101, 118, 101, 108, 95, 119, 101, 105, 103, 104, 116]),
    ([112, 101, 114, 109, 105, 115, 115, 105, 111, 110, 95, 108, 105, 110, 107, 95, 118, 48], .struct [⟨[97, 99, 99, 111, 117, 110, 116], [110, 97, 109, 101]⟩, ⟨[99, 111, 100, 101], [110, 97, 109, 101]⟩, ⟨[109, 101, 115, 115, 97, 103, 101, 95, 116, 121, 112, 101], [110, 97, 109, 101]⟩, ⟨[114, 101, 113, 117, 105, 114, 101, 100, 95, 112, 101, 114, 109, 105, 115, 115, 105, 111, 110], [110, 97, 109, 101]⟩]),
    ([112, 101, 114, 109, 105, 115, 115, 105, 111, 110, 95, 118, 48], .struct [⟨[111, 119, 110, 101, 114], [110, 97, 109, 101]⟩, ⟨[110, 97, 109, 101], [110, 97, 109, 101]⟩, ⟨[112, 97, 114, 101, 110, 116], [110, 97, 109, 101]⟩, ⟨[108, 97, 115, 116, 95, 117, 112, 100, 97, 116, 101, 100], [116, 105, 109, 101, 95, 112, 111, 105, 110, 116]⟩, ⟨[97, 117, 116, 104], [97, 117, 116, 104, 111, 114, 105, 116, 121]⟩]),
    ([112, 114, 111, 100, 117, 99, 101, 114, 95, 97, 117, 116, 104, 111, 114, 105, 116, 121], .struct [⟨[112, 114, 111, 100, 117, 99, 101, 114, 95, 110, 97, 109, 101], [110, 97, 109, 101]⟩, ⟨[97, 117, 116, 104, 111, 114, 105, 116, 121], [118, 97, 114, 105, 97, 110, 116, 95, 98, 108, 111, 99, 107, 95, 115, 105, 103, 110, 105, 110, 103, 95, 97, 117, 116, 104, 111, 114, 105, 116, 121, 95, 118, 48]⟩]),
    ([112, 114, 111, 100, 117, 99, 101, 114, 95, 97, 117, 116, 104, 111, 114, 105, 116, 121, 91, 93], .array [112, 114, 111, 100, 117, 99, 101, 114, 95, 97, 117, 116, 104, 111, 114, 105, 116, 121]),
    ([112, 114, 111, 100, 117, 99, 101, 114, 95, 97, 117, 116, 104, 111, 114, 105, 116, 121, 95, 115, 99, 104, 101, 100, 117, 108, 101], .struct [⟨[118, 101, 114, 115, 105, 111, 110], [117, 105, 110, 116, 51, 50]⟩, ⟨[112, 114, 111, 100, 117, 99, 101, 114, 115], [112, 114, 111, 100, 117, 99, 101, 114, 95, 97, 117, 116, 104, 111, 114, 105, 116, 121, 91, 93]⟩]),
    ([112, 114, 111, 100, 117, 99, 101, 114, 95, 107, 101, 121], .struct [⟨[112, 114, 111, 100, 117, 99, 101, 114, 95, 110, 97, 109, 101], [110, 97, 109, 101]⟩, ⟨[98, 108, 111, 99, 107, 95, 115, 105, 103, 110, 105, 110, 103, 95, 107, 101, 121], [112, 117, 98, 108, 105, 99, 95, 107, 101, 121]⟩]),
    ([112, 114, 111, 100, 117, 99, 101, 114, 95, 107, 101, 121, 91, 93], .array [112, 114, 111, 100, 117, 99, 101, 114, 95, 107, 101, 121]),
    ([112, 114, 111, 100, 117, 99, 101, 114, 95, 115, 99, 104, 101, 100, 117, 108, 101], .struct [⟨[118, 101, 114, 115, 105, 111, 110], [117, 105, 110, 116, 51, 50]⟩, ⟨[112, 114, 111, 100, 117, 99, 101, 114, 115], [112, 114, 111, 100, 117, 99, 101, 114, 95, 107, 101, 121, 91, 93]⟩]),
    ([112, 114, 111, 100, 117, 99, 101, 114, 95, 115, 99, 104, 101, 100, 117, 108, 101, 63], .optional [112, 114, 111, 100, 117, 99, 101, 114, 95, 115, 99, 104, 101, 100, 117, 108, 101]),
    ([112, 114, 111, 116, 111, 99, 111, 108, 95, 115, 116, 97, 116, 101, 95, 118, 48], .struct [⟨[97, 99, 116, 105, 118, 97, 116, 101, 100, 95, 112, 114, 111, 116, 111, 99, 111, 108, 95, 102, 101, 97, 116, 117, 114, 101, 115], [118, 97, 114, 105, 97, 110, 116, 95, 97, 99, 116, 105, 118, 97, 116, 101, 100, 95, 112, 114, 111, 116, 111, 99, 111, 108, 95, 102, 101, 97, 116, 117, 114, 101, 95, 118, 48, 91, 93]⟩]),
    ([112, 114, 117, 110, 97, 98, 108, 101, 95, 100, 97, 116, 97, 95, 116, 121, 112, 101], .struct [⟨[112, 114, 117, 110, 97, 98, 108, 101, 95, 100, 97, 116, 97], [118, 97, 114, 105, 97, 110, 116, 95, 112, 114, 117, 110, 97, 98, 108, 101, 95, 100, 97, 116, 97, 95, 116, 121, 112, 101, 58, 58, 102, 117, 108, 108, 95, 108, 101, 103, 97, 99, 121, 95, 112, 114, 117, 110, 97, 98, 108, 101, 95, 100, 97, 116, 97, 95, 116, 121, 112, 101, 58, 58, 110, 111, 110, 101, 95, 112, 114, 117, 110, 97, 98, 108, 101, 95, 100, 97, 116, 97, 95, 116, 121, 112, 101, 58, 58, 112, 97, 114, 116, 105, 97, 108, 95, 112, 114, 117, 110, 97, 98, 108, 101, 95, 100, 97, 116, 97, 95, 116, 121, 112, 101, 58, 58, 102, 117, 108, 108]⟩]),
    ([112, 114, 117, 110, 97, 98, 108, 101, 95, 100, 97, 116, 97, 95, 116, 121, 112, 101, 58, 58, 102, 117, 108, 108], .struct [⟨[115, 105, 103, 110, 97, 116, 117, 114, 101, 115], [115, 105, 103, 110, 97, 116, 117, 114, 101, 91, 93]⟩, ⟨[99, 111, 110, 116, 101, 120, 116, 95, 102, 114, 101, 101, 95, 115, 101, 103, 109, 101, 110, 116, 115], [98, 121, 116, 101, 115, 91, 93]⟩]),
    ([112, 114, 117, 110, 97, 98, 108, 101, 95, 100, 97, 116, 97, 95, 116, 121, 112, 101, 58, 58, 102, 117, 108, 108, 95, 108, 101, 103, 97, 99, 121], .struct [⟨[115, 105, 103, 110, 97, 116, 117, 114, 101, 115], [115, 105, 103, 110, 97, 116, 117, 114, 101, 91, 93]⟩, ⟨[112, 97, 99, 107, 101, 100, 95, 99, 111, 110, 116, 101, 120, 116, 95, 102, 114, 101, 101, 95, 100, 97, 116, 97], [98, 121, 116, 101, 115]⟩]),
    ([112, 114, 117, 110, 97, 98, 108, 101, 95, 100, 97, 116, 97, 95, 116, 121, 112, 101, 58, 58, 110, 111, 110, 101], .struct [⟨[112, 114, 117, 110, 97, 98, 108, 101, 95, 100, 105, 103, 101, 115, 116], [99, 104, 101, 99, 107, 115, 117, 109, 50, 53, 54]⟩]),
    ([112, 114, 117, 110, 97, 98, 108, 101, 95, 100, 97, 116, 97, 95, 116, 121, 112, 101, 58, 58, 112, 97, 114, 116, 105, 97, 108], .struct [⟨[115, 105, 103, 110, 97, 116, 117, 114, 101, 115], [115, 105, 103, 110, 97, 116, 117, 114, 101, 91, 93]⟩, ⟨[99, 111, 110, 116, 101, 120, 116, 95, 102, 114, 101, 101, 95, 115, 101, 103, 109, 101, 110, 116, 115], [118, 97, 114, 105, 97, 110, 116, 95, 99, 104, 101, 99, 107, 115, 117, 109, 50, 53, 54, 95, 98, 121, 116, 101, 115, 91, 93]⟩]),
    ([112, 114, 117, 110, 97, 98, 108, 101, 95, 100, 97, 116, 97, 95, 116, 121, 112, 101, 63], .optional [112, 114, 117, 110, 97, 98, 108, 101, 95, 100, 97, 116, 97, 95, 116, 121, 112, 101]),
    ([112, 117, 98, 108, 105, 99, 95, 107, 101, 121], .builtin .public_key),
    ([114, 101, 115, 111, 117, 114, 99, 101, 95, 108, 105, 109, 105, 116, 115, 95, 99, 111, 110, 102, 105, 103, 95, 118, 48], .struct [⟨[99, 112, 117, 95, 108, 105, 109, 105, 116, 95, 112, 97, 114, 97, 109, 101, 116, 101, 114, 115], [118, 97, 114, 105, 97, 110, 116, 95, 101, 108, 97, 115, 116, 105, 99, 95, 108, 105, 109, 105, 116, 95, 112, 97, 114, 97, 109, 101, 116, 101, 114, 115, 95, 118, 48]⟩, ⟨[110, 101, 116, 95, 108, 105, 109, 105, 116, 95, 112, 97, 114, 97, 109, 101, 116, 101, 114, 115], [118, 97, 114, 105, 97, 110, 116, 95, 101, 108, 97, 115, 116, 105, 99, 95, 108, 105, 109, 105, 116, 95, 112, 97, 114, 97, 109, 101, 116, 101, 114, 115, 95, 118, 48]⟩, ⟨[97, 99, 99, 111, 117, 110, 116, 95, 99, 112, 117, 95, 117, 115, 97, 103, 101, 95, 97, 118, 101, 114, 97, 103, 101, 95, 119, 105, 110, 100, 111, 119], [117, 105, 110, 116, 51, 50]⟩, ⟨[97, 99, 99, 111, 117, 110, 116, 95, 110, 101, 116, 95, 117, 115, 97, 103, 101, 95, 97, 118, 101, 114, 97, 103, 101, 95, 119, 105, 110, 100, 111, 119], [117, 105, 110, 116, 51, 50]⟩]),
    ([114, 101, 115, 111, 117, 114, 99, 101, 95, 108, 105, 109, 105, 116, 115, 95, 114, 97, 116, 105, 111, 95, 118, 48], .struct [⟨[110, 117, 109, 101, 114, 97, 116, 111, 114], [117, 105, 110, 116, 54, 52]⟩, ⟨[100, 101, 110, 111, 109, 105, 110, 97, 116, 111, 114], [117, 105, 110, 116, 54, 52]⟩]),
    ([114, 101, 115, 111, 117, 114, 99, 101, 95, 108, 105, 109, 105, 116, 115, 95, 115, 116, 97, 116, 101, 95, 118, 48], .struct [⟨[97, 118, 101, 114, 97, 103, 101, 95, 98, 108, 111, 99, 107, 95, 110, 101, 116, 95, 117, 115, 97, 103, 101], [118, 97, 114, 105, 97, 110, 116, 95, 117, 115, 97, 103, 101, 95, 97, 99, 99, 117, 109, 117, 108, 97, 116, 111, 114, 95, 118, 48]⟩, ⟨[97, 118, 101, 114, 97, 103, 101, 95, 98, 108, 111, 99, 107, 95, 99, 112, 117, 95, 117, 115, 97, 103, 101], [118, 97, 114, 105, 97, 110, 116, 95, 117, 115, 97, 103, 101, 95, 97, 99, 99, 117, 109, 117, 108, 97, 116, 111, 114, 95, 118, 48]⟩, ⟨[116, 111, 116, 97, 108, 95, 110, 101, 116, 95, 119, 101, 105, 103, 104, 116], [117, 105, 110, 116, 54, 52]⟩, ⟨[116, 111, 116, 97, 108, 95, 99, 112, 117, 95, 119, 101, 105, 103, 104, 116], [117, 105, 110, 116, 54, 52]⟩, ⟨[116, 111, 116, 97, 108, 95, 114, 97, 109, 95, 98, 121, 116, 101, 115], [117, 105, 110, 116, 54, 52]⟩, ⟨[118, 105, 114, 116, 117, 97, 108, 95, 110, 101, 116, 95, 108, 105, 109, 105, 116], [117, 105, 110, 116, 54, 52]⟩, ⟨[118, 105, 114, 116, 117, 97, 108, 95, 99, 112, 117, 95, 108, 105, 109, 105, 116], [117, 105, 110, 116, 54, 52]⟩]),
    ([114, 101, 115, 111, 117, 114, 99, 101, 95, 108, 105, 109, 105, 116, 115, 95, 118, 48], .struct [⟨[111, 119, 110, 101, 114], [110, 97, 109, 101]⟩, ⟨[110, 101, 116, 95, 119, 101, 105, 103, 104, 116], [105, 110, 116, 54, 52]⟩, ⟨[99, 112, 117, 95, 119, 101, 105, 103, 104, 116], [105, 110, 116, 54, 52]⟩, ⟨[114, 97, 109, 95, 98, 121, 116, 101, 115], [105, 110, 116, 54, 52]⟩]),
    ([114, 101, 115, 111, 117, 114, 99, 101, 95, 117, 115, 97, 103, 101, 95, 118, 48], .struct [⟨[111, 119, 110, 101, 114], [110, 97, 109, 101]⟩, ⟨[110, 101, 116, 95, 117, 115, 97, 103, 101], [118, 97, 114, 105, 97, 110, 116, 95, 117, 115, 97, 103, 101, 95, 97, 99, 99, 117, 109, 117, 108, 97, 116, 111, 114, 95, 118, 48]⟩, ⟨[99, 112, 117, 95, 117, 115, 97, 103, 101], [118, 97, 114, 105, 97, 110, 116, 95, 117, 115, 97, 103, 101, 95, 97, 99, 99, 117, 109, 117, 108, 97, 116, 111, 114, 95, 118, 48]⟩, ⟨[114, 97, 109, 95, 117, 115, 97, 103, 101], [117, 105, 110, 116, 54, 52]⟩]),
    ([114, 111, 119], .struct [⟨[112, 114, 101, 115, 101, 110, 116], [98, 111, 111, 108]⟩, ⟨[100, 97, 116, 97], [98, 121, 116, 101, 115]⟩]),
    ([114, 111, 119, 91, 93], .array [114, 111, 119]),
    ([115, 105, 103, 110, 97, 116, 117, 114, 101], .builtin .signature),
    ([115, 105, 103, 110, 97, 116, 117, 114, 101, 91, 93], .array [115, 105, 103, 110, 97, 116, 117, 114, 101]),
    ([115, 105, 103, 110, 101, 100, 95, 98, 108, 111, 99, 107, 95, 104, 101, 97, 100, 101, 114], .struct [⟨[116, 105, 109, 101, 115, 116, 97, 109, 112], [98, 108, 111, 99, 107, 95, 116, 105, 109, 101, 115, 116, 97, 109, 112, 95, 116, 121, 112, 101]⟩, ⟨[112, 114, 111, 100, 117, 99, 101, 114], [110, 97, 109, 101]⟩, ⟨[99, 111, 110, 102, 105, 114, 109, 101, 100], [117, 105, 110, 116, 49, 54]⟩, ⟨[112, 114, 101, 118, 105, 111, 117, 115], [99, 104, 101, 99, 107, 115, 117, 109, 50, 53, 54]⟩, ⟨[116, 114, 97, 110, 115, 97, 99, 116, 105, 111, 110, 95, 109, 114, 111, 111, 116], [99, 104, 101, 99, 107, 115, 117, 109, 50, 53, 54]⟩, ⟨[97, 99, 116, 105, 111, 110, 95, 109, 114, 111, 111, 116], [99, 104, 101, 99, 107, 115, 117, 109, 50, 53, 54]⟩, ⟨[115, 99, 104, 101, 100, 117, 108, 101, 95, 118, 101, 114, 115, 105, 111, 110], [117, 105, 110, 116, 51, 50]⟩, ⟨[110, 101, 119, 95, 112, 114, 111, 100, 117, 99, 101, 114, 115], [112, 114, 111, 100, 117, 99, 101, 114, 95, 115, 99, 104, 101, 100, 117, 108, 101, 63]⟩, ⟨[104, 101, 97, 100, 101, 114, 95, 101, 120, 116, 101, 110, 115, 105, 111, 110, 115], [101, 120, 116, 101, 110, 115, 105, 111, 110, 91, 93]⟩, ⟨[112, 114, 111, 100, 117, 99, 101, 114, 95, 115, 105, 103, 110, 97, 116, 117, 114, 101], [115, 105, 103, 110, 97, 116, 117, 114, 101]⟩]),
    ([115, 105, 103, 110, 101, 100, 95, 98, 108, 111, 99, 107, 95, 118, 48], .struct [⟨[116, 105, 109, 101, 115, 116, 97, 109, 112], [98, 108, 111, 99, 107, 95, 116, 105, 109, 101, 115, 116, 97, 109, 112, 95, 116, 121, 112, 101]⟩, ⟨[112, 114, 111, 100, 117, 99, 101, 114], [110, 97, 109, 101]⟩, ⟨[99, 111, 110, 102, 105, 114, 109, 101, 100], [117, 105, 110, 116, 49, 54]⟩, ⟨[112, 114, 101, 118, 105, 111, 117, 115], [99, 104, 101, 99, 107, 115, 117, 109, 50, 53, 54]⟩, ⟨[116, 114, 97, 110, 115, 97, 99, 116, 105, 111, 110, 95, 109, 114, 111, 111, 116], [99, 104, 101, 99, 107, 115, 117, 109, 50, 53, 54]⟩, ⟨[97, 99, 116, 105, 111, 110, 95, 109, 114, 111, 111, 116], [99, 104, 101, 99, 107, 115, 117, 109, 50, 53, 54]⟩, ⟨[115, 99, 104, 101, 100, 117, 108, 101, 95, 118, 101, 114, 115, 105, 111, 110], [117, 105, 110, 116, 51, 50]⟩, ⟨[110, 101, 119, 95, 112, 114, 111, 100, 117, 99, 101, 114, 115], [112, 114, 111, 100, 117, 99, 101, 114, 95, 115, 99, 104, 101, 100, 117, 108, 101, 63]⟩, ⟨[104, 101, 97, 100, 101, 114, 95, 101, 120, 116, 101, 110, 115, 105, 111, 110, 115], [101, 120, 116, 101, 110, 115, 105, 111, 110, 91, 93]⟩, ⟨[112, 114, 111, 100, 117, 99, 101, 114, 95, 115, 105, 103, 110, 97, 116, 117, 114, 101], [115, 105, 103, 110, 97, 116, 117, 114, 101]⟩, ⟨[116, 114, 97, 110, 115, 97, 99, 116, 105, 111, 110, 115], [116, 114, 97, 110, 115, 97, 99, 116, 105, 111, 110, 95, 114, 101, 99, 101, 105, 112, 116, 95, 118, 48, 91, 93]⟩, ⟨[98, 108, 111, 99, 107, 95, 101, 120, 116, 101, 110, 115, 105, 111, 110, 115], [101, 120, 116, 101, 110, 115, 105, 111, 110, 91, 93]⟩]),
    ([115, 105, 103, 110, 101, 100, 95, 98, 108, 111, 99, 107, 95, 118, 49], .struct [⟨[116, 105, 109, 101, 115, 116, 97, 109, 112], [98, 108, 111, 99, 107, 95, 116, 105, 109, 101, 115, 116, 97, 109, 112, 95, 116, 121, 112, 101]⟩, ⟨[112, 114, 111, 100, 117, 99, 101, 114], [110, 97, 109, 101]⟩, ⟨[99, 111, 110, 102, 105, 114, 109, 101, 100], [117, 105, 110, 116, 49, 54]⟩, ⟨[112, 114, 101, 118, 105, 111, 117, 115], [99, 104, 101, 99, 107, 115, 117, 109, 50, 53, 54]⟩, ⟨[116, 114, 97, 110, 115, 97, 99, 116, 105, 111, 110, 95, 109, 114, 111, 111, 116], [99, 104, 101, 99, 107, 115, 117, 109, 50, 53, 54]⟩, ⟨[97, 99, 116, 105, 111, 110, 95, 109, 114, 111, 111, 116], [99, 104, 101, 99, 107, 115, 117, 109, 50, 53, 54]⟩, ⟨[115, 99, 104, 101, 100, 117, 108, 101, 95, 118, 101, 114, 115, 105, 111, 110], [117, 105, 110, 116, 51, 50]⟩, ⟨[110, 101, 119, 95, 112, 114, 111, 100, 117, 99, 101, 114, 115], [112, 114, 111, 100, 117, 99, 101, 114, 95, 115, 99, 104, 101, 100, 117, 108, 101, 63]⟩, ⟨[104, 101, 97, 100, 101, 114, 95, 101, 120, 116, 101, 110, 115, 105, 111, 110, 115], [101, 120, 116, 101, 110, 115, 105, 111, 110, 91, 93]⟩, ⟨[112, 114, 111, 100, 117, 99, 101, 114, 95, 115, 105, 103, 110, 97, 116, 117, 114, 101], [115, 105, 103, 110, 97, 116, 117, 114, 101]⟩, ⟨[112, 114, 117, 110, 101, 95, 115, 116, 97, 116, 101], [117, 105, 110, 116, 56]⟩, ⟨[116, 114, 97, 110, 115, 97, 99, 116, 105, 111, 110, 115], [116, 114, 97, 110, 115, 97, 99, 116, 105, 111, 110, 95, 114, 101, 99, 101, 105, 112, 116, 91, 93]⟩, ⟨[98, 108, 111, 99, 107, 95, 101, 120, 116, 101, 110, 115, 105, 111, 110, 115], [101, 120, 116, 101, 110, 115, 105, 111, 110, 91, 93]⟩]),
    ([115, 116, 114, 105, 110, 103], .builtin .string),
    ([115, 116, 114, 105, 110, 103, 63], .optional [115, 116, 114, 105, 110, 103]),
    ([116, 97, 98, 108, 101, 95, 100, 101, 108, 116, 97, 95, 118, 48], .struct [⟨[110, 97, 109, 101], [115, 116, 114, 105, 110, 103]⟩, ⟨[114, 111, 119, 115], [114, 111, 119, 91, 93]⟩]),
    ([116, 105, 109, 101, 95, 112, 111, 105, 110, 116], .builtin .time_point),
    ([116, 105, 109, 101, 95, 112, 111, 105, 110, 116, 95, 115, 101, 99], .builtin .time_point_sec),
    ([116, 114, 97, 110, 115, 97, 99, 116, 105, 111, 110], .struct [⟨[101, 120, 112, 105, 114, 97, 116, 105, 111, 110], [116, 105, 109, 101, 95, 112, 111, 105, 110, 116, 95, 115, 101, 99]⟩, ⟨[114, 101, 102, 95, 98, 108, 111, 99, 107, 95, 110, 117, 109], [117, 105, 110, 116, 49, 54]⟩, ⟨[114, 101, 102, 95, 98, 108, 111, 99, 107, 95, 112, 114, 101, 102, 105, 120], [117, 105, 110, 116, 51, 50]⟩, ⟨[109, 97, 120, 95, 110, 101, 116, 95, 117, 115, 97, 103, 101, 95, 119, 111, 114, 100, 115], [118, 97, 114, 117, 105, 110, 116, 51, 50]⟩, ⟨[109, 97, 120, 95, 99, 112, 117, 95, 117, 115, 97, 103, 101, 95, 109, 115], [117, 105, 110, 116, 56]⟩, ⟨[100, 101, 108, 97, 121, 95, 115, 101, 99], [118, 97, 114, 117, 105, 110, 116, 51, 50]⟩, ⟨[99, 111, 110, 116, 101, 120, 116, 95, 102, 114, 101, 101, 95, 97, 99, 116, 105, 111, 110, 115], [97, 99, 116, 105, 111, 110, 91, 93]⟩, ⟨[97, 99, 116, 105, 111, 110, 115], [97, 99, 116, 105, 111, 110, 91, 93]⟩, ⟨[116, 114, 97, 110, 115, 97, 99, 116, 105, 111, 110, 95, 101, 120, 116, 101, 110, 115, 105, 111, 110, 115], [101, 120, 116, 101, 110, 115, 105, 111, 110, 91, 93]⟩]),
    ([116, 114, 97, 110, 115, 97, 99, 116, 105, 111, 110, 95, 104, 101, 97, 100, 101, 114], .struct [⟨[101, 120, 112, 105, 114, 97, 116, 105, 111, 110], [116, 105, 109, 101, 95, 112, 111, 105, 110, 116, 95, 115, 101, 99]⟩, ⟨[114, 101, 102, 95, 98, 108, 111, 99, 107, 95, 110, 117, 109], [117, 105, 110, 116, 49, 54]⟩, ⟨[114, 101, 102, 95, 98, 108, 111, 99, 107, 95, 112, 114, 101, 102, 105, 120], [117, 105, 110, 116, 51, 50]⟩, ⟨[109, 97, 120, 95, 110, 101, 116, 95, 117, 115, 97, 103, 101, 95, 119, 111, 114, 100, 115], [118, 97, 114, 117, 105, 110, 116, 51, 50]⟩, ⟨[109, 97, 120, 95, 99, 112, 117, 95, 117, 115, 97, 103, 101, 95, 109, 115], [117, 105, 110, 116, 56]⟩, ⟨[100, 101, 108, 97, 121, 95, 115, 101, 99], [118, 97, 114, 117, 105, 110, 116, 51, 50]⟩]),
    ([116, 114, 97, 110, 115, 97, 99, 116, 105, 111, 110, 95, 114, 101, 99, 101, 105, 112, 116], .struct [⟨[115, 116, 97, 116, 117, 115], [117, 105, 110, 116, 56]⟩, ⟨[99, 112, 117, 95, 117, 115, 97, 103, 101, 95, 117, 115], [117, 105, 110, 116, 51, 50]⟩, ⟨[110, 101, 116, 95, 117, 115, 97, 103, 101, 95, 119, 111, 114, 100, 115], [118, 97, 114, 117, 105, 110, 116, 51, 50]⟩, ⟨[116, 114, 120], [118, 97, 114, 105, 97, 110, 116, 95, 99, 104, 101, 99, 107, 115, 117, 109, 50, 53, 54, 95, 112, 97, 99, 107, 101, 100, 95, 116, 114, 97, 110, 115, 97, 99, 116, 105, 111, 110]⟩]),
    ([116, 114, 97, 110, 115, 97, 99, 116, 105, 111, 110, 95, 114, 101, 99, 101, 105, 112, 116, 91, 93], .array [116, 114, 97, 110, 115, 97, 99, 116, 105, 111, 110, 95, 114, 101, 99, 101, 105, 112, 116]),
    ([116, 114, 97, 110, 115, 97, 99, 116, 105, 111, 110, 95, 114, 101, 99, 101, 105, 112, 116, 95, 104, 101, 97, 100, 101, 114], .struct [⟨[115, 116, 97, 116, 117, 115], [117, 105, 110, 116, 56]⟩, ⟨[99, 112, 117, 95, 117, 115, 97, 103, 101, 95, 117, 115], [117, 105, 110, 116, 51, 50]⟩, ⟨[110, 101, 116, 95, 117, 115, 97, 103, 101, 95, 119, 111, 114, 100, 115], [118, 97, 114, 117, 105, 110, 116, 51, 50]⟩]),
    ([116, 114, 97, 110, 115, 97, 99, 116, 105, 111, 110, 95, 114, 101, 99, 101, 105, 112, 116, 95, 118, 48], .struct [⟨[115, 116, 97, 116, 117, 115], [117, 105, 110, 116, 56]⟩, ⟨[99, 112, 117, 95, 117, 115, 97, 103, 101, 95, 117, 115], [117, 105, 110, 116, 51, 50]⟩, ⟨[110, 101, 116, 95, 117, 115, 97, 103, 101, 95, 119, 111, 114, 100, 115], [118, 97, 114, 117, 105, 110, 116, 51, 50]⟩, ⟨[116, 114, 120], [118, 97, 114, 105, 97, 110, 116, 95, 99, 104, 101, 99, 107, 115, 117, 109, 50, 53, 54, 95, 112, 97, 99, 107, 101, 100, 95, 116, 114, 97, 110, 115, 97, 99, 116, 105, 111, 110, 95, 118, 48]⟩]),
    ([116, 114, 97, 110, 115, 97, 99, 116, 105, 111, 110, 95, 114, 101, 99, 101, 105, 112, 116, 95, 118, 48, 91, 93], .array [116, 114, 97, 110, 115, 97, 99, 116, 105, 111, 110, 95, 114, 101, 99, 101, 105, 112, 116, 95, 118, 48]),
    ([116, 114, 97, 110, 115, 97, 99, 116, 105, 111, 110, 95, 116, 114, 97, 99, 101, 95, 118, 48], .struct [⟨[105, 100], [99, 104, 101, 99, 107, 115, 117, 109, 50, 53, 54]⟩, ⟨[115, 116, 97, 116, 117, 115], [117, 105, 110, 116, 56]⟩, ⟨[99, 112, 117, 95, 117, 115, 97, 103, 101, 95, 117, 115], [117, 105, 110, 116, 51, 50]⟩, ⟨[110, 101, 116, 95, 117, 115, 97, 103, 101, 95, 119, 111, 114, 100, 115], [118, 97, 114, 117, 105, 110, 116, 51, 50]⟩, ⟨[101, 108, 97, 112, 115, 101, 100], [105, 110, 116, 54, 52]⟩, ⟨[110, 101, 116, 95, 117, 115, 97, 103, 101], [117, 105, 110, 116, 54, 52]⟩, ⟨[115, 99, 104, 101, 100, 117, 108, 101, 100], [98, 111, 111, 108]⟩, ⟨[97, 99, 116, 105, 111, 110, 95, 116, 114, 97, 99, 101, 115], [118, 97, 114, 105, 97, 110, 116, 95, 97, 99, 116, 105, 111, 110, 95, 116, 114, 97, 99, 101, 95, 118, 48, 95, 97, 99, 116, 105, 111, 110, 95, 116, 114, 97, 99, 101, 95, 118, 49, 91, 93]⟩, ⟨[97, 99, 99, 111, 117, 110, 116, 95, 114, 97, 109, 95, 100, 101, 108, 116, 97], [97, 99, 99, 111, 117, 110, 116, 95, 100, 101, 108, 116, 97, 63]⟩, ⟨[101, 120, 99, 101, 112, 116], [115, 116, 114, 105, 110, 103, 63]⟩, ⟨[101, 114, 114, 111, 114, 95, 99, 111, 100, 101], [117, 105, 110, 116, 54, 52, 63]⟩, ⟨[102, 97, 105, 108, 101, 100, 95, 100, 116, 114, 120, 95, 116, 114, 97, 99, 101], [118, 97, 114, 105, 97, 110, 116, 95, 116, 114, 97, 110, 115, 97, 99, 116, 105, 111, 110, 95, 116, 114, 97, 99, 101, 95, 118, 48, 91, 93]⟩, ⟨[112, 97, 114, 116, 105, 97, 108], [118, 97, 114, 105, 97, 110, 116, 95, 112, 97, 114, 116, 105, 97, 108, 95, 116, 114, 97, 110, 115, 97, 99, 116, 105, 111, 110, 95, 118, 48, 95, 112, 97, 114, 116, 105, 97, 108, 95, 116, 114, 97, 110, 115, 97, 99, 116, 105, 111, 110, 95, 118, 49, 63]⟩]),
    ([117, 105, 110, 116, 49, 50, 56], .builtin .uint128),
    ([117, 105, 110, 116, 49, 54], .builtin .uint16),
    ([117, 105, 110, 116, 51, 50], .builtin .uint32),
    ([117, 105, 110, 116, 51, 50, 63], .optional [117, 105, 110, 116, 51, 50]),
    ([117, 105, 110, 116, 54, 52], .builtin .uint64),
    ([117, 105, 110, 116, 54, 52, 63], .optional [117, 105, 110, 116, 54, 52]),
    ([117, 105, 110, 116, 56], .builtin .uint8),
    ([117, 115, 97, 103, 101, 95, 97, 99, 99, 117, 109, 117, 108, 97, 116, 111, 114, 95, 118, 48], .struct [⟨[108, 97, 115, 116, 95, 111, 114, 100, 105, 110, 97, 108], [117, 105, 110, 116, 51, 50]⟩, ⟨[118, 97, 108, 117, 101, 95, 101, 120], [117, 105, 110, 116, 54, 52]⟩, ⟨[99, 111, 110, 115, 117, 109, 101, 100], [117, 105, 110, 116, 54, 52]⟩]),
    ([118, 97, 114, 105, 97, 110, 116, 95, 97, 99, 99, 111, 117, 110, 116, 95, 109, 101, 116, 97, 100, 97, 116, 97, 95, 118, 48], .variant [⟨[97, 99, 99, 111, 117, 110, 116, 95, 109, 101, 116, 97, 100, 97, 116, 97, 95, 118, 48], [97, 99, 99, 111, 117, 110, 116, 95, 109, 101, 116, 97, 100, 97, 116, 97, 95, 118, 48]⟩]),
    ([118, 97, 114, 105, 97, 110, 116, 95, 97, 99, 99, 111, 117, 110, 116, 95, 118, 48], .variant [⟨[97, 99, 99, 111, 117, 110, 116, 95, 118, 48], [97, 99, 99, 111, 117, 110, 116, 95, 118, 48]⟩]),
    ([118, 97, 114, 105, 97, 110, 116, 95, 97, 99, 116, 105, 111, 110, 95, 114, 101, 99, 101, 105, 112, 116, 95, 118, 48], .variant [⟨[97, 99, 116, 105, 111, 110, 95, 114, 101, 99, 101, 105, 112, 116, 95, 118, 48], [97, 99, 116, 105, 111, 110, 95, 114, 101, 99, 101, 105, 112, 116, 95, 118, 48]⟩]),
    ([118, 97, 114, 105, 97, 110, 116, 95, 97, 99, 116, 105, 111, 110, 95, 114, 101, 99, 101, 105, 112, 116, 95, 118, 48, 63], .optional [118, 97, 114, 105, 97, 110, 116, 95, 97, 99, 116, 105, 111, 110, 95, 114, 101, 99, 101, 105, 112, 116, 95, 118, 48]),
    ([118, 97, 114, 105, 97, 110, 116, 95, 97, 99, 116, 105, 111, 110, 95, 116, 114, 97, 99, 101, 95, 118, 48, 95, 97, 99, 116, 105, 111, 110, 95, 116, 114, 97, 99, 101, 95, 118, 49], .variant [⟨[97, 99, 116, 105, 111, 110, 95, 116, 114, 97, 99, 101, 95, 118, 48], [97, 99, 116, 105, 111, 110, 95, 116, 114, 97, 99, 101, 95, 118, 48]⟩, ⟨[97, 99, 116, 105, 111, 110, 95, 116, 114, 97, 99, 101, 95, 118, 49], [97, 99, 116, 105, 111, 110, 95, 116, 114, 97, 99, 101, 95, 118, 49]⟩]),
    ([118, 97, 114, 105, 97, 110, 116, 95, 97, 99, 116, 105, 111, 110, 95, 116, 114, 97, 99, 101, 95, 118, 48, 95, 97, 99, 116, 105, 111, 110, 95, 116, 114, 97, 99, 101, 95, 118, 49, 91, 93], .array [118, 97, 114, 105, 97, 110, 116, 95, 97, 99, 116, 105, 111, 110, 95, 116, 114, 97, 99, 101, 95, 118, 48, 95, 97, 99, 116, 105, 111, 110, 95, 116, 114, 97, 99, 101, 95, 118, 49]),
    ([118, 97, 114, 105, 97, 110, 116, 95, 97, 99, 116, 105, 118, 97, 116, 101, 100, 95, 112, 114, 111, 116, 111, 99, 111, 108, 95, 102, 101, 97, 116, 117, 114, 101, 95, 118, 48], .variant [⟨[97, 99, 116, 105, 118, 97, 116, 101, 100, 95, 112, 114, 111, 116, 111, 99, 111, 108, 95, 102, 101, 97, 116, 117, 114, 101, 95, 118, 48], [97, 99, 116, 105, 118, 97, 116, 101, 100, 95, 112, 114, 111, 116, 111, 99, 111, 108, 95, 102, 101, 97, 116, 117, 114, 101, 95, 118, 48]⟩]),
    ([118, 97, 114, 105, 97, 110, 116, 95, 97, 99, 116, 105, 118, 97, 116, 101, 100, 95, 112, 114, 111, 116, 111, 99, 111, 108, 95, 102, 101, 97, 116, 117, 114, 101, 95, 118, 48, 91, 93], .array [118, 97, 114, 105, 97, 110, 116, 95, 97, 99, 116, 105, 118, 97, 116, 101, 100, 95, 112, 114, 111, 116, 111, 99, 111, 108, 95, 102, 101, 97, 116, 117, 114, 101, 95, 118, 48]),
    ([118, 97, 114, 105, 97, 110, 116, 95, 98, 108, 111, 99, 107, 95, 115, 105, 103, 110, 105, 110, 103, 95, 97, 117, 116, 104, 111, 114, 105, 116, 121, 95, 118, 48], .variant [⟨[98, 108, 111, 99, 107, 95, 115, 105, 103, 110, 105, 110, 103, 95, 97, 117, 116, 104, 111, 114, 105, 116, 121, 95, 118, 48], [98, 108, 111, 99, 107, 95, 115, 105, 103, 110, 105, 110, 103, 95, 97, 117, 116, 104, 111, 114, 105, 116, 121, 95, 118, 48]⟩]),
    ([118, 97, 114, 105, 97, 110, 116, 95, 99, 104, 97, 105, 110, 95, 99, 111, 110, 102, 105, 103, 95, 118, 48], .variant [⟨[99, 104, 97, 105, 110, 95, 99, 111, 110, 102, 105, 103, 95, 118, 48], [99, 104, 97, 105, 110, 95, 99, 111, 110, 102, 105, 103, 95, 118, 48]⟩]),
    ([118, 97, 114, 105, 97, 110, 116, 95, 99, 104, 101, 99, 107, 115, 117, 109, 50, 53, 54, 95, 98, 121, 116, 101, 115], .variant [⟨[99, 104, 101, 99, 107, 115, 117, 109, 50, 53, 54], [99, 104, 101, 99, 107, 115, 117, 109, 50, 53, 54]⟩, ⟨[98, 121, 116, 101, 115], [98, 121, 116, 101, 115]⟩]),
    ([118, 97, 114, 105, 97, 110, 116, 95, 99, 104, 101, 99, 107, 115, 117, 109, 50, 53, 54, 95, 98, 121, 116, 101, 115, 91, 93], .array [118, 97, 114, 105, 97, 110, 116, 95, 99, 104, 101, 99, 107, 115, 117, 109, 50, 53, 54, 95, 98, 121, 116, 101, 115]),
    ([118, 97, 114, 105, 97, 110, 116, 95, 99, 104, 101, 99, 107, 115, 117, 109, 50, 53, 54, 95, 112, 97, 99, 107, 101, 100, 95, 116, 114, 97, 110, 115, 97, 99, 116, 105, 111, 110], .variant [⟨[99, 104, 101, 99, 107, 115, 117, 109, 50, 53, 54], [99, 104, 101, 99, 107, 115, 117, 109, 50, 53, 54]⟩, ⟨[112, 97, 99, 107, 101, 100, 95, 116, 114, 97, 110, 115, 97, 99, 116, 105, 111, 110], [112, 97, 99, 107, 101, 100, 95, 116, 114, 97, 110, 115, 97, 99, 116, 105, 111, 110]⟩]),
    ([118, 97, 114, 105, 97, 110, 116, 95, 99, 104, 101, 99, 107, 115, 117, 109, 50, 53, 54, 95, 112, 97, 99, 107, 101, 100, 95, 116, 114, 97, 110, 115, 97, 99, 116, 105, 111, 110, 95, 118, 48], .variant [⟨[99, 104, 101, 99, 107, 115, 117, 109, 50, 53, 54], [99, 104, 101, 99, 107, 115, 117, 109, 50, 53, 54]⟩, ⟨[112, 97, 99, 107, 101, 100, 95, 116, 114, 97, 110, 115, 97, 99, 116, 105, 111, 110, 95, 118, 48], [112, 97, 99, 107, 101, 100, 95, 116, 114, 97, 110, 115, 97, 99, 116, 105, 111, 110, 95, 118, 48]⟩]),
    ([118, 97, 114, 105, 97, 110, 116, 95, 99, 111, 100, 101, 95, 118, 48], .variant [⟨[99, 111, 100, 101, 95, 118, 48], [99, 111, 100, 101, 95, 118, 48]⟩]),
    ([118, 97, 114, 105, 97, 110, 116, 95, 99, 111, 110, 116, 114, 97, 99, 116, 95, 105, 110, 100, 101, 120, 49, 50, 56, 95, 118, 48], .variant [⟨[99, 111, 110, 116, 114, 97, 99, 116, 95, 105, 110, 100, 101, 120, 49, 50, 56, 95, 118, 48], [99, 111, 110, 116, 114, 97, 99, 116, 95, 105, 110, 100, 101, 120, 49, 50, 56, 95, 118, 48]⟩]),
    ([118, 97, 114, 105, 97, 110, 116, 95, 99, 111, 110, 116, 114, 97, 99, 116, 95, 105, 110, 100, 101, 120, 50, 53, 54, 95, 118, 48], .variant [⟨[99, 111, 110, 116, 114, 97, 99, 116, 95, 105, 110, 100, 101, 120, 50, 53, 54, 95, 118, 48], [99, 111, 110, 116, 114, 97, 99, 116, 95, 105, 110, 100, 101, 120, 50, 53, 54, 95, 118, 48]⟩]),
    ([118, 97, 114, 105, 97, 110, 116, 95, 99, 111, 110, 116, 114, 97, 99, 116, 95, 105, 110, 100, 101, 120, 54, 52, 95, 118, 48], .variant [⟨[99, 111, 110, 116, 114, 97, 99, 116, 95, 105, 110, 100, 101, 120, 54, 52, 95, 118, 48], [99, 111, 110, 116, 114, 97, 99, 116, 95, 105, 110, 100, 101, 120, 54, 52, 95, 118, 48]⟩]),
    ([118, 97, 114, 105, 97, 110, 116, 95, 99, 111, 110, 116, 114, 97, 99, 116, 95, 105, 110, 100, 101, 120, 95, 100, 111, 117, 98, 108, 101, 95, 118, 48], .variant [⟨[99, 111, 110, 116, 114, 97, 99, 116, 95, 105, 110, 100, 101, 120, 95, 100, 111, 117, 98, 108, 101, 95, 118, 48], [99, 111, 110, 116, 114, 97, 99, 116, 95, 105, 110, 100, 101, 120, 95, 100, 111, 117, 98, 108, 101, 95, 118, 48]⟩]),
    ([118, 97, 114, 105, 97, 110, 116, 95, 99, 111, 110, 116, 114, 97, 99, 116, 95, 105, 110, 100, 101, 120, 95, 108, 111, 110, 103, 95, 100, 111, 117, 98, 108, 101, 95, 118, 48], .variant [⟨[99, 111, 110, 116, 114, 97, 99, 116, 95, 105, 110, 100, 101, 120, 95, 108, 111, 110, 103, 95, 100, 111, 117, 98, 108, 101, 95, 118, 48], [99, 111, 110, 116, 114, 97, 99, 116, 95, 105, 110, 100, 101, 120, 95, 108, 111, 110, 103, 95, 100, 111, 117, 98, 108, 101, 95, 118, 48]⟩]),
    ([118, 97, 114, 105, 97, 110, 116, 95, 99, 111, 110, 116, 114, 97, 99, 116, 95, 114, 111, 119, 95, 118, 48], .variant [⟨[99, 111, 110, 116, 114, 97, 99, 116, 95, 114, 111, 119, 95, 118, 48], [99, 111, 110, 116, 114, 97, 99, 116, 95, 114, 111, 119, 95, 118, 48]⟩]),
    ([118, 97, 114, 105, 97, 110, 116, 95, 99, 111, 110, 116, 114, 97, 99, 116, 95, 116, 97, 98, 108, 101, 95, 118, 48], .variant [⟨[99, 111, 110, 116, 114, 97, 99, 116, 95, 116, 97, 98, 108, 101, 95, 118, 48], [99, 111, 110, 116, 114, 97, 99, 116, 95, 116, 97, 98, 108, 101, 95, 118, 48]⟩]),
    ([118, 97, 114, 105, 97, 110, 116, 95, 101, 108, 97, 115, 116, 105, 99, 95, 108, 105, 109, 105, 116, 95, 112, 97, 114, 97, 109, 101, 116, 101, 114, 115, 95, 118, 48], .variant [⟨[101, 108, 97, 115, 116, 105, 99, 95, 108, 105, 109, 105, 116, 95, 112, 97, 114, 97, 109, 101, 116, 101, 114, 115, 95, 118, 48], [101, 108, 97, 115, 116, 105, 99, 95, 108, 105, 109, 105, 116, 95, 112, 97, 114, 97, 109, 101, 116, 101, 114, 115, 95, 118, 48]⟩]),
    ([118, 97, 114, 105, 97, 110, 116, 95, 103, 101, 110, 101, 114, 97, 116, 101, 100, 95, 116, 114, 97, 110, 115, 97, 99, 116, 105, 111, 110, 95, 118, 48], .variant [⟨[103, 101, 110, 101, 114, 97, 116, 101, 100, 95, 116, 114, 97, 110, 115, 97, 99, 116, 105, 111, 110, 95, 118, 48], [103, 101, 110, 101, 114, 97, 116, 101, 100, 95, 116, 114, 97, 110, 115, 97, 99, 116, 105, 111, 110, 95, 118, 48]⟩]),
    ([118, 97, 114, 105, 97, 110, 116, 95, 103, 101, 116, 95, 115, 116, 97, 116, 117, 115, 95, 114, 101, 113, 117, 101, 115, 116, 95, 118, 48, 95, 103, 101, 116, 95, 98, 108, 111, 99, 107, 115, 95, 114, 101, 113, 117, 101, 115, 116, 95, 118, 48, 95, 103, 101, 116, 95, 98, 108, 111, 99, 107, 115, 95, 97, 99, 107, 95, 114, 101, 113, 117, 101, 115, 116, 95, 118, 48], .variant [⟨[103, 101, 116, 95, 115, 116, 97, 116, 117, 115, 95, 114, 101, 113, 117, 101, 115, 116, 95, 118, 48], [103, 101, 116, 95, 115, 116, 97, 116, 117, 115, 95, 114, 101, 113, 117, 101, 115, 116, 95, 118, 48]⟩, ⟨[103, 101, 116, 95, 98, 108, 111, 99, 107, 115, 95, 114, 101, 113, 117, 101, 115, 116, 95, 118, 48], [103, 101, 116, 95, 98, 108, 111, 99, 107, 115, 95, 114, 101, 113, 117, 101, 115, 116, 95, 118, 48]⟩, ⟨[103, 101, 116, 95, 98, 108, 111, 99, 107, 115, 95, 97, 99, 107, 95, 114, 101, 113, 117, 101, 115, 116, 95, 118, 48], [103, 101, 116, 95, 98, 108, 111, 99, 107, 115, 95, 97, 99, 107, 95, 114, 101, 113, 117, 101, 115, 116, 95, 118, 48]⟩]),
    ([118, 97, 114, 105, 97, 110, 116, 95, 103, 101, 116, 95, 115, 116, 97, 116, 117, 115, 95, 114, 101, 115, 117, 108, 116, 95, 118, 48, 95, 103, 101, 116, 95, 98, 108, 111, 99, 107, 115, 95, 114, 101, 115, 117, 108, 116, 95, 118, 48, 95, 103, 101, 116, 95, 98, 108, 111, 99, 107, 115, 95, 114, 101, 115, 117, 108, 116, 95, 118, 49], .variant [⟨[103, 101, 116, 95, 115, 116, 97, 116, 117, 115, 95, 114, 101, 115, 117, 108, 116, 95, 118, 48], [103, 101, 116, 95, 115, 116, 97, 116, 117, 115, 95, 114, 101, 115, 117, 108, 116, 95, 118, 48]⟩, ⟨[103, 101, 116, 95, 98, 108, 111, 99, 107, 115, 95, 114, 101, 115, 117, 108, 116, 95, 118, 48], [103, 101, 116, 95, 98, 108, 111, 99, 107, 115, 95, 114, 101, 115, 117, 108, 116, 95, 118, 48]⟩, ⟨[103, 101, 116, 95, 98, 108, 111, 99, 107, 115, 95, 114, 101, 115, 117, 108, 116, 95, 118, 49], [103, 101, 116, 95, 98, 108, 111, 99, 107, 115, 95, 114, 101, 115, 117, 108, 116, 95, 118, 49]⟩]),
    ([118, 97, 114, 105, 97, 110, 116, 95, 103, 108, 111, 98, 97, 108, 95, 112, 114, 111, 112, 101, 114, 116, 121, 95, 118, 48, 95, 103, 108, 111, 98, 97, 108, 95, 112, 114, 111, 112, 101, 114, 116, 121, 95, 118, 49], .variant [⟨[103, 108, 111, 98, 97, 108, 95, 112, 114, 111, 112, 101, 114, 116, 121, 95, 118, 48], [103, 108, 111, 98, 97, 108, 95, 112, 114, 111, 112, 101, 114, 116, 121, 95, 118, 48]⟩, ⟨[103, 108, 111, 98, 97, 108, 95, 112, 114, 111, 112, 101, 114, 116, 121, 95, 118, 49], [103, 108, 111, 98, 97, 108, 95, 112, 114, 111, 112, 101, 114, 116, 121, 95, 118, 49]⟩]),
    ([118, 97, 114, 105, 97, 110, 116, 95, 107, 101, 121, 95, 118, 97, 108, 117, 101, 95, 118, 48], .variant [⟨[107, 101, 121, 95, 118, 97, 108, 117, 101, 95, 118, 48], [107, 101, 121, 95, 118, 97, 108, 117, 101, 95, 118, 48]⟩]),
    ([118, 97, 114, 105, 97, 110, 116, 95, 112, 97, 114, 116, 105, 97, 108, 95, 116, 114, 97, 110, 115, 97, 99, 116, 105, 111, 110, 95, 118, 48, 95, 112, 97, 114, 116, 105, 97, 108, 95, 116, 114, 97, 110, 115, 97, 99, 116, 105, 111, 110, 95, 118, 49], .variant [⟨[112, 97, 114, 116, 105, 97, 108, 95, 116, 114, 97, 110, 115, 97, 99, 116, 105, 111, 110, 95, 118, 48], [112, 97, 114, 116, 105, 97, 108, 95, 116, 114, 97, 110, 115, 97, 99, 116, 105, 111, 110, 95, 118, 48]⟩, ⟨[112, 97, 114, 116, 105, 97, 108, 95, 116, 114, 97, 110, 115, 97, 99, 116, 105, 111, 110, 95, 118, 49], [112, 97, 114, 116, 105, 97, 108, 95, 116, 114, 97, 110, 115, 97, 99, 116, 105, 111, 110, 95, 118, 49]⟩]),
    ([118, 97, 114, 105, 97, 110, 116, 95, 112, 97, 114, 116, 105, 97, 108, 95, 116, 114, 97, 110, 115, 97, 99, 116, 105, 111, 110, 95, 118, 48, 95, 112, 97, 114, 116, 105, 97, 108, 95, 116, 114, 97, 110, 115, 97, 99, 116, 105, 111, 110, 95, 118, 49, 63], .optional [118, 97, 114, 105, 97, 110, 116, 95, 112, 97, 114, 116, 105, 97, 108, 95, 116, 114, 97, 110, 115, 97, 99, 116, 105, 111, 110, 95, 118, 48, 95, 112, 97, 114, 116, 105, 97, 108, 95, 116, 114, 97, 110, 115, 97, 99, 116, 105, 111, 110, 95, 118, 49]),
    ([118, 97, 114, 105, 97, 110, 116, 95, 112, 101, 114, 109, 105, 115, 115, 105, 111, 110, 95, 108, 105, 110, 107, 95, 118, 48], .variant [⟨[112, 101, 114, 109, 105, 115, 115, 105, 111, 110, 95, 108, 105, 110, 107, 95, 118, 48], [112, 101, 114, 109, 105, 115, 115, 105, 111, 110, 95, 108, 105, 110, 107, 95, 118, 48]⟩]),
    ([118, 97, 114, 105, 97, 110, 116, 95, 112, 101, 114, 109, 105, 115, 115, 105, 111, 110, 95, 118, 48], .variant [⟨[112, 101, 114, 109, 105, 115, 115, 105, 111, 110, 95, 118, 48], [112, 101, 114, 109, 105, 115, 115, 105, 111, 110, 95, 118, 48]⟩]),
    ([118, 97, 114, 105, 97, 110, 116, 95, 112, 114, 111, 116, 111, 99, 111, 108, 95, 115, 116, 97, 116, 101, 95, 118, 48], .variant [⟨[112, 114, 111, 116, 111, 99, 111, 108, 95, 115, 116, 97, 116, 101, 95, 118, 48], [112, 114, 111, 116, 111, 99, 111, 108, 95, 115, 116, 97, 116, 101, 95, 118, 48]⟩]),
    ([118, 97, 114, 105, 97, 110, 116, 95, 112, 114, 117, 110, 97, 98, 108, 101, 95, 100, 97, 116, 97, 95, 116, 121, 112, 101, 58, 58, 102, 117, 108, 108, 95, 108, 101, 103, 97, 99, 121, 95, 112, 114, 117, 110, 97, 98, 108, 101, 95, 100, 97, 116, 97, 95, 116, 121, 112, 101, 58, 58, 110, 111, 110, 101, 95, 112, 114, 117, 110, 97, 98, 108, 101, 95, 100, 97, 116, 97, 95, 116, 121, 112, 101, 58, 58, 112, 97, 114, 116, 105, 97, 108, 95, 112, 114, 117, 110, 97, 98, 108, 101, 95, 100, 97, 116, 97, 95, 116, 121, 112, 101, 58, 58, 102, 117, 108, 108], .variant [⟨[112, 114, 117, 110, 97, 98, 108, 101, 95, 100, 97, 116, 97, 95, 116, 121, 112, 101, 58, 58, 102, 117, 108, 108, 95, 108, 101, 103, 97, 99, 121], [112, 114, 117, 110, 97, 98, 108, 101, 95, 100, 97, 116, 97, 95, 116, 121, 112, 101, 58, 58, 102, 117, 108, 108, 95, 108, 101, 103, 97, 99, 121]⟩, ⟨[112, 114, 117, 110, 97, 98, 108, 101, 95, 100, 97, 116, 97, 95, 116, 121, 112, 101, 58, 58, 110, 111, 110, 101], [112, 114, 117, 110, 97, 98, 108, 101, 95, 100, 97, 116, 97, 95, 116, 121, 112, 101, 58, 58, 110, 111, 110, 101]⟩, ⟨[112, 114, 117, 110, 97, 98, 108, 101, 95, 100, 97, 116, 97, 95, 116, 121, 112, 101, 58, 58, 112, 97, 114, 116, 105, 97, 108], [112, 114, 117, 110, 97, 98, 108, 101, 95, 100, 97, 116, 97, 95, 116, 121, 112, 101, 58, 58, 112, 97, 114, 116, 105, 97, 108]⟩, ⟨[112, 114, 117, 110, 97, 98, 108, 101, 95, 100, 97, 116, 97, 95, 116, 121, 112, 101, 58, 58, 102, 117, 108, 108], [112, 114, 117, 110, 97, 98, 108, 101, 95, 100, 97, 116, 97, 95, 116, 121, 112, 101, 58, 58, 102, 117, 108, 108]⟩]),
    ([118, 97, 114, 105, 97, 110, 116, 95, 114, 101, 115, 111, 117, 114, 99, 101, 95, 108, 105, 109, 105, 116, 115, 95, 99, 111, 110, 102, 105, 103, 95, 118, 48], .variant [⟨[114, 101, 115, 111, 117, 114, 99, 101, 95, 108, 105, 109, 105, 116, 115, 95, 99, 111, 110, 102, 105, 103, 95, 118, 48], [114, 101, 115, 111, 117, 114, 99, 101, 95, 108, 105, 109, 105, 116, 115, 95, 99, 111, 110, 102, 105, 103, 95, 118, 48]⟩]),
    ([118, 97, 114, 105, 97, 110, 116, 95, 114, 101, 115, 111, 117, 114, 99, 101, 95, 108, 105, 109, 105, 116, 115, 95, 114, 97, 116, 105, 111, 95, 118, 48], .variant [⟨[114, 101, 115, 111, 117, 114, 99, 101, 95, 108, 105, 109, 105, 116, 115, 95, 114, 97, 116, 105, 111, 95, 118, 48], [114, 101, 115, 111, 117, 114, 99, 101, 95, 108, 105, 109, 105, 116, 115, 95, 114, 97, 116, 105, 111, 95, 118, 48]⟩]),
    ([118, 97, 114, 105, 97, 110, 116, 95, 114, 101, 115, 111, 117, 114, 99, 101, 95, 108, 105, 109, 105, 116, 115, 95, 115, 116, 97, 116, 101, 95, 118, 48], .variant [⟨[114, 101, 115, 111, 117, 114, 99, 101, 95, 108, 105, 109, 105, 116, 115, 95, 115, 116, 97, 116, 101, 95, 118, 48], [114, 101, 115, 111, 117, 114, 99, 101, 95, 108, 105, 109, 105, 116, 115, 95, 115, 116, 97, 116, 101, 95, 118, 48]⟩]),
    ([118, 97, 114, 105, 97, 110, 116, 95, 114, 101, 115, 111, 117, 114, 99, 101, 95, 108, 105, 109, 105, 116, 115, 95, 118, 48], .variant [⟨[114, 101, 115, 111, 117, 114, 99, 101, 95, 108, 105, 109, 105, 116, 115, 95, 118, 48], [114, 101, 115, 111, 117, 114, 99, 101, 95, 108, 105, 109, 105, 116, 115, 95, 118, 48]⟩]),
    ([118, 97, 114, 105, 97, 110, 116, 95, 114, 101, 115, 111, 117, 114, 99, 101, 95, 117, 115, 97, 103, 101, 95, 118, 48], .variant [⟨[114, 101, 115, 111, 117, 114, 99, 101, 95, 117, 115, 97, 103, 101, 95, 118, 48], [114, 101, 115, 111, 117, 114, 99, 101, 95, 117, 115, 97, 103, 101, 95, 118, 48]⟩]),
    ([118, 97, 114, 105, 97, 110, 116, 95, 115, 105, 103, 110, 101, 100, 95, 98, 108, 111, 99, 107, 95, 118, 48, 95, 115, 105, 103, 110, 101, 100, 95, 98, 108, 111, 99, 107, 95, 118, 49], .variant [⟨[115, 105, 103, 110, 101, 100, 95, 98, 108, 111, 99, 107, 95, 118, 48], [115, 105, 103, 110, 101, 100, 95, 98, 108, 111, 99, 107, 95, 118, 48]⟩, ⟨[115, 105, 103, 110, 101, 100, 95, 98, 108, 111, 99, 107, 95, 118, 49], [115, 105, 103, 110, 101, 100, 95, 98, 108, 111, 99, 107, 95, 118, 49]⟩]),
    ([118, 97, 114, 105, 97, 110, 116, 95, 115, 105, 103, 110, 101, 100, 95, 98, 108, 111, 99, 107, 95, 118, 48, 95, 115, 105, 103, 110, 101, 100, 95, 98, 108, 111, 99, 107, 95, 118, 49, 63], .optional [118, 97, 114, 105, 97, 110, 116, 95, 115, 105, 103, 110, 101, 100, 95, 98, 108, 111, 99, 107, 95, 118, 48, 95, 115, 105, 103, 110, 101, 100, 95, 98, 108, 111, 99, 107, 95, 118, 49]),
    ([118, 97, 114, 105, 97, 110, 116, 95, 116, 97, 98, 108, 101, 95, 100, 101, 108, 116, 97, 95, 118, 48], .variant [⟨[116, 97, 98, 108, 101, 95, 100, 101, 108, 116, 97, 95, 118, 48], [116, 97, 98, 108, 101, 95, 100, 101, 108, 116, 97, 95, 118, 48]⟩]),
    ([118, 97, 114, 105, 97, 110, 116, 95, 116, 97, 98, 108, 101, 95, 100, 101, 108, 116, 97, 95, 118, 48, 91, 93], .array [118, 97, 114, 105, 97, 110, 116, 95, 116, 97, 98, 108, 101, 95, 100, 101, 108, 116, 97, 95, 118, 48]),
    ([118, 97, 114, 105, 97, 110, 116, 95, 116, 114, 97, 110, 115, 97, 99, 116, 105, 111, 110, 95, 116, 114, 97, 99, 101, 95, 118, 48], .variant [⟨[116, 114, 97, 110, 115, 97, 99, 116, 105, 111, 110, 95, 116, 114, 97, 99, 101, 95, 118, 48], [116, 114, 97, 110, 115, 97, 99, 116, 105, 111, 110, 95, 116, 114, 97, 99, 101, 95, 118, 48]⟩]),
    ([118, 97, 114, 105, 97, 110, 116, 95, 116, 114, 97, 110, 115, 97, 99, 116, 105, 111, 110, 95, 116, 114, 97, 99, 101, 95, 118, 48, 91, 93], .array [118, 97, 114, 105, 97, 110, 116, 95, 116, 114, 97, 110, 115, 97, 99, 116, 105, 111, 110, 95, 116, 114, 97, 99, 101, 95, 118, 48]),
    ([118, 97, 114, 105, 97, 110, 116, 95, 117, 115, 97, 103, 101, 95, 97, 99, 99, 117, 109, 117, 108, 97, 116, 111, 114, 95, 118, 48], .variant [⟨[117, 115, 97, 103, 101, 95, 97, 99, 99, 117, 109, 117, 108, 97, 116, 111, 114, 95, 118, 48], [117, 115, 97, 103, 101, 95, 97, 99, 99, 117, 109, 117, 108, 97, 116, 111, 114, 95, 118, 48]⟩]),
    ([118, 97, 114, 117, 105, 110, 116, 51, 50], .builtin .varuint32),
    ([119, 97, 105, 116, 95, 119, 101, 105, 103, 104, 116], .struct [⟨[119, 97, 105, 116, 95, 115, 101, 99], [117, 105, 110, 116, 51, 50]⟩, ⟨[119, 101, 105, 103, 104, 116], [117, 105, 110, 116, 49, 54]⟩]),
    ([119, 97, 105, 116, 95, 119, 101, 105, 103, 104, 116, 91, 93], .array [119, 97, 105, 116, 95, 119, 101, 105, 103, 104, 116])]

/-- `loaded`, evaluated -/
def loadedLit : Table :=
  [([97, 99, 99, 111, 117, 110, 116], .variant [⟨[97, 99, 99, 111, 117, 110, 116, 95, 118, 48], [97, 99, 99, 111, 117, 110, 116, 95, 118, 48]⟩]),
    ([97, 99, 99, 111, 117, 110, 116, 95, 97, 117, 116, 104, 95, 115, 101, 113, 117, 101, 110, 99, 101], .struct [⟨[97, 99, 99, 111, 117, 110, 116], [110, 97, 109, 101]⟩, ⟨[115, 101, 113, 117, 101, 110, 99, 101], [117, 105, 110, 116, 54, 52]⟩]),
    ([97, 99, 99, 111, 117, 110, 116, 95, 97, 117, 116, 104, 95, 115, 101, 113, 117, 101, 110, 99, 101, 91, 93], .array [97, 99, 99, 111, 117, 110, 116, 95, 97, 117, 116, 104, 95, 115, 101, 113, 117, 101, 110, 99, 101]),
    ([97, 99, 99, 111, 117, 110, 116, 95, 100, 101, 108, 116, 97], .struct [⟨[97, 99, 99, 111, 117, 110, 116], [110, 97, 109, 101]⟩, ⟨[100, 101, 108, 116, 97], [105, 110, 116, 54, 52]⟩]),
    ([97, 99, 99, 111, 117, 110, 116, 95, 100, 101, 108, 116, 97, 63], .optional [97, 99, 99, 111, 117, 110, 116, 95, 100, 101, 108, 116, 97]),
    ([97, 99, 99, 111, 117, 110, 116, 95, 100, 101, 108, 116, 97, 91, 93], .array [97, 99, 99, 111, 117, 110, 116, 95, 100, 101, 108, 116, 97]),
    ([97, 99, 99, 111, 117, 110, 116, 95, 109, 101, 116, 97, 100, 97, 116, 97], .variant [⟨[97, 99, 99, 111, 117, 110, 116, 95, 109, 101, 116, 97, 100, 97, 116, 97, 95, 118, 48], [97, 99, 99, 111, 117, 110, 116, 95, 109, 101, 116, 97, 100, 97, 116, 97, 95, 118, 48]⟩]),
    ([97, 99, 99, 111, 117, 110, 116, 95, 109, 101, 116, 97, 100, 97, 116, 97, 95, 118, 48], .struct [⟨[110, 97, 109, 101], [110, 97, 109, 101]⟩, ⟨[112, 114, 105, 118, 105, 108, 101, 103, 101, 100], [98, 111, 111, 108]⟩, ⟨[108, 97, 115, 116, 95, 99, 111, 100, 101, 95, 117, 112, 100, 97, 116, 101], [116, 105, 109, 101, 95, 112, 111, 105, 110, 116]⟩, ⟨[99, 111, 100, 101], [99, 111, 100, 101, 95, 105, 100, 63]⟩]),
    ([97, 99, 99, 111, 117, 110, 116, 95, 118, 48], .struct [⟨[110, 97, 109, 101], [110, 97, 109, 101]⟩, ⟨[99, 114, 101, 97, 116, 105, 111, 110, 95, 100, 97, 116, 101], [98, 108, 111, 99, 107, 95, 116, 105, 109, 101, 115, 116, 97, 109, 112, 95, 116, 121, 112, 101]⟩, ⟨[97, 98, 105], [98, 121, 116, 101, 115]⟩]),
    ([97, 99, 116, 105, 111, 110], .struct [⟨[97, 99, 99, 111, 117, 110, 116], [110, 97, 109, 101]⟩, ⟨[110, 97, 109, 101], [110, 97, 109, 101]⟩, ⟨[97, 117, 116, 104, 111, 114, 105, 122, 97, 116, 105, 111, 110], [112, 101, 114, 109, 105, 115, 115, 105, 111, 110, 95, 108, 101, 118, 101, 108, 91, 93]⟩, ⟨[100, 97, 116, 97], [98, 121, 116, 101, 115]⟩]),
    ([97, 99, 116, 105, 111, 110, 91, 93], .array [97, 99, 116, 105, 111, 110]),
    ([97, 99, 116, 105, 111, 110, 95, 114, 101, 99, 101, 105, 112, 116], .variant [⟨[97, 99, 116, 105, 111, 110, 95, 114, 101, 99, 101, 105, 112, 116, 95, 118, 48], [97, 99, 116, 105, 111, 110, 95, 114, 101, 99, 101, 105, 112, 116, 95, 118, 48]⟩]),
    ([97, 99, 116, 105, 111, 110, 95, 114, 101, 99, 101, 105, 112, 116, 63], .optional [97, 99, 116, 105, 111, 110, 95, 114, 101, 99, 101, 105, 112, 116]),
    ([97, 99, 116, 105, 111, 110, 95, 114, 101, 99, 101, 105, 112, 116, 95, 118, 48], .struct [⟨[114, 101, 99, 101, 105, 118, 101, 114], [110, 97, 109, 101]⟩, ⟨[97, 99, 116, 95, 100, 105, 103, 101, 115, 116], [99, 104, 101, 99, 107, 115, 117, 109, 50, 53, 54]⟩, ⟨[103, 108, 111, 98, 97, 108, 95, 115, 101, 113, 117, 101, 110, 99, 101], [117, 105, 110, 116, 54, 52]⟩, ⟨[114, 101, 99, 118, 95, 115, 101, 113, 117, 101, 110, 99, 101], [117, 105, 110, 116, 54, 52]⟩, ⟨[97, 117, 116, 104, 95, 115, 101, 113, 117, 101, 110, 99, 101], [97, 99, 99, 111, 117, 110, 116, 95, 97, 117, 116, 104, 95, 115, 101, 113, 117, 101, 110, 99, 101, 91, 93]⟩, ⟨[99, 111, 100, 101, 95, 115, 101, 113, 117, 101, 110, 99, 101], [118, 97, 114, 117, 105, 110, 116, 51, 50]⟩, ⟨[97, 98, 105, 95, 115, 101, 113, 117, 101, 110, 99, 101], [118, 97, 114, 117, 105, 110, 116, 51, 50]⟩]),
    ([97, 99, 116, 105, 111, 110, 95, 116, 114, 97, 99, 101], .variant [⟨[97, 99, 116, 105, 111, 110, 95, 116, 114, 97, 99, 101, 95, 118, 48], [97, 99, 116, 105, 111, 110, 95, 116, 114, 97, 99, 101, 95, 118, 48]⟩, ⟨[97, 99, 116, 105, 111, 110, 95, 116, 114, 97, 99, 101, 95, 118, 49], [97, 99, 116, 105, 111, 110, 95, 116, 114, 97, 99, 101, 95, 118, 49]⟩]),
    ([97, 99, 116, 105, 111, 110, 95, 116, 114, 97, 99, 101, 91, 93], .array [97, 99, 116, 105, 111, 110, 95, 116, 114, 97, 99, 101]),
    ([97, 99, 116, 105, 111, 110, 95, 116, 114, 97, 99, 101, 95, 118, 48], .struct [⟨[97, 99, 116, 105, 111, 110, 95, 111, 114, 100, 105, 110, 97, 108], [118, 97, 114, 117, 105, 110, 116, 51, 50]⟩, ⟨[99, 114, 101, 97, 116, 111, 114, 95, 97, 99, 116, 105, 111, 110, 95, 111, 114, 100, 105, 110, 97, 108], [118, 97, 114, 117, 105, 110, 116, 51, 50]⟩, ⟨[114, 101, 99, 101, 105, 112, 116], [97, 99, 116, 105, 111, 110, 95, 114, 101, 99, 101, 105, 112, 116, 63]⟩, ⟨[114, 101, 99, 101, 105, 118, 101, 114], [110, 97, 109, 101]⟩, ⟨[97, 99, 116], [97, 99, 116, 105, 111, 110]⟩, ⟨[99, 111, 110, 116, 101, 120, 116, 95, 102, 114, 101, 101], [98, 111, 111, 108]⟩, ⟨[101, 108, 97, 112, 115, 101, 100], [105, 110, 116, 54, 52]⟩, ⟨[99, 111, 110, 115, 111, 108, 101], [115, 116, 114, 105, 110, 103]⟩, ⟨[97, 99, 99, 111, 117, 110, 116, 95, 114, 97, 109, 95, 100, 101, 108, 116, 97, 115], [97, 99, 99, 111, 117, 110, 116, 95, 100, 101, 108, 116, 97, 91, 93]⟩, ⟨[101, 120, 99, 101, 112, 116], [115, 116, 114, 105, 110, 103, 63]⟩, ⟨[101, 114, 114, 111, 114, 95, 99, 111, 100, 101], [117, 105, 110, 116, 54, 52, 63]⟩]),
    ([97, 99, 116, 105, 111, 110, 95, 116, 114, 97, 99, 101, 95, 118, 49], .struct [⟨[97, 99, 116, 105, 111, 110, 95, 111, 114, 100, 105, 110, 97, 108], [118, 97, 114, 117, 105, 110, 116, 51, 50]⟩, ⟨[99, 114, 101, 97, 116, 111, 114, 95, 97, 99, 116, 105, 111, 110, 95, 111, 114, 100, 105, 110, 97, 108], [118, 97, 114, 117, 105, 110, 116, 51, 50]⟩, ⟨[114, 101, 99, 101, 105, 112, 116], [97, 99, 116, 105, 111, 110, 95, 114, 101, 99, 101, 105, 112, 116, 63]⟩, ⟨[114, 101, 99, 101, 105, 118, 101, 114], [110, 97, 109, 101]⟩, ⟨[97, 99, 116], [97, 99, 116, 105, 111, 110]⟩, ⟨[99, 111, 110, 116, 101, 120, 116, 95, 102, 114, 101, 101], [98, 111, 111, 108]⟩, ⟨[101, 108, 97, 112, 115, 101, 100], [105, 110, 116, 54, 52]⟩, ⟨[99, 111, 110, 115, 111, 108, 101], [115, 116, 114, 105, 110, 103]⟩, ⟨[97, 99, 99, 111, 117, 110, 116, 95, 114, 97, 109, 95, 100, 101, 108, 116, 97, 115], [97, 99, 99, 111, 117, 110, 116, 95, 100, 101, 108, 116, 97, 91, 93]⟩, ⟨[97, 99, 99, 111, 117, 110, 116, 95, 100, 105, 115, 107, 95, 100, 101, 108, 116, 97, 115], [97, 99, 99, 111, 117, 110, 116, 95, 100, 101, 108, 116, 97, 91, 93]⟩, ⟨[101, 120, 99, 101, 112, 116], [115, 116, 114, 105, 110, 103, 63]⟩, ⟨[101, 114, 114, 111, 114, 95, 99, 111, 100, 101], [117, 105, 110, 116, 54, 52, 63]⟩, ⟨[114, 101, 116, 117, 114, 110, 95, 118, 97, 108, 117, 101], [98, 121, 116, 101, 115]⟩]),
    ([97, 99, 116, 105, 118, 97, 116, 101, 100, 95, 112, 114, 111, 116, 111, 99, 111, 108, 95, 102, 101, 97, 116, 117, 114, 101], .variant [⟨[97, 99, 116, 105, 118, 97, 116, 101, 100, 95, 112, 114, 111, 116, 111, 99, 111, 108, 95, 102, 101, 97, 116, 117, 114, 101, 95, 118, 48], [97, 99, 116, 105, 118, 97, 116, 101, 100, 95, 112, 114, 111, 116, 111, 99, 111, 108, 95, 102, 101, 97, 116, 117, 114, 101, 95, 118, 48]⟩]),
    ([97, 99, 116, 105, 118, 97, 116, 101, 100, 95, 112, 114, 111, 116, 111, 99, 111, 108, 95, 102, 101, 97, 116, 117, 114, 101, 91, 93], .array [97, 99, 116, 105, 118, 97, 116, 101, 100, 95, 112, 114, 111, 116, 111, 99, 111, 108, 95, 102, 101, 97, 116, 117, 114, 101]),
    ([97, 99, 116, 105, 118, 97, 116, 101, 100, 95, 112, 114, 111, 116, 111, 99, 111, 108, 95, 102, 101, 97, 116, 117, 114, 101, 95, 118, 48], .struct [⟨[102, 101, 97, 116, 117, 114, 101, 95, 100, 105, 103, 101, 115, 116], [99, 104, 101, 99, 107, 115, 117, 109, 50, 53, 54]⟩, ⟨[97, 99, 116, 105, 118, 97, 116, 105, 111, 110, 95, 98, 108, 111, 99, 107, 95, 110, 117, 109], [117, 105, 110, 116, 51, 50]⟩]),
    ([97, 115, 115, 101, 116], .builtin .asset),
    ([97, 117, 116, 104, 111, 114, 105, 116, 121], .struct [⟨[116, 104, 114, 101, 115, 104, 111, 108, 100], [117, 105, 110, 116, 51, 50]⟩, ⟨[107, 101, 121, 115], [107, 101, 121, 95, 119, 101, 105, 103, 104, 116, 91, 93]⟩, ⟨[97, 99, 99, 111, 117, 110, 116, 115], [112, 101, 114, 109, 105, 115, 115, 105, 111, 110, 95, 108, 101, 118, 101, 108, 95, 119, 101, 105, 103, 104, 116, 91, 93]⟩, ⟨[119, 97, 105, 116, 115], [119, 97, 105, 116, 95, 119, 101, 105, 103, 104, 116, 91, 93]⟩]),
    ([98, 108, 111, 99, 107, 95, 104, 101, 97, 100, 101, 114], .struct [⟨[116, 105, 109, 101, 115, 116, 97, 109, 112], [98, 108, 111, 99, 107, 95, 116, 105, 109, 101, 115, 116, 97, 109, 112, 95, 116, 121, 112, 101]⟩, ⟨[112, 114, 111, 100, 117, 99, 101, 114], [110, 97, 109, 101]⟩, ⟨[99, 111, 110, 102, 105, 114, 109, 101, 100], [117, 105, 110, 116, 49, 54]⟩, ⟨[112, 114, 101, 118, 105, 111, 117, 115], [99, 104, 101, 99, 107, 115, 117, 109, 50, 53, 54]⟩, ⟨[116, 114, 97, 110, 115, 97, 99, 116, 105, 111, 110, 95, 109, 114, 111, 111, 116], [99, 104, 101, 99, 107, 115, 117, 109, 50, 53, 54]⟩, ⟨[97, 99, 116, 105, 111, 110, 95, 109, 114, 111, 111, 116], [99, 104, 101, 99, 107, 115, 117, 109, 50, 53, 54]⟩, ⟨[115, 99, 104, 101, 100, 117, 108, 101, 95, 118, 101, 114, 115, 105, 111, 110], [117, 105, 110, 116, 51, 50]⟩, ⟨[110, 101, 119, 95, 112, 114, 111, 100, 117, 99, 101, 114, 115], [112, 114, 111, 100, 117, 99, 101, 114, 95, 115, 99, 104, 101, 100, 117, 108, 101, 63]⟩, ⟨[104, 101, 97, 100, 101, 114, 95, 101, 120, 116, 101, 110, 115, 105, 111, 110, 115], [101, 120, 116, 101, 110, 115, 105, 111, 110, 91, 93]⟩]),
    ([98, 108, 111, 99, 107, 95, 112, 111, 115, 105, 116, 105, 111, 110], .struct [⟨[98, 108, 111, 99, 107, 95, 110, 117, 109], [117, 105, 110, 116, 51, 50]⟩, ⟨[98, 108, 111, 99, 107, 95, 105, 100], [99, 104, 101, 99, 107, 115, 117, 109, 50, 53, 54]⟩]),
    ([98, 108, 111, 99, 107, 95, 112, 111, 115, 105, 116, 105, 111, 110, 63], .optional [98, 108, 111, 99, 107, 95, 112, 111, 115, 105, 116, 105, 111, 110]),
    ([98, 108, 111, 99, 107, 95, 112, 111, 115, 105, 116, 105, 111, 110, 91, 93], .array [98, 108, 111, 99, 107, 95, 112, 111, 115, 105, 116, 105, 111, 110]),
    ([98, 108, 111, 99, 107, 95, 115, 105, 103, 110, 105, 110, 103, 95, 97, 117, 116, 104, 111, 114, 105, 116, 121], .variant [⟨[98, 108, 111, 99, 107, 95, 115, 105, 103, 110, 105, 110, 103, 95, 97, 117, 116, 104, 111, 114, 105, 116, 121, 95, 118, 48], [98, 108, 111, 99, 107, 95, 115, 105, 103, 110, 105, 110, 103, 95, 97, 117, 116, 104, 111, 114, 105, 116, 121, 95, 118, 48]⟩]),
    ([98, 108, 111, 99, 107, 95, 115, 105, 103, 110, 105, 110, 103, 95, 97, 117, 116, 104, 111, 114, 105, 116, 121, 95, 118, 48], .struct [⟨[116, 104, 114, 101, 115, 104, 111, 108, 100], [117, 105, 110, 116, 51, 50]⟩, ⟨[107, 101, 121, 115], [107, 101, 121, 95, 119, 101, 105, 103, 104, 116, 91, 93]⟩]),
    ([98, 108, 111, 99, 107, 95, 116, 105, 109, 101, 115, 116, 97, 109, 112, 95, 116, 121, 112, 101], .builtin .block_timestamp),
    ([98, 111, 111, 108], .builtin .bool),
    ([98, 121, 116, 101, 115], .builtin .bytes),
    ([98, 121, 116, 101, 115, 63], .optional [98, 121, 116, 101, 115]),
    ([98, 121, 116, 101, 115, 91, 93], .array [98, 121, 116, 101, 115]),
    ([99, 104, 97, 105, 110, 95, 99, 111, 110, 102, 105, 103], .variant [⟨[99, 104, 97, 105, 110, 95, 99, 111, 110, 102, 105, 103, 95, 118, 48], [99, 104, 97, 105, 110, 95, 99, 111, 110, 102, 105, 103, 95, 118, 48]⟩]),
    ([99, 104, 97, 105, 110, 95, 99, 111, 110, 102, 105, 103, 95, 118, 48], .struct [⟨[109, 97, 120, 95, 98, 108, 111, 99, 107, 95, 110, 101, 116, 95, 117, 115, 97, 103, 101], [117, 105, 110, 116, 54, 52]⟩, ⟨[116, 97, 114, 103, 101, 116, 95, 98, 108, 111, 99, 107, 95, 110, 101, 116, 95, 117, 115, 97, 103, 101, 95, 112, 99, 116], [117, 105, 110, 116, 51, 50]⟩, ⟨[109, 97, 120, 95, 116, 114, 97, 110, 115, 97, 99, 116, 105, 111, 110, 95, 110, 101, 116, 95, 117, 115, 97, 103, 101], [117, 105, 110, 116, 51, 50]⟩, ⟨[98, 97, 115, 101, 95, 112, 101, 114, 95, 116, 114, 97, 110, 115, 97, 99, 116, 105, 111, 110, 95, 110, 101, 116, 95, 117, 115, 97, 103, 101], [117, 105, 110, 116, 51, 50]⟩, ⟨[110, 101, 116, 95, 117, 115, 97, 103, 101, 95, 108, 101, 101, 119, 97, 121], [117, 105, 110, 116, 51, 50]⟩, ⟨[99, 111, 110, 116, 101, 120, 116, 95, 102, 114, 101, 101, 95, 100, 105, 115, 99, 111, 117, 110, 116, 95, 110, 101, 116, 95, 117, 115, 97, 103, 101, 95, 110, 117, 109], [117, 105, 110, 116, 51, 50]⟩, ⟨[99, 111, 110, 116, 101, 120, 116, 95, 102, 114, 101, 101, 95, 100, 105, 115, 99, 111, 117, 110, 116, 95, 110, 101, 116, 95, 117, 115, 97, 103, 101, 95, 100, 101, 110], [117, 105, 110, 116, 51, 50]⟩, ⟨[109, 97, 120, 95, 98, 108, 111, 99, 107, 95, 99, 112, 117, 95, 117, 115, 97, 103, 101], [117, 105, 110, 116, 51, 50]⟩, ⟨[116, 97, 114, 103, 101, 116, 95, 98, 108, 111, 99, 107, 95, 99, 112, 117, 95, 117, 115, 97, 103, 101, 95, 112, 99, 116], [117, 105, 110, 116, 51, 50]⟩, ⟨[109, 97, 120, 95, 116, 114, 97, 110, 115, 97, 99, 116, 105, 111, 110, 95, 99, 112, 117, 95, 117, 115, 97, 103, 101], [117, 105, 110, 116, 51, 50]⟩, ⟨[109, 105, 110, 95, 116, 114, 97, 110, 115, 97, 99, 116, 105, 111, 110, 95, 99, 112, 117, 95, 117, 115, 97, 103, 101], [117, 105, 110, 116, 51, 50]⟩, ⟨[109, 97, 120, 95, 116, 114, 97, 110, 115, 97, 99, 116, 105, 111, 110, 95, 108, 105, 102, 101, 116, 105, 109, 101], [117, 105, 110, 116, 51, 50]⟩, ⟨[100, 101, 102, 101, 114, 114, 101, 100, 95, 116, 114, 120, 95, 101, 120, 112, 105, 114, 97, 116, 105, 111, 110, 95, 119, 105, 110, 100, 111, 119], [117, 105, 110, 116, 51, 50]⟩, ⟨[109, 97, 120, 95, 116, 114, 97, 110, 115, 97, 99, 116, 105, 111, 110, 95, 100, 101, 108, 97, 121], [117, 105, 110, 116, 51, 50]⟩, ⟨[109, 97, 120, 95, 105, 110, 108, 105, 110, 101, 95, 97, 99, 116, 105, 111, 110, 95, 115, 105, 122, 101], [117, 105, 110, 116, 51, 50]⟩, ⟨[109, 97, 120, 95, 105, 110, 108, 105, 110, 101, 95, 97, 99, 116, 105, 111, 110, 95, 100, 101, 112, 116, 104], [117, 105, 110, 116, 49, 54]⟩, ⟨[109, 97, 120, 95, 97, 117, 116, 104, 111, 114, 105, 116, 121, 95, 100, 101, 112, 116, 104], [117, 105, 110, 116, 49, 54]⟩]),
    ([99, 104, 101, 99, 107, 115, 117, 109, 49, 54, 48], .builtin .checksum160),
    ([99, 104, 101, 99, 107, 115, 117, 109, 50, 53, 54], .builtin .checksum256),
    ([99, 104, 101, 99, 107, 115, 117, 109, 53, 49, 50], .builtin .checksum512),
    ([99, 111, 100, 101], .variant [⟨[99, 111, 100, 101, 95, 118, 48], [99, 111, 100, 101, 95, 118, 48]⟩]),
    ([99, 111, 100, 101, 95, 105, 100], .struct [⟨[118, 109, 95, 116, 121, 112, 101], [117, 105, 110, 116, 56]⟩, ⟨[118, 109, 95, 118, 101, 114, 115, 105, 111, 110], [117, 105, 110, 116, 56]⟩, ⟨[99, 111, 100, 101, 95, 104, 97, 115, 104], [99, 104, 101, 99, 107, 115, 117, 109, 50, 53, 54]⟩]),
    ([99, 111, 100, 101, 95, 105, 100, 63], .optional [99, 111, 100, 101, 95, 105, 100]),
    ([99, 111, 100, 101, 95, 118, 48], .struct [⟨[118, 109, 95, 116, 121, 112, 101], [117, 105, 110, 116, 56]⟩, ⟨[118, 109, 95, 118, 101, 114, 115, 105, 111, 110], [117, 105, 110, 116, 56]⟩, ⟨[99, 111, 100, 101, 95, 104, 97, 115, 104], [99, 104, 101, 99, 107, 115, 117, 109, 50, 53, 54]⟩, ⟨[99, 111, 100, 101], [98, 121, 116, 101, 115]⟩]),
    ([99, 111, 110, 116, 114, 97, 99, 116, 95, 105, 110, 100, 101, 120, 49, 50, 56], .variant [⟨[99, 111, 110, 116, 114, 97, 99, 116, 95, 105, 110, 100, 101, 120, 49, 50, 56, 95, 118, 48], [99, 111, 110, 116, 114, 97, 99, 116, 95, 105, 110, 100, 101, 120, 49, 50, 56, 95, 118, 48]⟩]),
    ([99, 111, 110, 116, 114, 97, 99, 116, 95, 105, 110, 100, 101, 120, 49, 50, 56, 95, 118, 48], .struct [⟨[99, 111, 100, 101], [110, 97, 109, 101]⟩, ⟨[115, 99, 111, 112, 101], [110, 97, 109, 101]⟩, ⟨[116, 97, 98, 108, 101], [110, 97, 109, 101]⟩, ⟨[112, 114, 105, 109, 97, 114, 121, 95, 107, 101, 121], [117, 105, 110, 116, 54, 52]⟩, ⟨[112, 97, 121, 101, 114], [110, 97, 109, 101]⟩, ⟨[115, 101, 99, 111, 110, 100, 97, 114, 121, 95, 107, 101, 121], [117, 105, 110, 116, 49, 50, 56]⟩]),
    ([99, 111, 110, 116, 114, 97, 99, 116, 95, 105, 110, 100, 101, 120, 50, 53, 54], .variant [⟨[99, 111, 110, 116, 114, 97, 99, 116, 95, 105, 110, 100, 101, 120, 50, 53, 54, 95, 118, 48], [99, 111, 110, 116, 114, 97, 99, 116, 95, 105, 110, 100, 101, 120, 50, 53, 54, 95, 118, 48]⟩]),
    ([99, 111, 110, 116, 114, 97, 99, 116, 95, 105, 110, 100, 101, 120, 50, 53, 54, 95, 118, 48], .struct [⟨[99, 111, 100, 101], [110, 97, 109, 101]⟩, ⟨[115, 99, 111, 112, 101], [110, 97, 109, 101]⟩, ⟨[116, 97, 98, 108, 101], [110, 97, 109, 101]⟩, ⟨[112, 114, 105, 109, 97, 114, 121, 95, 107, 101, 121], [117, 105, 110, 116, 54, 52]⟩, ⟨[112, 97, 121, 101, 114], [110, 97, 109, 101]⟩, ⟨[115, 101, 99, 111, 110, 100, 97, 114, 121, 95, 107, 101, 121], [99, 104, 101, 99, 107, 115, 117, 109, 50, 53, 54]⟩]),
    ([99, 111, 110, 116, 114, 97, 99, 116, 95, 105, 110, 100, 101, 120, 54, 52], .variant [⟨[99, 111, 110, 116, 114, 97, 99, 116, 95, 105, 110, 100, 101, 120, 54, 52, 95, 118, 48], [99, 111, 110, 116, 114, 97, 99, 116, 95, 105, 110, 100, 101, 120, 54, 52, 95, 118, 48]⟩]),
    ([99, 111, 110, 116, 114, 97, 99, 116, 95, 105, 110, 100, 101, 120, 54, 52, 95, 118, 48], .struct [⟨[99, 111, 100, 101], [110, 97, 109, 101]⟩, ⟨[115, 99, 111, 112, 101], [110, 97, 109, 101]⟩, ⟨[116, 97, 98, 108, 101], [110, 97, 109, 101]⟩, ⟨[112, 114, 105, 109, 97, 114, 121, 95, 107, 101, 121], [117, 105, 110, 116, 54, 52]⟩, ⟨[112, 97, 121, 101, 114], [110, 97, 109, 101]⟩, ⟨[115, 101, 99, 111, 110, 100, 97, 114, 121, 95, 107, 101, 121], [117, 105, 110, 116, 54, 52]⟩]),
    ([99, 111, 110, 116, 114, 97, 99, 116, 95, 105, 110, 100, 101, 120, 95, 100, 111, 117, 98, 108, 101], .variant [⟨[99, 111, 110, 116, 114, 97, 99, 116, 95, 105, 110, 100, 101, 120, 95, 100, 111, 117, 98, 108, 101, 95, 118, 48], [99, 111, 110, 116, 114, 97, 99, 116, 95, 105, 110, 100, 101, 120, 95, 100, 111, 117, 98, 108, 101, 95, 118, 48]⟩]),
    ([99, 111, 110, 116, 114, 97, 99, 116, 95, 105, 110, 100, 101, 120, 95, 100, 111, 117, 98, 108, 101, 95, 118, 48], .struct [⟨[99, 111, 100, 101], [110, 97, 109, 101]⟩, ⟨[115, 99, 111, 112, 101], [110, 97, 109, 101]⟩, ⟨[116, 97, 98, 108, 101], [110, 97, 109, 101]⟩, ⟨[112, 114, 105, 109, 97, 114, 121, 95, 107, 101, 121], [117, 105, 110, 116, 54, 52]⟩, ⟨[112, 97, 121, 101, 114], [110, 97, 109, 101]⟩, ⟨[115, 101, 99, 111, 110, 100, 97, 114, 121, 95, 107, 101, 121], [102, 108, 111, 97, 116, 54, 52]⟩]),
    ([99, 111, 110, 116, 114, 97, 99, 116, 95, 105, 110, 100, 101, 120, 95, 108, 111, 110, 103, 95, 100, 111, 117, 98, 108, 101], .variant [⟨[99, 111, 110, 116, 114, 97, 99, 116, 95, 105, 110, 100, 101, 120, 95, 108, 111, 110, 103, 95, 100, 111, 117, 98, 108, 101, 95, 118, 48], [99, 111, 110, 116, 114, 97, 99, 116, 95, 105, 110, 100, 101, 120, 95, 108, 111, 110, 103, 95, 100, 111, 117, 98, 108, 101, 95, 118, 48]⟩]),
    ([99, 111, 110, 116, 114, 97, 99, 116, 95, 105, 110, 100, 101, 120, 95, 108, 111, 110, 103, 95, 100, 111, 117, 98, 108, 101, 95, 118, 48], .struct [⟨[99, 111, 100, 101], [110, 97, 109, 101]⟩, ⟨[115, 99, 111, 112, 101], [110, 97, 109, 101]⟩, ⟨[116, 97, 98, 108, 101], [110, 97, 109, 101]⟩, ⟨[112, 114, 105, 109, 97, 114, 121, 95, 107, 101, 121], [117, 105, 110, 116, 54, 52]⟩, ⟨[112, 97, 121, 101, 114], [110, 97, 109, 101]⟩, ⟨[115, 101, 99, 111, 110, 100, 97, 114, 121, 95, 107, 101, 121], [102, 108, 111, 97, 116, 49, 50, 56]⟩]),
    ([99, 111, 110, 116, 114, 97, 99, 116, 95, 114, 111, 119], .variant [⟨[99, 111, 110, 116, 114, 97, 99, 116, 95, 114, 111, 119, 95, 118, 48], [99, 111, 110, 116, 114, 97, 99, 116, 95, 114, 111, 119, 95, 118, 48]⟩]),
    ([99, 111, 110, 116, 114, 97, 99, 116, 95, 114, 111, 119, 95, 118, 48], .struct [⟨[99, 111, 100, 101], [110, 97, 109, 101]⟩, ⟨[115, 99, 111, 112, 101], [110, 97, 109, 101]⟩, ⟨[116, 97, 98, 108, 101], [110, 97, 109, 101]⟩, ⟨[112, 114, 105, 109, 97, 114, 121, 95, 107, 101, 121], [117, 105, 110, 116, 54, 52]⟩, ⟨[112, 97, 121, 101, 114], [110, 97, 109, 101]⟩, ⟨[118, 97, 108, 117, 101], [98, 121, 116, 101, 115]⟩]),
    ([99, 111, 110, 116, 114, 97, 99, 116, 95, 116, 97, 98, 108, 101], .variant [⟨[99, 111, 110, 116, 114, 97, 99, 116, 95, 116, 97, 98, 108, 101, 95, 118, 48], [99, 111, 110, 116, 114, 97, 99, 116, 95, 116, 97, 98, 108, 101, 95, 118, 48]⟩]),
    ([99, 111, 110, 116, 114, 97, 99, 116, 95, 116, 97, 98, 108, 101, 95, 118, 48], .struct [⟨[99, 111, 100, 101], [110, 97, 109, 101]⟩, ⟨[115, 99, 111, 112, 101], [110, 97, 109, 101]⟩, ⟨[116, 97, 98, 108, 101], [110, 97, 109, 101]⟩, ⟨[112, 97, 121, 101, 114], [110, 97, 109, 101]⟩]),
    ([101, 108, 97, 115, 116, 105, 99, 95, 108, 105, 109, 105, 116, 95, 112, 97, 114, 97, 109, 101, 116, 101, 114, 115], .variant [⟨[101, 108, 97, 115, 116, 105, 99, 95, 108, 105, 109, 105, 116, 95, 112, 97, 114, 97, 109, 101, 116, 101, 114, 115, 95, 118, 48], [101, 108, 97, 115, 116, 105, 99, 95, 108, 105, 109, 105, 116, 95, 112, 97, 114, 97, 109, 101, 116, 101, 114, 115, 95, 118, 48]⟩]),
    ([101, 108, 97, 115, 116, 105, 99, 95, 108, 105, 109, 105, 116, 95, 112, 97, 114, 97, 109, 101, 116, 101, 114, 115, 95, 118, 48], .struct [⟨[116, 97, 114, 103, 101, 116], [117, 105, 110, 116, 54, 52]⟩, ⟨[109, 97, 120], [117, 105, 110, 116, 54, 52]⟩, ⟨[112, 101, 114, 105, 111, 100, 115], [117, 105, 110, 116, 51, 50]⟩, ⟨[109, 97, 120, 95, 109, 117, 108, 116, 105, 112, 108, 105, 101, 114], [117, 105, 110, 116, 51, 50]⟩, ⟨[99, 111, 110, 116, 114, 97, 99, 116, 95, 114, 97, 116, 101], [114, 101, 115, 111, 117, 114, 99, 101, 95, 108, 105, 109, 105, 116, 115, 95, 114, 97, 116, 105, 111]⟩, ⟨[101, 120, 112, 97, 110, 100, 95, 114, 97, 116, 101], [114, 101, 115, 111, 117, 114, 99, 101, 95, 108, 105, 109, 105, 116, 115, 95, 114, 97, 116, 105, 111]⟩]),
    ([101, 120, 116, 101, 110, 100, 101, 100, 95, 97, 115, 115, 101, 116], .struct [⟨[113, 117, 97, 110, 116, 105, 116, 121], [97, 115, 115, 101, 116]⟩, ⟨[99, 111, 110, 116, 114, 97, 99, 116], [110, 97, 109, 101]⟩]),
    ([101, 120, 116, 101, 110, 115, 105, 111, 110], .struct [⟨[116, 121, 112, 101], [117, 105, 110, 116, 49, 54]⟩, ⟨[100, 97, 116, 97], [98, 121, 116, 101, 115]⟩]),
    ([101, 120, 116, 101, 110, 115, 105, 111, 110, 91, 93], .array [101, 120, 116, 101, 110, 115, 105, 111, 110]),
    ([102, 108, 111, 97, 116, 49, 50, 56], .builtin .float128),
    ([102, 108, 111, 97, 116, 51, 50], .builtin .float32),
    ([102, 108, 111, 97, 116, 54, 52], .builtin .float64),
    ([103, 101, 110, 101, 114, 97, 116, 101, 100, 95, 116, 114, 97, 110, 115, 97, 99, 116, 105, 111, 110], .variant [⟨[103, 101, 110, 101, 114, 97, 116, 101, 100, 95, 116, 114, 97, 110, 115, 97, 99, 116, 105, 111, 110, 95, 118, 48], [103, 101, 110, 101, 114, 97, 116, 101, 100, 95, 116, 114, 97, 110, 115, 97, 99, 116, 105, 111, 110, 95, 118, 48]⟩]),
    ([103, 101, 110, 101, 114, 97, 116, 101, 100, 95, 116, 114, 97, 110, 115, 97, 99, 116, 105, 111, 110, 95, 118, 48], .struct [⟨[115, 101, 110, 100, 101, 114], [110, 97, 109, 101]⟩, ⟨[115, 101, 110, 100, 101, 114, 95, 105, 100], [117, 105, 110, 116, 49, 50, 56]⟩, ⟨[112, 97, 121, 101, 114], [110, 97, 109, 101]⟩, ⟨[116, 114, 120, 95, 105, 100], [99, 104, 101, 99, 107, 115, 117, 109, 50, 53, 54]⟩, ⟨[112, 97, 99, 107, 101, 100, 95, 116, 114, 120], [98, 121, 116, 101, 115]⟩]),
    ([103, 101, 116, 95, 98, 108, 111, 99, 107, 115, 95, 97, 99, 107, 95, 114, 101, 113, 117, 101, 115, 116, 95, 118, 48], .struct [⟨[110, 117, 109, 95, 109, 101, 115, 115, 97, 103, 101, 115], [117, 105, 110, 116, 51, 50]⟩]),
    ([103, 101, 116, 95, 98, 108, 111, 99, 107, 115, 95, 114, 101, 113, 117, 101, 115, 116, 95, 118, 48], .struct [⟨[115, 116, 97, 114, 116, 95, 98, 108, 111, 99, 107, 95, 110, 117, 109], [117, 105, 110, 116, 51, 50]⟩, ⟨[101, 110, 100, 95, 98, 108, 111, 99, 107, 95, 110, 117, 109], [117, 105, 110, 116, 51, 50]⟩, ⟨[109, 97, 120, 95, 109, 101, 115, 115, 97, 103, 101, 115, 95, 105, 110, 95, 102, 108, 105, 103, 104, 116], [117, 105, 110, 116, 51, 50]⟩, ⟨[104, 97, 118, 101, 95, 112, 111, 115, 105, 116, 105, 111, 110, 115], [98, 108, 111, 99, 107, 95, 112, 111, 115, 105, 116, 105, 111, 110, 91, 93]⟩, ⟨[105, 114, 114, 101, 118, 101, 114, 115, 105, 98, 108, 101, 95, 111, 110, 108, 121], [98, 111, 111, 108]⟩, ⟨[102, 101, 116, 99, 104, 95, 98, 108, 111, 99, 107], [98, 111, 111, 108]⟩, ⟨[102, 101, 116, 99, 104, 95, 116, 114, 97, 99, 101, 115], [98, 111, 111, 108]⟩, ⟨[102, 101, 116, 99, 104, 95, 100, 101, 108, 116, 97, 115], [98, 111, 111, 108]⟩]),
    ([103, 101, 116, 95, 98, 108, 111, 99, 107, 115, 95, 114, 101, 115, 117, 108, 116, 95, 98, 97, 115, 101], .struct [⟨[104, 101, 97, 100], [98, 108, 111, 99, 107, 95, 112, 111, 115, 105, 116, 105, 111, 110]⟩, ⟨[108, 97, 115, 116, 95, 105, 114, 114, 101, 118, 101, 114, 115, 105, 98, 108, 101], [98, 108, 111, 99, 107, 95, 112, 111, 115, 105, 116, 105, 111, 110]⟩, ⟨[116, 104, 105, 115, 95, 98, 108, 111, 99, 107], [98, 108, 111, 99, 107, 95, 112, 111, 115, 105, 116, 105, 111, 110, 63]⟩, ⟨[112, 114, 101, 118, 95, 98, 108, 111, 99, 107], [98, 108, 111, 99, 107, 95, 112, 111, 115, 105, 116, 105, 111, 110, 63]⟩]),
    ([103, 101, 116, 95, 98, 108, 111, 99, 107, 115, 95, 114, 101, 115, 117, 108, 116, 95, 118, 48], .struct [⟨[104, 101, 97, 100], [98, 108, 111, 99, 107, 95, 112, 111, 115, 105, 116, 105, 111, 110]⟩, ⟨[108, 97, 115, 116, 95, 105, 114, 114, 101, 118, 101, 114, 115, 105, 98, 108, 101], [98, 108, 111, 99, 107, 95, 112, 111, 115, 105, 116, 105, 111, 110]⟩, ⟨[116, 104, 105, 115, 95, 98, 108, 111, 99, 107], [98, 108, 111, 99, 107, 95, 112, 111, 115, 105, 116, 105, 111, 110, 63]⟩, ⟨[112, 114, 101, 118, 95, 98, 108, 111, 99, 107], [98, 108, 111, 99, 107, 95, 112, 111, 115, 105, 116, 105, 111, 110, 63]⟩, ⟨[98, 108, 111, 99, 107], [98, 121, 116, 101, 115, 63]⟩, ⟨[116, 114, 97, 99, 101, 115], [98, 121, 116, 101, 115, 63]⟩, ⟨[100, 101, 108, 116, 97, 115], [98, 121, 116, 101, 115, 63]⟩]),
    ([103, 101, 116, 95, 98, 108, 111, 99, 107, 115, 95, 114, 101, 115, 117, 108, 116, 95, 118, 49], .struct [⟨[104, 101, 97, 100], [98, 108, 111, 99, 107, 95, 112, 111, 115, 105, 116, 105, 111, 110]⟩, ⟨[108, 97, 115, 116, 95, 105, 114, 114, 101, 118, 101, 114, 115, 105, 98, 108, 101], [98, 108, 111, 99, 107, 95, 112, 111, 115, 105, 116, 105, 111, 110]⟩, ⟨[116, 104, 105, 115, 95, 98, 108, 111, 99, 107], [98, 108, 111, 99, 107, 95, 112, 111, 115, 105, 116, 105, 111, 110, 63]⟩, ⟨[112, 114, 101, 118, 95, 98, 108, 111, 99, 107], [98, 108, 111, 99, 107, 95, 112, 111, 115, 105, 116, 105, 111, 110, 63]⟩, ⟨[98, 108, 111, 99, 107], [115, 105, 103, 110, 101, 100, 95, 98, 108, 111, 99, 107, 95, 118, 97, 114, 105, 97, 110, 116, 63]⟩, ⟨[116, 114, 97, 99, 101, 115], [98, 121, 116, 101, 115]⟩, ⟨[100, 101, 108, 116, 97, 115], [98, 121, 116, 101, 115]⟩]),
    ([103, 101, 116, 95, 115, 116, 97, 116, 117, 115, 95, 114, 101, 113, 117, 101, 115, 116, 95, 118, 48], .struct []),
    ([103, 101, 116, 95, 115, 116, 97, 116, 117, 115, 95, 114, 101, 115, 117, 108, 116, 95, 118, 48], .struct [⟨[104, 101, 97, 100], [98, 108, 111, 99, 107, 95, 112, 111, 115, 105, 116, 105, 111, 110]⟩, ⟨[108, 97, 115, 116, 95, 105, 114, 114, 101, 118, 101, 114, 115, 105, 98, 108, 101], [98, 108, 111, 99, 107, 95, 112, 111, 115, 105, 116, 105, 111, 110]⟩, ⟨[116, 114, 97, 99, 101, 95, 98, 101, 103, 105, 110, 95, 98, 108, 111, 99, 107], [117, 105, 110, 116, 51, 50]⟩, ⟨[116, 114, 97, 99, 101, 95, 101, 110, 100, 95, 98, 108, 111, 99, 107], [117, 105, 110, 116, 51, 50]⟩, ⟨[99, 104, 97, 105, 110, 95, 115, 116, 97, 116, 101, 95, 98, 101, 103, 105, 110, 95, 98, 108, 111, 99, 107], [117, 105, 110, 116, 51, 50]⟩, ⟨[99, 104, 97, 105, 110, 95, 115, 116, 97, 116, 101, 95, 101, 110, 100, 95, 98, 108, 111, 99, 107], [117, 105, 110, 116, 51, 50]⟩, ⟨[99, 104, 97, 105, 110, 95, 105, 100], [99, 104, 101, 99, 107, 115, 117, 109, 50, 53, 54]⟩]),
    ([103, 108, 111, 98, 97, 108, 95, 112, 114, 111, 112, 101, 114, 116, 121], .variant [⟨[103, 108, 111, 98, 97, 108, 95, 112, 114, 111, 112, 101, 114, 116, 121, 95, 118, 48], [103, 108, 111, 98, 97, 108, 95, 112, 114, 111, 112, 101, 114, 116, 121, 95, 118, 48]⟩, ⟨[103, 108, 111, 98, 97, 108, 95, 112, 114, 111, 112, 101, 114, 116, 121, 95, 118, 49], [103, 108, 111, 98, 97, 108, 95, 112, 114, 111, 112, 101, 114, 116, 121, 95, 118, 49]⟩]),
    ([103, 108, 111, 98, 97, 108, 95, 112, 114, 111, 112, 101, 114, 116, 121, 95, 118, 48], .struct [⟨[112, 114, 111, 112, 111, 115, 101, 100, 95, 115, 99, 104, 101, 100, 117, 108, 101, 95, 98, 108, 111, 99, 107, 95, 110, 117, 109], [117, 105, 110, 116, 51, 50, 63]⟩, ⟨[112, 114, 111, 112, 111, 115, 101, 100, 95, 115, 99, 104, 101, 100, 117, 108, 101], [112, 114, 111, 100, 117, 99, 101, 114, 95, 115, 99, 104, 101, 100, 117, 108, 101]⟩, ⟨[99, 111, 110, 102, 105, 103, 117, 114, 97, 116, 105, 111, 110], [99, 104, 97, 105, 110, 95, 99, 111, 110, 102, 105, 103]⟩]),
    ([103, 108, 111, 98, 97, 108, 95, 112, 114, 111, 112, 101, 114, 116, 121, 95, 118, 49], .struct [⟨[112, 114, 111, 112, 111, 115, 101, 100, 95, 115, 99, 104, 101, 100, 117, 108, 101, 95, 98, 108, 111, 99, 107, 95, 110, 117, 109], [117, 105, 110, 116, 51, 50, 63]⟩, ⟨[112, 114, 111, 112, 111, 115, 101, 100, 95, 115, 99, 104, 101, 100, 117, 108, 101], [112, 114, 111, 100, 117, 99, 101, 114, 95, 97, 117, 116, 104, 111, 114, 105, 116, 121, 95, 115, 99, 104, 101, 100, 117, 108, 101]⟩, ⟨[99, 111, 110, 102, 105, 103, 117, 114, 97, 116, 105, 111, 110], [99, 104, 97, 105, 110, 95, 99, 111, 110, 102, 105, 103]⟩, ⟨[99, 104, 97, 105, 110, 95, 105, 100], [99, 104, 101, 99, 107, 115, 117, 109, 50, 53, 54]⟩]),
    ([105, 110, 116, 49, 50, 56], .builtin .int128),
    ([105, 110, 116, 49, 54], .builtin .int16),
    ([105, 110, 116, 51, 50], .builtin .int32),
    ([105, 110, 116, 54, 52], .builtin .int64),
    ([105, 110, 116, 56], .builtin .int8),
    ([107, 101, 121, 95, 118, 97, 108, 117, 101], .variant [⟨[107, 101, 121, 95, 118, 97, 108, 117, 101, 95, 118, 48], [107, 101, 121, 95, 118, 97, 108, 117, 101, 95, 118, 48]⟩]),
    ([107, 101, 121, 95, 118, 97, 108, 117, 101, 95, 118, 48], .struct [⟨[100, 97, 116, 97, 98, 97, 115, 101], [110, 97, 109, 101]⟩, ⟨[99, 111, 110, 116, 114, 97, 99, 116], [110, 97, 109, 101]⟩, ⟨[107, 101, 121], [98, 121, 116, 101, 115]⟩, ⟨[118, 97, 108, 117, 101], [98, 121, 116, 101, 115]⟩]),
    ([107, 101, 121, 95, 119, 101, 105, 103, 104, 116], .struct [⟨[107, 101, 121], [112, 117, 98, 108, 105, 99, 95, 107, 101, 121]⟩, ⟨[119, 101, 105, 103, 104, 116], [117, 105, 110, 116, 49, 54]⟩]),
    ([107, 101, 121, 95, 119, 101, 105, 103, 104, 116, 91, 93], .array [107, 101, 121, 95, 119, 101, 105, 103, 104, 116]),
    ([110, 97, 109, 101], .builtin .name),
    ([112, 97, 99, 107, 101, 100, 95, 116, 114, 97, 110, 115, 97, 99, 116, 105, 111, 110], .struct [⟨[99, 111, 109, 112, 114, 101, 115, 115, 105, 111, 110], [117, 105, 110, 116, 56]⟩, ⟨[112, 114, 117, 110, 97, 98, 108, 101, 95, 100, 97, 116, 97], [112, 114, 117, 110, 97, 98, 108, 101, 95, 100, 97, 116, 97, 95, 116, 121, 112, 101]⟩, ⟨[112, 97, 99, 107, 101, 100, 95, 116, 114, 120], [98, 121, 116, 101, 115]⟩]),
    ([112, 97, 99, 107, 101, 100, 95, 116, 114, 97, 110, 115, 97, 99, 116, 105, 111, 110, 95, 118, 48], .struct [⟨[115, 105, 103, 110, 97, 116, 117, 114, 101, 115], [115, 105, 103, 110, 97, 116, 117, 114, 101, 91, 93]⟩, ⟨[99, 111, 109, 112, 114, 101, 115, 115, 105, 111, 110], [117, 105, 110, 116, 56]⟩, ⟨[112, 97, 99, 107, 101, 100, 95, 99, 111, 110, 116, 101, 120, 116, 95, 102, 114, 101, 101, 95, 100, 97, 116, 97], [98, 121, 116, 101, 115]⟩, ⟨[112, 97, 99, 107, 101, 100, 95, 116, 114, 120], [98, 121, 116, 101, 115]⟩]),
    ([112, 97, 114, 116, 105, 97, 108, 95, 116, 114, 97, 110, 115, 97, 99, 116, 105, 111, 110], .variant [⟨[112, 97, 114, 116, 105, 97, 108, 95, 116, 114, 97, 110, 115, 97, 99, 116, 105, 111, 110, 95, 118, 48], [112, 97, 114, 116, 105, 97, 108, 95, 116, 114, 97, 110, 115, 97, 99, 116, 105, 111, 110, 95, 118, 48]⟩, ⟨[112, 97, 114, 116, 105, 97, 108, 95, 116, 114, 97, 110, 115, 97, 99, 116, 105, 111, 110, 95, 118, 49], [112, 97, 114, 116, 105, 97, 108, 95, 116, 114, 97, 110, 115, 97, 99, 116, 105, 111, 110, 95, 118, 49]⟩]),
    ([112, 97, 114, 116, 105, 97, 108, 95, 116, 114, 97, 110, 115, 97, 99, 116, 105, 111, 110, 63], .optional [112, 97, 114, 116, 105, 97, 108, 95, 116, 114, 97, 110, 115, 97, 99, 116, 105, 111, 110]),
    ([112, 97, 114, 116, 105, 97, 108, 95, 116, 114, 97, 110, 115, 97, 99, 116, 105, 111, 110, 95, 118, 48], .struct [⟨[101, 120, 112, 105, 114, 97, 116, 105, 111, 110], [116, 105, 109, 101, 95, 112, 111, 105, 110, 116, 95, 115, 101, 99]⟩, ⟨[114, 101, 102, 95, 98, 108, 111, 99, 107, 95, 110, 117, 109], [117, 105, 110, 116, 49, 54]⟩, ⟨[114, 101, 102, 95, 98, 108, 111, 99, 107, 95, 112, 114, 101, 102, 105, 120], [117, 105, 110, 116, 51, 50]⟩, ⟨[109, 97, 120, 95, 110, 101, 116, 95, 117, 115, 97, 103, 101, 95, 119, 111, 114, 100, 115], [118, 97, 114, 117, 105, 110, 116, 51, 50]⟩, ⟨[109, 97, 120, 95, 99, 112, 117, 95, 117, 115, 97, 103, 101, 95, 109, 115], [117, 105, 110, 116, 56]⟩, ⟨[100, 101, 108, 97, 121, 95, 115, 101, 99], [118, 97, 114, 117, 105, 110, 116, 51, 50]⟩, ⟨[116, 114, 97, 110, 115, 97, 99, 116, 105, 111, 110, 95, 101, 120, 116, 101, 110, 115, 105, 111, 110, 115], [101, 120, 116, 101, 110, 115, 105, 111, 110, 91, 93]⟩, ⟨[115, 105, 103, 110, 97, 116, 117, 114, 101, 115], [115, 105, 103, 110, 97, 116, 117, 114, 101, 91, 93]⟩, ⟨[99, 111, 110, 116, 101, 120, 116, 95, 102, 114, 101, 101, 95, 100, 97, 116, 97], [98, 121, 116, 101, 115, 91, 93]⟩]),
    ([112, 97, 114, 116, 105, 97, 108, 95, 116, 114, 97, 110, 115, 97, 99, 116, 105, 111, 110, 95, 118, 49], .struct [⟨[101, 120, 112, 105, 114, 97, 116, 105, 111, 110], [116, 105, 109, 101, 95, 112, 111, 105, 110, 116, 95, 115, 101, 99]⟩, ⟨[114, 101, 102, 95, 98, 108, 111, 99, 107, 95, 110, 117, 109], [117, 105, 110, 116, 49, 54]⟩, ⟨[114, 101, 102, 95, 98, 108, 111, 99, 107, 95, 112, 114, 101, 102, 105, 120], [117, 105, 110, 116, 51, 50]⟩, ⟨[109, 97, 120, 95, 110, 101, 116, 95, 117, 115, 97, 103, 101, 95, 119, 111, 114, 100, 115], [118, 97, 114, 117, 105, 110, 116, 51, 50]⟩, ⟨[109, 97, 120, 95, 99, 112, 117, 95, 117, 115, 97, 103, 101, 95, 109, 115], [117, 105, 110, 116, 56]⟩, ⟨[100, 101, 108, 97, 121, 95, 115, 101, 99], [118, 97, 114, 117, 105, 110, 116, 51, 50]⟩, ⟨[116, 114, 97, 110, 115, 97, 99, 116, 105, 111, 110, 95, 101, 120, 116, 101, 110, 115, 105, 111, 110, 115], [101, 120, 116, 101, 110, 115, 105, 111, 110, 91, 93]⟩, ⟨[112, 114, 117, 110, 97, 98, 108, 101, 95, 100, 97, 116, 97], [112, 114, 117, 110, 97, 98, 108, 101, 95, 100, 97, 116, 97, 95, 116, 121, 112, 101, 63]⟩]),
    ([112, 101, 114, 109, 105, 115, 115, 105, 111, 110], .variant [⟨[112, 101, 114, 109, 105, 115, 115, 105, 111, 110, 95, 118, 48], [112, 101, 114, 109, 105, 115, 115, 105, 111, 110, 95, 118, 48]⟩]),
    ([112, 101, 114, 109, 105, 115, 115, 105, 111, 110, 95, 108, 101, 118, 101, 108], .struct [⟨[97, 99, 116, 111, 114], [110, 97, 109, 101]⟩, ⟨[112, 101, 114, 109, 105, 115, 115, 105, 111, 110], [110, 97, 109, 101]⟩]),
    ([112, 101, 114, 109, 105, 115, 115, 105, 111, 110, 95, 108, 101, 118, 101, 108, 91, 93], .array [112, 101, 114, 109, 105, 115, 115, 105, 111, 110, 95, 108, 101, 118, 101, 108]),
    ([112, 101, 114, 109, 105, 115, 115, 105, 111, 110, 95, 108, 101, 118, 101, 108, 95, 119, 101, 105, 103, 104, 116], .struct [⟨[112, 101, 114, 109, 105, 115, 115, 105, 111, 110], [112, 101, 114, 109, 105, 115, 115, 105, 111, 110, 95, 108, 101, 118, 101, 108]⟩, ⟨[119, 101, 105, 103, 104, 116], [117, 105, 110, 116, 49, 54]⟩]),
    ([112, 101, 114, 109, 105, 115, 115, 105, 111, 110, 95, 108, 101, 118, 101, 108, 95, 119, 101, 105, 103, 104, 116, 91, 93], .array [112, 101, 114, 109, 105, 115, 115, 105, 111, 110, 95, 108, 101, 118, 101, 108, 95, 119, 101, 105, 103, 104, 116]),
    ([112, 101, 114, 109, 105, 115, 115, 105, 111, 110, 95, 108, 105, 110, 107], .variant [⟨[112, 101, 114, 109, 105, 115, 115, 105, 111, 110, 95, 108, 105, 110, 107, 95, 118, 48], [112, 101, 114, 109, 105, 115, 115, 105, 111, 110, 95, 108, 105, 110, 107, 95, 118, 48]⟩]),
    ([112, 101, 114, 109, 105, 115, 115, 105, 111, 110, 95, 108, 105, 110, 107, 95, 118, 48], .struct [⟨[97, 99, 99, 111, 117, 110, 116], [110, 97, 109, 101]⟩, ⟨[99, 111, 100, 101], [110, 97, 109, 101]⟩, ⟨[109, 101, 115, 115, 97, 103, 101, 95, 116, 121, 112, 101], [110, 97, 109, 101]⟩, ⟨[114, 101, 113, 117, 105, 114, 101, 100, 95, 112, 101, 114, 109, 105, 115, 115, 105, 111, 110], [110, 97, 109, 101]⟩]),
    ([112, 101, 114, 109, 105, 115, 115, 105, 111, 110, 95, 118, 48], .struct [⟨[111, 119, 110, 101, 114], [110, 97, 109, 101]⟩, ⟨[110, 97, 109, 101], [110, 97, 109, 101]⟩, ⟨[112, 97, 114, 101, 110, 116], [110, 97, 109, 101]⟩, ⟨[108, 97, 115, 116, 95, 117, 112, 100, 97, 116, 101, 100], [116, 105, 109, 101, 95, 112, 111, 105, 110, 116]⟩, ⟨[97, 117, 116, 104], [97, 117, 116, 104, 111, 114, 105, 116, 121]⟩]),
    ([112, 114, 105, 118, 97, 116, 101, 95, 107, 101, 121], .builtin .private_key),
    ([112, 114, 111, 100, 117, 99, 101, 114, 95, 97, 117, 116, 104, 111, 114, 105, 116, 121], .struct [⟨[112, 114, 111, 100, 117, 99, 101, 114, 95, 110, 97, 109, 101], [110, 97, 109, 101]⟩, ⟨[97, 117, 116, 104, 111, 114, 105, 116, 121], [98, 108, 111, 99, 107, 95, 115, 105, 103, 110, 105, 110, 103, 95, 97, 117, 116, 104, 111, 114, 105, 116, 121]⟩]),
    ([112, 114, 111, 100, 117, 99, 101, 114, 95, 97, 117, 116, 104, 111, 114, 105, 116, 121, 91, 93], .array [112, 114, 111, 100, 117, 99, 101, 114, 95, 97, 117, 116, 104, 111, 114, 105, 116, 121]),
    ([112, 114, 111, 100, 117, 99, 101, 114, 95, 97, 117, 116, 104, 111, 114, 105, 116, 121, 95, 115, 99, 104, 101, 100, 117, 108, 101], .struct [⟨[118, 101, 114, 115, 105, 111, 110], [117, 105, 110, 116, 51, 50]⟩, ⟨[112, 114, 111, 100, 117, 99, 101, 114, 115], [112, 114, 111, 100, 117, 99, 101, 114, 95, 97, 117, 116, 104, 111, 114, 105, 116, 121, 91, 93]⟩]),
    ([112, 114, 111, 100, 117, 99, 101, 114, 95, 107, 101, 121], .struct [⟨[112, 114, 111, 100, 117, 99, 101, 114, 95, 110, 97, 109, 101], [110, 97, 109, 101]⟩, ⟨[98, 108, 111, 99, 107, 95, 115, 105, 103, 110, 105, 110, 103, 95, 107, 101, 121], [112, 117, 98, 108, 105, 99, 95, 107, 101, 121]⟩]),
    ([112, 114, 111, 100, 117, 99, 101, 114, 95, 107, 101, 121, 91, 93], .array [112, 114, 111, 100, 117, 99, 101, 114, 95, 107, 101, 121]),
    ([112, 114, 111, 100, 117, 99, 101, 114, 95, 115, 99, 104, 101, 100, 117, 108, 101], .struct [⟨[118, 101, 114, 115, 105, 111, 110], [117, 105, 110, 116, 51, 50]⟩, ⟨[112, 114, 111, 100, 117, 99, 101, 114, 115], [112, 114, 111, 100, 117, 99, 101, 114, 95, 107, 101, 121, 91, 93]⟩]),
    ([112, 114, 111, 100, 117, 99, 101, 114, 95, 115, 99, 104, 101, 100, 117, 108, 101, 63], .optional [112, 114, 111, 100, 117, 99, 101, 114, 95, 115, 99, 104, 101, 100, 117, 108, 101]),
    ([112, 114, 111, 116, 111, 99, 111, 108, 95, 115, 116, 97, 116, 101], .variant [⟨[112, 114, 111, 116, 111, 99, 111, 108, 95, 115, 116, 97, 116, 101, 95, 118, 48], [112, 114, 111, 116, 111, 99, 111, 108, 95, 115, 116, 97, 116, 101, 95, 118, 48]⟩]),
    ([112, 114, 111, 116, 111, 99, 111, 108, 95, 115, 116, 97, 116, 101, 95, 118, 48], .struct [⟨[97, 99, 116, 105, 118, 97, 116, 101, 100, 95, 112, 114, 111, 116, 111, 99, 111, 108, 95, 102, 101, 97, 116, 117, 114, 101, 115], [97, 99, 116, 105, 118, 97, 116, 101, 100, 95, 112, 114, 111, 116, 111, 99, 111, 108, 95, 102, 101, 97, 116, 117, 114, 101, 91, 93]⟩]),
    ([112, 114, 117, 110, 97, 98, 108, 101, 95, 100, 97, 116, 97, 95, 116], .variant [⟨[112, 114, 117, 110, 97, 98, 108, 101, 95, 100, 97, 116, 97, 95, 116, 121, 112, 101, 58, 58, 102, 117, 108, 108, 95, 108, 101, 103, 97, 99, 121], [112, 114, 117, 110, 97, 98, 108, 101, 95, 100, 97, 116, 97, 95, 116, 121, 112, 101, 58, 58, 102, 117, 108, 108, 95, 108, 101, 103, 97, 99, 121]⟩, ⟨[112, 114, 117, 110, 97, 98, 108, 101, 95, 100, 97, 116, 97, 95, 116, 121, 112, 101, 58, 58, 110, 111, 110, 101], [112, 114, 117, 110, 97, 98, 108, 101, 95, 100, 97, 116, 97, 95, 116, 121, 112, 101, 58, 58, 110, 111, 110, 101]⟩, ⟨[112, 114, 117, 110, 97, 98, 108, 101, 95, 100, 97, 116, 97, 95, 116, 121, 112, 101, 58, 58, 112, 97, 114, 116, 105, 97, 108], [112, 114, 117, 110, 97, 98, 108, 101, 95, 100, 97, 116, 97, 95, 116, 121, 112, 101, 58, 58, 112, 97, 114, 116, 105, 97, 108]⟩, ⟨[112, 114, 117, 110, 97, 98, 108, 101, 95, 100, 97, 116, 97, 95, 116, 121, 112, 101, 58, 58, 102, 117, 108, 108], [112, 114, 117, 110, 97, 98, 108, 101, 95, 100, 97, 116, 97, 95, 116, 121, 112, 101, 58, 58, 102, 117, 108, 108]⟩]),
    ([112, 114, 117, 110, 97, 98, 108, 101, 95, 100, 97, 116, 97, 95, 116, 121, 112, 101], .struct [⟨[112, 114, 117, 110, 97, 98, 108, 101, 95, 100, 97, 116, 97], [112, 114, 117, 110, 97, 98, 108, 101, 95, 100, 97, 116, 97, 95, 116]⟩]),
    ([112, 114, 117, 110, 97, 98, 108, 101, 95, 100, 97, 116, 97, 95, 116, 121, 112, 101, 58, 58, 102, 117, 108, 108], .struct [⟨[115, 105, 103, 110, 97, 116, 117, 114, 101, 115], [115, 105, 103, 110, 97, 116, 117, 114, 101, 91, 93]⟩, ⟨[99, 111, 110, 116, 101, 120, 116, 95, 102, 114, 101, 101, 95, 115, 101, 103, 109, 101, 110, 116, 115], [98, 121, 116, 101, 115, 91, 93]⟩]),
    ([112, 114, 117, 110, 97, 98, 108, 101, 95, 100, 97, 116, 97, 95, 116, 121, 112, 101, 58, 58, 102, 117, 108, 108, 95, 108, 101, 103, 97, 99, 121], .struct [⟨[115, 105, 103, 110, 97, 116, 117, 114, 101, 115], [115, 105, 103, 110, 97, 116, 117, 114, 101, 91, 93]⟩, ⟨[112, 97, 99, 107, 101, 100, 95, 99, 111, 110, 116, 101, 120, 116, 95, 102, 114, 101, 101, 95, 100, 97, 116, 97], [98, 121, 116, 101, 115]⟩]),
    ([112, 114, 117, 110, 97, 98, 108, 101, 95, 100, 97, 116, 97, 95, 116, 121, 112, 101, 58, 58, 110, 111, 110, 101], .struct [⟨[112, 114, 117, 110, 97, 98, 108, 101, 95, 100, 105, 103, 101, 115, 116], [99, 104, 101, 99, 107, 115, 117, 109, 50, 53, 54]⟩]),
    ([112, 114, 117, 110, 97, 98, 108, 101, 95, 100, 97, 116, 97, 95, 116, 121, 112, 101, 58, 58, 112, 97, 114, 116, 105, 97, 108], .struct [⟨[115, 105, 103, 110, 97, 116, 117, 114, 101, 115], [115, 105, 103, 110, 97, 116, 117, 114, 101, 91, 93]⟩, ⟨[99, 111, 110, 116, 101, 120, 116, 95, 102, 114, 101, 101, 95, 115, 101, 103, 109, 101, 110, 116, 115], [115, 101, 103, 109, 101, 110, 116, 95, 116, 121, 112, 101, 91, 93]⟩]),
    ([112, 114, 117, 110, 97, 98, 108, 101, 95, 100, 97, 116, 97, 95, 116, 121, 112, 101, 63], .optional [112, 114, 117, 110, 97, 98, 108, 101, 95, 100, 97, 116, 97, 95, 116, 121, 112, 101]),
    ([112, 117, 98, 108, 105, 99, 95, 107, 101, 121], .builtin .public_key),
    ([114, 101, 113, 117, 101, 115, 116], .variant [⟨[103, 101, 116, 95, 115, 116, 97, 116, 117, 115, 95, 114, 101, 113, 117, 101, 115, 116, 95, 118, 48], [103, 101, 116, 95, 115, 116, 97, 116, 117, 115, 95, 114, 101, 113, 117, 101, 115, 116, 95, 118, 48]⟩, ⟨[103, 101, 116, 95, 98, 108, 111, 99, 107, 115, 95, 114, 101, 113, 117, 101, 115, 116, 95, 118, 48], [103, 101, 116, 95, 98, 108, 111, 99, 107, 115, 95, 114, 101, 113, 117, 101, 115, 116, 95, 118, 48]⟩, ⟨[103, 101, 116, 95, 98, 108, 111, 99, 107, 115, 95, 97, 99, 107, 95, 114, 101, 113, 117, 101, 115, 116, 95, 118, 48], [103, 101, 116, 95, 98, 108, 111, 99, 107, 115, 95, 97, 99, 107, 95, 114, 101, 113, 117, 101, 115, 116, 95, 118, 48]⟩]),
    ([114, 101, 115, 111, 117, 114, 99, 101, 95, 108, 105, 109, 105, 116, 115], .variant [⟨[114, 101, 115, 111, 117, 114, 99, 101, 95, 108, 105, 109, 105, 116, 115, 95, 118, 48], [114, 101, 115, 111, 117, 114, 99, 101, 95, 108, 105, 109, 105, 116, 115, 95, 118, 48]⟩]),
    ([114, 101, 115, 111, 117, 114, 99, 101, 95, 108, 105, 109, 105, 116, 115, 95, 99, 111, 110, 102, 105, 103], .variant [⟨[114, 101, 115, 111, 117, 114, 99, 101, 95, 108, 105, 109, 105, 116, 115, 95, 99, 111, 110, 102, 105, 103, 95, 118, 48], [114, 101, 115, 111, 117, 114, 99, 101, 95, 108, 105, 109, 105, 116, 115, 95, 99, 111, 110, 102, 105, 103, 95, 118, 48]⟩]),
    ([114, 101, 115, 111, 117, 114, 99, 101, 95, 108, 105, 109, 105, 116, 115, 95, 99, 111, 110, 102, 105, 103, 95, 118, 48], .struct [⟨[99, 112, 117, 95, 108, 105, 109, 105, 116, 95, 112, 97, 114, 97, 109, 101, 116, 101, 114, 115], [101, 108, 97, 115, 116, 105, 99, 95, 108, 105, 109, 105, 116, 95, 112, 97, 114, 97, 109, 101, 116, 101, 114, 115]⟩, ⟨[110, 101, 116, 95, 108, 105, 109, 105, 116, 95, 112, 97, 114, 97, 109, 101, 116, 101, 114, 115], [101, 108, 97, 115, 116, 105, 99, 95, 108, 105, 109, 105, 116, 95, 112, 97, 114, 97, 109, 101, 116, 101, 114, 115]⟩, ⟨[97, 99, 99, 111, 117, 110, 116, 95, 99, 112, 117, 95, 117, 115, 97, 103, 101, 95, 97, 118, 101, 114, 97, 103, 101, 95, 119, 105, 110, 100, 111, 119], [117, 105, 110, 116, 51, 50]⟩, ⟨[97, 99, 99, 111, 117, 110, 116, 95, 110, 101, 116, 95, 117, 115, 97, 103, 101, 95, 97, 118, 101, 114, 97, 103, 101, 95, 119, 105, 110, 100, 111, 119], [117, 105, 110, 116, 51, 50]⟩]),
    ([114, 101, 115, 111, 117, 114, 99, 101, 95, 108, 105, 109, 105, 116, 115, 95, 114, 97, 116, 105, 111], .variant [⟨[114, 101, 115, 111, 117, 114, 99, 101, 95, 108, 105, 109, 105, 116, 115, 95, 114, 97, 116, 105, 111, 95, 118, 48], [114, 101, 115, 111, 117, 114, 99, 101, 95, 108, 105, 109, 105, 116, 115, 95, 114, 97, 116, 105, 111, 95, 118, 48]⟩]),
    ([114, 101, 115, 111, 117, 114, 99, 101, 95, 108, 105, 109, 105, 116, 115, 95, 114, 97, 116, 105, 111, 95, 118, 48], .struct [⟨[110, 117, 109, 101, 114, 97, 116, 111, 114], [117, 105, 110, 116, 54, 52]⟩, ⟨[100, 101, 110, 111, 109, 105, 110, 97, 116, 111, 114], [117, 105, 110, 116, 54, 52]⟩]),
    ([114, 101, 115, 111, 117, 114, 99, 101, 95, 108, 105, 109, 105, 116, 115, 95, 115, 116, 97, 116, 101], .variant [⟨[114, 101, 115, 111, 117, 114, 99, 101, 95, 108, 105, 109, 105, 116, 115, 95, 115, 116, 97, 116, 101, 95, 118, 48], [114, 101, 115, 111, 117, 114, 99, 101, 95, 108, 105, 109, 105, 116, 115, 95, 115, 116, 97, 116, 101, 95, 118, 48]⟩]),
    ([114, 101, 115, 111, 117, 114, 99, 101, 95, 108, 105, 109, 105, 116, 115, 95, 115, 116, 97, 116, 101, 95, 118, 48], .struct [⟨[97, 118, 101, 114, 97, 103, 101, 95, 98, 108, 111, 99, 107, 95, 110, 101, 116, 95, 117, 115, 97, 103, 101], [117, 115, 97, 103, 101, 95, 97, 99, 99, 117, 109, 117, 108, 97, 116, 111, 114]⟩, ⟨[97, 118, 101, 114, 97, 103, 101, 95, 98, 108, 111, 99, 107, 95, 99, 112, 117, 95, 117, 115, 97, 103, 101], [117, 115, 97, 103, 101, 95, 97, 99, 99, 117, 109, 117, 108, 97, 116, 111, 114]⟩, ⟨[116, 111, 116, 97, 108, 95, 110, 101, 116, 95, 119, 101, 105, 103, 104, 116], [117, 105, 110, 116, 54, 52]⟩, ⟨[116, 111, 116, 97, 108, 95, 99, 112, 117, 95, 119, 101, 105, 103, 104, 116], [117, 105, 110, 116, 54, 52]⟩, ⟨[116, 111, 116, 97, 108, 95, 114, 97, 109, 95, 98, 121, 116, 101, 115], [117, 105, 110, 116, 54, 52]⟩, ⟨[118, 105, 114, 116, 117, 97, 108, 95, 110, 101, 116, 95, 108, 105, 109, 105, 116], [117, 105, 110, 116, 54, 52]⟩, ⟨[118, 105, 114, 116, 117, 97, 108, 95, 99, 112, 117, 95, 108, 105, 109, 105, 116], [117, 105, 110, 116, 54, 52]⟩]),
    ([114, 101, 115, 111, 117, 114, 99, 101, 95, 108, 105, 109, 105, 116, 115, 95, 118, 48], .struct [⟨[111, 119, 110, 101, 114], [110, 97, 109, 101]⟩, ⟨[110, 101, 116, 95, 119, 101, 105, 103, 104, 116], [105, 110, 116, 54, 52]⟩, ⟨[99, 112, 117, 95, 119, 101, 105, 103, 104, 116], [105, 110, 116, 54, 52]⟩, ⟨[114, 97, 109, 95, 98, 121, 116, 101, 115], [105, 110, 116, 54, 52]⟩]),
    ([114, 101, 115, 111, 117, 114, 99, 101, 95, 117, 115, 97, 103, 101], .variant [⟨[114, 101, 115, 111, 117, 114, 99, 101, 95, 117, 115, 97, 103, 101, 95, 118, 48], [114, 101, 115, 111, 117, 114, 99, 101, 95, 117, 115, 97, 103, 101, 95, 118, 48]⟩]),
    ([114, 101, 115, 111, 117, 114, 99, 101, 95, 117, 115, 97, 103, 101, 95, 118, 48], .struct [⟨[111, 119, 110, 101, 114], [110, 97, 109, 101]⟩, ⟨[110, 101, 116, 95, 117, 115, 97, 103, 101], [117, 115, 97, 103, 101, 95, 97, 99, 99, 117, 109, 117, 108, 97, 116, 111, 114]⟩, ⟨[99, 112, 117, 95, 117, 115, 97, 103, 101], [117, 115, 97, 103, 101, 95, 97, 99, 99, 117, 109, 117, 108, 97, 116, 111, 114]⟩, ⟨[114, 97, 109, 95, 117, 115, 97, 103, 101], [117, 105, 110, 116, 54, 52]⟩]),
    ([114, 101, 115, 117, 108, 116], .variant [⟨[103, 101, 116, 95, 115, 116, 97, 116, 117, 115, 95, 114, 101, 115, 117, 108, 116, 95, 118, 48], [103, 101, 116, 95, 115, 116, 97, 116, 117, 115, 95, 114, 101, 115, 117, 108, 116, 95, 118, 48]⟩, ⟨[103, 101, 116, 95, 98, 108, 111, 99, 107, 115, 95, 114, 101, 115, 117, 108, 116, 95, 118, 48], [103, 101, 116, 95, 98, 108, 111, 99, 107, 115, 95, 114, 101, 115, 117, 108, 116, 95, 118, 48]⟩, ⟨[103, 101, 116, 95, 98, 108, 111, 99, 107, 115, 95, 114, 101, 115, 117, 108, 116, 95, 118, 49], [103, 101, 116, 95, 98, 108, 111, 99, 107, 115, 95, 114, 101, 115, 117, 108, 116, 95, 118, 49]⟩]),
    ([114, 111, 119], .struct [⟨[112, 114, 101, 115, 101, 110, 116], [98, 111, 111, 108]⟩, ⟨[100, 97, 116, 97], [98, 121, 116, 101, 115]⟩]),
    ([114, 111, 119, 91, 93], .array [114, 111, 119]),
    ([115, 101, 103, 109, 101, 110, 116, 95, 116, 121, 112, 101], .variant [⟨[99, 104, 101, 99, 107, 115, 117, 109, 50, 53, 54], [99, 104, 101, 99, 107, 115, 117, 109, 50, 53, 54]⟩, ⟨[98, 121, 116, 101, 115], [98, 121, 116, 101, 115]⟩]),
    ([115, 101, 103, 109, 101, 110, 116, 95, 116, 121, 112, 101, 91, 93], .array [115, 101, 103, 109, 101, 110, 116, 95, 116, 121, 112, 101]),
    ([115, 105, 103, 110, 97, 116, 117, 114, 101], .builtin .signature),
    ([115, 105, 103, 110, 97, 116, 117, 114, 101, 91, 93], .array [115, 105, 103, 110, 97, 116, 117, 114, 101]),
    ([115, 105, 103, 110, 101, 100, 95, 98, 108, 111, 99, 107, 95, 104, 101, 97, 100, 101, 114], .struct [⟨[116, 105, 109, 101, 115, 116, 97, 109, 112], [98, 108, 111, 99, 107, 95, 116, 105, 109, 101, 115, 116, 97, 109, 112, 95, 116, 121, 112, 101]⟩, ⟨[112, 114, 111, 100, 117, 99, 101, 114], [110, 97, 109, 101]⟩, ⟨[99, 111, 110, 102, 105, 114, 109, 101, 100], [117, 105, 110, 116, 49, 54]⟩, ⟨[112, 114, 101, 118, 105, 111, 117, 115], [99, 104, 101, 99, 107, 115, 117, 109, 50, 53, 54]⟩, ⟨[116, 114, 97, 110, 115, 97, 99, 116, 105, 111, 110, 95, 109, 114, 111, 111, 116], [99, 104, 101, 99, 107, 115, 117, 109, 50, 53, 54]⟩, ⟨[97, 99, 116, 105, 111, 110, 95, 109, 114, 111, 111, 116], [99, 104, 101, 99, 107, 115, 117, 109, 50, 53, 54]⟩, ⟨[115, 99, 104, 101, 100, 117, 108, 101, 95, 118, 101, 114, 115, 105, 111, 110], [117, 105, 110, 116, 51, 50]⟩, ⟨[110, 101, 119, 95, 112, 114, 111, 100, 117, 99, 101, 114, 115], [112, 114, 111, 100, 117, 99, 101, 114, 95, 115, 99, 104, 101, 100, 117, 108, 101, 63]⟩, ⟨[104, 101, 97, 100, 101, 114, 95, 101, 120, 116, 101, 110, 115, 105, 111, 110, 115], [101, 120, 116, 101, 110, 115, 105, 111, 110, 91, 93]⟩, ⟨[112, 114, 111, 100, 117, 99, 101, 114, 95, 115, 105, 103, 110, 97, 116, 117, 114, 101], [115, 105, 103, 110, 97, 116, 117, 114, 101]⟩]),
    ([115, 105, 103, 110, 101, 100, 95, 98, 108, 111, 99, 107, 95, 118, 48], .struct [⟨[116, 105, 109, 101, 115, 116, 97, 109, 112], [98, 108, 111, 99, 107, 95, 116, 105, 109, 101, 115, 116, 97, 109, 112, 95, 116, 121, 112, 101]⟩, ⟨[112, 114, 111, 100, 117, 99, 101, 114], [110, 97, 109, 101]⟩, ⟨[99, 111, 110, 102, 105, 114, 109, 101, 100], [117, 105, 110, 116, 49, 54]⟩, ⟨[112, 114, 101, 118, 105, 111, 117, 115], [99, 104, 101, 99, 107, 115, 117, 109, 50, 53, 54]⟩, ⟨[116, 114, 97, 110, 115, 97, 99, 116, 105, 111, 110, 95, 109, 114, 111, 111, 116], [99, 104, 101, 99, 107, 115, 117, 109, 50, 53, 54]⟩, ⟨[97, 99, 116, 105, 111, 110, 95, 109, 114, 111, 111, 116], [99, 104, 101, 99, 107, 115, 117, 109, 50, 53, 54]⟩, ⟨[115, 99, 104, 101, 100, 117, 108, 101, 95, 118, 101, 114, 115, 105, 111, 110], [117, 105, 110, 116, 51, 50]⟩, ⟨[110, 101, 119, 95, 112, 114, 111, 100, 117, 99, 101, 114, 115], [112, 114, 111, 100, 117, 99, 101, 114, 95, 115, 99, 104, 101, 100, 117, 108, 101, 63]⟩, ⟨[104, 101, 97, 100, 101, 114, 95, 101, 120, 116, 101, 110, 115, 105, 111, 110, 115], [101, 120, 116, 101, 110, 115, 105, 111, 110, 91, 93]⟩, ⟨[112, 114, 111, 100, 117, 99, 101, 114, 95, 115, 105, 103, 110, 97, 116, 117, 114, 101], [115, 105, 103, 110, 97, 116, 117, 114, 101]⟩, ⟨[116, 114, 97, 110, 115, 97, 99, 116, 105, 111, 110, 115], [116, 114, 97, 110, 115, 97, 99, 116, 105, 111, 110, 95, 114, 101, 99, 101, 105, 112, 116, 95, 118, 48, 91, 93]⟩, ⟨[98, 108, 111, 99, 107, 95, 101, 120, 116, 101, 110, 115, 105, 111, 110, 115], [101, 120, 116, 101, 110, 115, 105, 111, 110, 91, 93]⟩]),
    ([115, 105, 103, 110, 101, 100, 95, 98, 108, 111, 99, 107, 95, 118, 49], .struct [⟨[116, 105, 109, 101, 115, 116, 97, 109, 112], [98, 108, 111, 99, 107, 95, 116, 105, 109, 101, 115, 116, 97, 109, 112, 95, 116, 121, 112, 101]⟩, ⟨[112, 114, 111, 100, 117, 99, 101, 114], [110, 97, 109, 101]⟩, ⟨[99, 111, 110, 102, 105, 114, 109, 101, 100], [117, 105, 110, 116, 49, 54]⟩, ⟨[112, 114, 101, 118, 105, 111, 117, 115], [99, 104, 101, 99, 107, 115, 117, 109, 50, 53, 54]⟩, ⟨[116, 114, 97, 110, 115, 97, 99, 116, 105, 111, 110, 95, 109, 114, 111, 111, 116], [99, 104, 101, 99, 107, 115, 117, 109, 50, 53, 54]⟩, ⟨[97, 99, 116, 105, 111, 110, 95, 109, 114, 111, 111, 116], [99, 104, 101, 99, 107, 115, 117, 109, 50, 53, 54]⟩, ⟨[115, 99, 104, 101, 100, 117, 108, 101, 95, 118, 101, 114, 115, 105, 111, 110], [117, 105, 110, 116, 51, 50]⟩, ⟨[110, 101, 119, 95, 112, 114, 111, 100, 117, 99, 101, 114, 115], [112, 114, 111, 100, 117, 99, 101, 114, 95, 115, 99, 104, 101, 100, 117, 108, 101, 63]⟩, ⟨[104, 101, 97, 100, 101, 114, 95, 101, 120, 116, 101, 110, 115, 105, 111, 110, 115], [101, 120, 116, 101, 110, 115, 105, 111, 110, 91, 93]⟩, ⟨[112, 114, 111, 100, 117, 99, 101, 114, 95, 115, 105, 103, 110, 97, 116, 117, 114, 101], [115, 105, 103, 110, 97, 116, 117, 114, 101]⟩, ⟨[112, 114, 117, 110, 101, 95, 115, 116, 97, 116, 101], [117, 105, 110, 116, 56]⟩, ⟨[116, 114, 97, 110, 115, 97, 99, 116, 105, 111, 110, 115], [116, 114, 97, 110, 115, 97, 99, 116, 105, 111, 110, 95, 114, 101, 99, 101, 105, 112, 116, 91, 93]⟩, ⟨[98, 108, 111, 99, 107, 95, 101, 120, 116, 101, 110, 115, 105, 111, 110, 115], [101, 120, 116, 101, 110, 115, 105, 111, 110, 91, 93]⟩]),
    ([115, 105, 103, 110, 101, 100, 95, 98, 108, 111, 99, 107, 95, 118, 97, 114, 105, 97, 110, 116], .variant [⟨[115, 105, 103, 110, 101, 100, 95, 98, 108, 111, 99, 107, 95, 118, 48], [115, 105, 103, 110, 101, 100, 95, 98, 108, 111, 99, 107, 95, 118, 48]⟩, ⟨[115, 105, 103, 110, 101, 100, 95, 98, 108, 111, 99, 107, 95, 118, 49], [115, 105, 103, 110, 101, 100, 95, 98, 108, 111, 99, 107, 95, 118, 49]⟩]),
    ([115, 105, 103, 110, 101, 100, 95, 98, 108, 111, 99, 107, 95, 118, 97, 114, 105, 97, 110, 116, 63], .optional [115, 105, 103, 110, 101, 100, 95, 98, 108, 111, 99, 107, 95, 118, 97, 114, 105, 97, 110, 116]),
    ([115, 116, 114, 105, 110, 103], .builtin .string),
    ([115, 116, 114, 105, 110, 103, 63], .optional [115, 116, 114, 105, 110, 103]),
    ([115, 121, 109, 98, 111, 108], .builtin .symbol),
    ([115, 121, 109, 98, 111, 108, 95, 99, 111, 100, 101], .builtin .symbol_code),
    ([116, 97, 98, 108, 101, 95, 100, 101, 108, 116, 97], .variant [⟨[116, 97, 98, 108, 101, 95, 100, 101, 108, 116, 97, 95, 118, 48], [116, 97, 98, 108, 101, 95, 100, 101, 108, 116, 97, 95, 118, 48]⟩]),
    ([116, 97, 98, 108, 101, 95, 100, 101, 108, 116, 97, 91, 93], .array [116, 97, 98, 108, 101, 95, 100, 101, 108, 116, 97]),
    ([116, 97, 98, 108, 101, 95, 100, 101, 108, 116, 97, 95, 118, 48], .struct [⟨[110, 97, 109, 101], [115, 116, 114, 105, 110, 103]⟩, ⟨[114, 111, 119, 115], [114, 111, 119, 91, 93]⟩]),
    ([116, 105, 109, 101, 95, 112, 111, 105, 110, 116], .builtin .time_point),
    ([116, 105, 109, 101, 95, 112, 111, 105, 110, 116, 95, 115, 101, 99], .builtin .time_point_sec),
    ([116, 114, 97, 110, 115, 97, 99, 116, 105, 111, 110], .struct [⟨[101, 120, 112, 105, 114, 97, 116, 105, 111, 110], [116, 105, 109, 101, 95, 112, 111, 105, 110, 116, 95, 115, 101, 99]⟩, ⟨[114, 101, 102, 95, 98, 108, 111, 99, 107, 95, 110, 117, 109], [117, 105, 110, 116, 49, 54]⟩, ⟨[114, 101, 102, 95, 98, 108, 111, 99, 107, 95, 112, 114, 101, 102, 105, 120], [117, 105, 110, 116, 51, 50]⟩, ⟨[109, 97, 120, 95, 110, 101, 116, 95, 117, 115, 97, 103, 101, 95, 119, 111, 114, 100, 115], [118, 97, 114, 117, 105, 110, 116, 51, 50]⟩, ⟨[109, 97, 120, 95, 99, 112, 117, 95, 117, 115, 97, 103, 101, 95, 109, 115], [117, 105, 110, 116, 56]⟩, ⟨[100, 101, 108, 97, 121, 95, 115, 101, 99], [118, 97, 114, 117, 105, 110, 116, 51, 50]⟩, ⟨[99, 111, 110, 116, 101, 120, 116, 95, 102, 114, 101, 101, 95, 97, 99, 116, 105, 111, 110, 115], [97, 99, 116, 105, 111, 110, 91, 93]⟩, ⟨[97, 99, 116, 105, 111, 110, 115], [97, 99, 116, 105, 111, 110, 91, 93]⟩, ⟨[116, 114, 97, 110, 115, 97, 99, 116, 105, 111, 110, 95, 101, 120, 116, 101, 110, 115, 105, 111, 110, 115], [101, 120, 116, 101, 110, 115, 105, 111, 110, 91, 93]⟩]),
    ([116, 114, 97, 110, 115, 97, 99, 116, 105, 111, 110, 95, 104, 101, 97, 100, 101, 114], .struct [⟨[101, 120, 112, 105, 114, 97, 116, 105, 111, 110], [116, 105, 109, 101, 95, 112, 111, 105, 110, 116, 95, 115, 101, 99]⟩, ⟨[114, 101, 102, 95, 98, 108, 111, 99, 107, 95, 110, 117, 109], [117, 105, 110, 116, 49, 54]⟩, ⟨[114, 101, 102, 95, 98, 108, 111, 99, 107, 95, 112, 114, 101, 102, 105, 120], [117, 105, 110, 116, 51, 50]⟩, ⟨[109, 97, 120, 95, 110, 101, 116, 95, 117, 115, 97, 103, 101, 95, 119, 111, 114, 100, 115], [118, 97, 114, 117, 105, 110, 116, 51, 50]⟩, ⟨[109, 97, 120, 95, 99, 112, 117, 95, 117, 115, 97, 103, 101, 95, 109, 115], [117, 105, 110, 116, 56]⟩, ⟨[100, 101, 108, 97, 121, 95, 115, 101, 99], [118, 97, 114, 117, 105, 110, 116, 51, 50]⟩]),
    ([116, 114, 97, 110, 115, 97, 99, 116, 105, 111, 110, 95, 114, 101, 99, 101, 105, 112, 116], .struct [⟨[115, 116, 97, 116, 117, 115], [117, 105, 110, 116, 56]⟩, ⟨[99, 112, 117, 95, 117, 115, 97, 103, 101, 95, 117, 115], [117, 105, 110, 116, 51, 50]⟩, ⟨[110, 101, 116, 95, 117, 115, 97, 103, 101, 95, 119, 111, 114, 100, 115], [118, 97, 114, 117, 105, 110, 116, 51, 50]⟩, ⟨[116, 114, 120], [116, 114, 97, 110, 115, 97, 99, 116, 105, 111, 110, 95, 118, 97, 114, 105, 97, 110, 116]⟩]),
    ([116, 114, 97, 110, 115, 97, 99, 116, 105, 111, 110, 95, 114, 101, 99, 101, 105, 112, 116, 91, 93], .array [116, 114, 97, 110, 115, 97, 99, 116, 105, 111, 110, 95, 114, 101, 99, 101, 105, 112, 116]),
    ([116, 114, 97, 110, 115, 97, 99, 116, 105, 111, 110, 95, 114, 101, 99, 101, 105, 112, 116, 95, 104, 101, 97, 100, 101, 114], .struct [⟨[115, 116, 97, 116, 117, 115], [117, 105, 110, 116, 56]⟩, ⟨[99, 112, 117, 95, 117, 115, 97, 103, 101, 95, 117, 115], [117, 105, 110, 116, 51, 50]⟩, ⟨[110, 101, 116, 95, 117, 115, 97, 103, 101, 95, 119, 111, 114, 100, 115], [118, 97, 114, 117, 105, 110, 116, 51, 50]⟩]),
    ([116, 114, 97, 110, 115, 97, 99, 116, 105, 111, 110, 95, 114, 101, 99, 101, 105, 112, 116, 95, 118, 48], .struct [⟨[115, 116, 97, 116, 117, 115], [117, 105, 110, 116, 56]⟩, ⟨[99, 112, 117, 95, 117, 115, 97, 103, 101, 95, 117, 115], [117, 105, 110, 116, 51, 50]⟩, ⟨[110, 101, 116, 95, 117, 115, 97, 103, 101, 95, 119, 111, 114, 100, 115], [118, 97, 114, 117, 105, 110, 116, 51, 50]⟩, ⟨[116, 114, 120], [116, 114, 97, 110, 115, 97, 99, 116, 105, 111, 110, 95, 118, 97, 114, 105, 97, 110, 116, 95, 118, 48]⟩]),
    ([116, 114, 97, 110, 115, 97, 99, 116, 105, 111, 110, 95, 114, 101, 99, 101, 105, 112, 116, 95, 118, 48, 91, 93], .array [116, 114, 97, 110, 115, 97, 99, 116, 105, 111, 110, 95, 114, 101, 99, 101, 105, 112, 116, 95, 118, 48]),
    ([116, 114, 97, 110, 115, 97, 99, 116, 105, 111, 110, 95, 116, 114, 97, 99, 101], .variant [⟨[116, 114, 97, 110, 115, 97, 99, 116, 105, 111, 110, 95, 116, 114, 97, 99, 101, 95, 118, 48], [116, 114, 97, 110, 115, 97, 99, 116, 105, 111, 110, 95, 116, 114, 97, 99, 101, 95, 118, 48]⟩]),
    ([116, 114, 97, 110, 115, 97, 99, 116, 105, 111, 110, 95, 116, 114, 97, 99, 101, 91, 93], .array [116, 114, 97, 110, 115, 97, 99, 116, 105, 111, 110, 95, 116, 114, 97, 99, 101]),
    ([116, 114, 97, 110, 115, 97, 99, 116, 105, 111, 110, 95, 116, 114, 97, 99, 101, 95, 118, 48], .struct [⟨[105, 100], [99, 104, 101, 99, 107, 115, 117, 109, 50, 53, 54]⟩, ⟨[115, 116, 97, 116, 117, 115], [117, 105, 110, 116, 56]⟩, ⟨[99, 112, 117, 95, 117, 115, 97, 103, 101, 95, 117, 115], [117, 105, 110, 116, 51, 50]⟩, ⟨[110, 101, 116, 95, 117, 115, 97, 103, 101, 95, 119, 111, 114, 100, 115], [118, 97, 114, 117, 105, 110, 116, 51, 50]⟩, ⟨[101, 108, 97, 112, 115, 101, 100], [105, 110, 116, 54, 52]⟩, ⟨[110, 101, 116, 95, 117, 115, 97, 103, 101], [117, 105, 110, 116, 54, 52]⟩, ⟨[115, 99, 104, 101, 100, 117, 108, 101, 100], [98, 111, 111, 108]⟩, ⟨[97, 99, 116, 105, 111, 110, 95, 116, 114, 97, 99, 101, 115], [97, 99, 116, 105, 111, 110, 95, 116, 114, 97, 99, 101, 91, 93]⟩, ⟨[97, 99, 99, 111, 117, 110, 116, 95, 114, 97, 109, 95, 100, 101, 108, 116, 97], [97, 99, 99, 111, 117, 110, 116, 95, 100, 101, 108, 116, 97, 63]⟩, ⟨[101, 120, 99, 101, 112, 116], [115, 116, 114, 105, 110, 103, 63]⟩, ⟨[101, 114, 114, 111, 114, 95, 99, 111, 100, 101], [117, 105, 110, 116, 54, 52, 63]⟩, ⟨[102, 97, 105, 108, 101, 100, 95, 100, 116, 114, 120, 95, 116, 114, 97, 99, 101], [116, 114, 97, 110, 115, 97, 99, 116, 105, 111, 110, 95, 116, 114, 97, 99, 101, 91, 93]⟩, ⟨[112, 97, 114, 116, 105, 97, 108], [112, 97, 114, 116, 105, 97, 108, 95, 116, 114, 97, 110, 115, 97, 99, 116, 105, 111, 110, 63]⟩]),
    ([116, 114, 97, 110, 115, 97, 99, 116, 105, 111, 110, 95, 118, 97, 114, 105, 97, 110, 116], .variant [⟨[99, 104, 101, 99, 107, 115, 117, 109, 50, 53, 54], [99, 104, 101, 99, 107, 115, 117, 109, 50, 53, 54]⟩, ⟨[112, 97, 99, 107, 101, 100, 95, 116, 114, 97, 110, 115, 97, 99, 116, 105, 111, 110], [112, 97, 99, 107, 101, 100, 95, 116, 114, 97, 110, 115, 97, 99, 116, 105, 111, 110]⟩]),
    ([116, 114, 97, 110, 115, 97, 99, 116, 105, 111, 110, 95, 118, 97, 114, 105, 97, 110, 116, 95, 118, 48], .variant [⟨[99, 104, 101, 99, 107, 115, 117, 109, 50, 53, 54], [99, 104, 101, 99, 107, 115, 117, 109, 50, 53, 54]⟩, ⟨[112, 97, 99, 107, 101, 100, 95, 116, 114, 97, 110, 115, 97, 99, 116, 105, 111, 110, 95, 118, 48], [112, 97, 99, 107, 101, 100, 95, 116, 114, 97, 110, 115, 97, 99, 116, 105, 111, 110, 95, 118, 48]⟩]),
    ([117, 105, 110, 116, 49, 50, 56], .builtin .uint128),
    ([117, 105, 110, 116, 49, 54], .builtin .uint16),
    ([117, 105, 110, 116, 51, 50], .builtin .uint32),
    ([117, 105, 110, 116, 51, 50, 63], .optional [117, 105, 110, 116, 51, 50]),
    ([117, 105, 110, 116, 54, 52], .builtin .uint64),
    ([117, 105, 110, 116, 54, 52, 63], .optional [117, 105, 110, 116, 54, 52]),
    ([117, 105, 110, 116, 56], .builtin .uint8),
    ([117, 115, 97, 103, 101, 95, 97, 99, 99, 117, 109, 117, 108, 97, 116, 111, 114], .variant [⟨[117, 115, 97, 103, 101, 95, 97, 99, 99, 117, 109, 117, 108, 97, 116, 111, 114, 95, 118, 48], [117, 115, 97, 103, 101, 95, 97, 99, 99, 117, 109, 117, 108, 97, 116, 111, 114, 95, 118, 48]⟩]),
    ([117, 115, 97, 103, 101, 95, 97, 99, 99, 117, 109, 117, 108, 97, 116, 111, 114, 95, 118, 48], .struct [⟨[108, 97, 115, 116, 95, 111, 114, 100, 105, 110, 97, 108], [117, 105, 110, 116, 51, 50]⟩, ⟨[118, 97, 108, 117, 101, 95, 101, 120], [117, 105, 110, 116, 54, 52]⟩, ⟨[99, 111, 110, 115, 117, 109, 101, 100], [117, 105, 110, 116, 54, 52]⟩]),
    ([118, 97, 114, 105, 110, 116, 51, 50], .builtin .varint32),
    ([118, 97, 114, 117, 105, 110, 116, 51, 50], .builtin .varuint32),
    ([119, 97, 105, 116, 95, 119, 101, 105, 103, 104, 116], .struct [⟨[119, 97, 105, 116, 95, 115, 101, 99], [117, 105, 110, 116, 51, 50]⟩, ⟨[119, 101, 105, 103, 104, 116], [117, 105, 110, 116, 49, 54]⟩]),
    ([119, 97, 105, 116, 95, 119, 101, 105, 103, 104, 116, 91, 93], .array [119, 97, 105, 116, 95, 119, 101, 105, 103, 104, 116])]

/-- `pairs`, evaluated -/
def pairsLit : List (Bytes × Bytes) :=
  [([114, 101, 113, 117, 101, 115, 116], [118, 97, 114, 105, 97, 110, 116, 95, 103, 101, 116, 95, 115, 116, 97, 116, 117, 115, 95, 114, 101, 113, 117, 101, 115, 116, 95, 118, 48, 95, 103, 101, 116, 95, 98, 108, 111, 99, 107, 115, 95, 114, 101, 113, 117, 101, 115, 116, 95, 118, 48, 95, 103, 101, 116, 95, 98, 108, 111, 99, 107, 115, 95, 97, 99, 107, 95, 114, 101, 113, 117, 101, 115, 116, 95, 118, 48]),
    ([114, 101, 115, 117, 108, 116], [118, 97, 114, 105, 97, 110, 116, 95, 103, 101, 116, 95, 115, 116, 97, 116, 117, 115, 95, 114, 101, 115, 117, 108, 116, 95, 118, 48, 95, 103, 101, 116, 95, 98, 108, 111, 99, 107, 115, 95, 114, 101, 115, 117, 108, 116, 95, 118, 48, 95, 103, 101, 116, 95, 98, 108, 111, 99, 107, 115, 95, 114, 101, 115, 117, 108, 116, 95, 118, 49]),
    ([97, 99, 99, 111, 117, 110, 116], [118, 97, 114, 105, 97, 110, 116, 95, 97, 99, 99, 111, 117, 110, 116, 95, 118, 48]),
    ([97, 99, 99, 111, 117, 110, 116, 95, 109, 101, 116, 97, 100, 97, 116, 97], [118, 97, 114, 105, 97, 110, 116, 95, 97, 99, 99, 111, 117, 110, 116, 95, 109, 101, 116, 97, 100, 97, 116, 97, 95, 118, 48]),
    ([99, 111, 100, 101], [118, 97, 114, 105, 97, 110, 116, 95, 99, 111, 100, 101, 95, 118, 48]),
    ([99, 111, 110, 116, 114, 97, 99, 116, 95, 116, 97, 98, 108, 101], [118, 97, 114, 105, 97, 110, 116, 95, 99, 111, 110, 116, 114, 97, 99, 116, 95, 116, 97, 98, 108, 101, 95, 118, 48]),
    ([99, 111, 110, 116, 114, 97, 99, 116, 95, 114, 111, 119], [118, 97, 114, 105, 97, 110, 116, 95, 99, 111, 110, 116, 114, 97, 99, 116, 95, 114, 111, 119, 95, 118, 48]),
    ([99, 111, 110, 116, 114, 97, 99, 116, 95, 105, 110, 100, 101, 120, 54, 52], [118, 97, 114, 105, 97, 110, 116, 95, 99, 111, 110, 116, 114, 97, 99, 116, 95, 105, 110, 100, 101, 120, 54, 52, 95, 118, 48]),
    ([99, 111, 110, 116, 114, 97, 99, 116, 95, 105, 110, 100, 101, 120, 49, 50, 56], [118, 97, 114, 105, 97, 110, 116, 95, 99, 111, 110, 116, 114, 97, 99, 116, 95, 105, 110, 100, 101, 120, 49, 50, 56, 95, 118, 48]),
    ([99, 111, 110, 116, 114, 97, 99, 116, 95, 105, 110, 100, 101, 120, 50, 53, 54], [118, 97, 114, 105, 97, 110, 116, 95, 99, 111, 110, 116, 114, 97, 99, 116, 95, 105, 110, 100, 101, 120, 50, 53, 54, 95, 118, 48]),
    ([99, 111, 110, 116, 114, 97, 99, 116, 95, 105, 110, 100, 101, 120, 95, 100, 111, 117, 98, 108, 101], [118, 97, 114, 105, 97, 110, 116, 95, 99, 111, 110, 116, 114, 97, 99, 116, 95, 105, 110, 100, 101, 120, 95, 100, 111, 117, 98, 108, 101, 95, 118, 48]),
    ([99, 111, 110, 116, 114, 97, 99, 116, 95, 105, 110, 100, 101, 120, 95, 108, 111, 110, 103, 95, 100, 111, 117, 98, 108, 101], [118, 97, 114, 105, 97, 110, 116, 95, 99, 111, 110, 116, 114, 97, 99, 116, 95, 105, 110, 100, 101, 120, 95, 108, 111, 110, 103, 95, 100, 111, 117, 98, 108, 101, 95, 118, 48]),
    ([107, 101, 121, 95, 118, 97, 108, 117, 101], [118, 97, 114, 105, 97, 110, 116, 95, 107, 101, 121, 95, 118, 97, 108, 117, 101, 95, 118, 48]),
    ([103, 108, 111, 98, 97, 108, 95, 112, 114, 111, 112, 101, 114, 116, 121], [118, 97, 114, 105, 97, 110, 116, 95, 103, 108, 111, 98, 97, 108, 95, 112, 114, 111, 112, 101, 114, 116, 121, 95, 118, 48, 95, 103, 108, 111, 98, 97, 108, 95, 112, 114, 111, 112, 101, 114, 116, 121, 95, 118, 49]),
    ([103, 101, 110, 101, 114, 97, 116, 101, 100, 95, 116, 114, 97, 110, 115, 97, 99, 116, 105, 111, 110], [118, 97, 114, 105, 97, 110, 116, 95, 103, 101, 110, 101, 114, 97, 116, 101, 100, 95, 116, 114, 97, 110, 115, 97, 99, 116, 105, 111, 110, 95, 118, 48]),
    ([112, 114, 111, 116, 111, 99, 111, 108, 95, 115, 116, 97, 116, 101], [118, 97, 114, 105, 97, 110, 116, 95, 112, 114, 111, 116, 111, 99, 111, 108, 95, 115, 116, 97, 116, 101, 95, 118, 48]),
    ([112, 101, 114, 109, 105, 115, 115, 105, 111, 110], [118, 97, 114, 105, 97, 110, 116, 95, 112, 101, 114, 109, 105, 115, 115, 105, 111, 110, 95, 118, 48]),
    ([112, 101, 114, 109, 105, 115, 115, 105, 111, 110, 95, 108, 105, 110, 107], [118, 97, 114, 105, 97, 110, 116, 95, 112, 101, 114, 109, 105, 115, 115, 105, 111, 110, 95, 108, 105, 110, 107, 95, 118, 48]),
    ([114, 101, 115, 111, 117, 114, 99, 101, 95, 108, 105, 109, 105, 116, 115], [118, 97, 114, 105, 97, 110, 116, 95, 114, 101, 115, 111, 117, 114, 99, 101, 95, 108, 105, 109, 105, 116, 115, 95, 118, 48]),
    ([114, 101, 115, 111, 117, 114, 99, 101, 95, 117, 115, 97, 103, 101], [118, 97, 114, 105, 97, 110, 116, 95, 114, 101, 115, 111, 117, 114, 99, 101, 95, 117, 115, 97, 103, 101, 95, 118, 48]),
    ([114, 101, 115, 111, 117, 114, 99, 101, 95, 108, 105, 109, 105, 116, 115, 95, 115, 116, 97, 116, 101], [118, 97, 114, 105, 97, 110, 116, 95, 114, 101, 115, 111, 117, 114, 99, 101, 95, 108, 105, 109, 105, 116, 115, 95, 115, 116, 97, 116, 101, 95, 118, 48]),
    ([114, 101, 115, 111, 117, 114, 99, 101, 95, 108, 105, 109, 105, 116, 115, 95, 99, 111, 110, 102, 105, 103], [118, 97, 114, 105, 97, 110, 116, 95, 114, 101, 115, 111, 117, 114, 99, 101, 95, 108, 105, 109, 105, 116, 115, 95, 99, 111, 110, 102, 105, 103, 95, 118, 48]),
    ([103, 101, 116, 95, 115, 116, 97, 116, 117, 115, 95, 114, 101, 113, 117, 101, 115, 116, 95, 118, 48], [103, 101, 116, 95, 115, 116, 97, 116, 117, 115, 95, 114, 101, 113, 117, 101, 115, 116, 95, 118, 48]),
    ([103, 101, 116, 95, 115, 116, 97, 116, 117, 115, 95, 114, 101, 115, 117, 108, 116, 95, 118, 48], [103, 101, 116, 95, 115, 116, 97, 116, 117, 115, 95, 114, 101, 115, 117, 108, 116, 95, 118, 48]),
    ([103, 101, 116, 95, 98, 108, 111, 99, 107, 115, 95, 114, 101, 113, 117, 101, 115, 116, 95, 118, 48], [103, 101, 116, 95, 98, 108, 111, 99, 107, 115, 95, 114, 101, 113, 117, 101, 115, 116, 95, 118, 48]),
    ([103, 101, 116, 95, 98, 108, 111, 99, 107, 115, 95, 97, 99, 107, 95, 114, 101, 113, 117, 101, 115, 116, 95, 118, 48], [103, 101, 116, 95, 98, 108, 111, 99, 107, 115, 95, 97, 99, 107, 95, 114, 101, 113, 117, 101, 115, 116, 95, 118, 48]),
    ([103, 101, 116, 95, 98, 108, 111, 99, 107, 115, 95, 114, 101, 115, 117, 108, 116, 95, 98, 97, 115, 101], [103, 101, 116, 95, 98, 108, 111, 99, 107, 115, 95, 114, 101, 115, 117, 108, 116, 95, 98, 97, 115, 101]),
    ([103, 101, 116, 95, 98, 108, 111, 99, 107, 115, 95, 114, 101, 115, 117, 108, 116, 95, 118, 48], [103, 101, 116, 95, 98, 108, 111, 99, 107, 115, 95, 114, 101, 115, 117, 108, 116, 95, 118, 48]),
    ([116, 114, 97, 110, 115, 97, 99, 116, 105, 111, 110, 95, 114, 101, 99, 101, 105, 112, 116, 95, 104, 101, 97, 100, 101, 114], [116, 114, 97, 110, 115, 97, 99, 116, 105, 111, 110, 95, 114, 101, 99, 101, 105, 112, 116, 95, 104, 101, 97, 100, 101, 114]),
    ([98, 108, 111, 99, 107, 95, 104, 101, 97, 100, 101, 114], [98, 108, 111, 99, 107, 95, 104, 101, 97, 100, 101, 114]),
    ([115, 105, 103, 110, 101, 100, 95, 98, 108, 111, 99, 107, 95, 104, 101, 97, 100, 101, 114], [115, 105, 103, 110, 101, 100, 95, 98, 108, 111, 99, 107, 95, 104, 101, 97, 100, 101, 114]),
    ([103, 101, 116, 95, 98, 108, 111, 99, 107, 115, 95, 114, 101, 115, 117, 108, 116, 95, 118, 49], [103, 101, 116, 95, 98, 108, 111, 99, 107, 115, 95, 114, 101, 115, 117, 108, 116, 95, 118, 49]),
    ([116, 114, 97, 110, 115, 97, 99, 116, 105, 111, 110, 95, 104, 101, 97, 100, 101, 114], [116, 114, 97, 110, 115, 97, 99, 116, 105, 111, 110, 95, 104, 101, 97, 100, 101, 114]),
    ([116, 114, 97, 110, 115, 97, 99, 116, 105, 111, 110], [116, 114, 97, 110, 115, 97, 99, 116, 105, 111, 110]),
    ([97, 99, 99, 111, 117, 110, 116, 95, 118, 48], [97, 99, 99, 111, 117, 110, 116, 95, 118, 48]),
    ([97, 99, 99, 111, 117, 110, 116, 95, 109, 101, 116, 97, 100, 97, 116, 97, 95, 118, 48], [97, 99, 99, 111, 117, 110, 116, 95, 109, 101, 116, 97, 100, 97, 116, 97, 95, 118, 48]),
    ([99, 111, 100, 101, 95, 118, 48], [99, 111, 100, 101, 95, 118, 48]),
    ([99, 111, 110, 116, 114, 97, 99, 116, 95, 116, 97, 98, 108, 101, 95, 118, 48], [99, 111, 110, 116, 114, 97, 99, 116, 95, 116, 97, 98, 108, 101, 95, 118, 48]),
    ([99, 111, 110, 116, 114, 97, 99, 116, 95, 114, 111, 119, 95, 118, 48], [99, 111, 110, 116, 114, 97, 99, 116, 95, 114, 111, 119, 95, 118, 48]),
    ([99, 111, 110, 116, 114, 97, 99, 116, 95, 105, 110, 100, 101, 120, 54, 52, 95, 118, 48], [99, 111, 110, 116, 114, 97, 99, 116, 95, 105, 110, 100, 101, 120, 54, 52, 95, 118, 48]),
    ([99, 111, 110, 116, 114, 97, 99, 116, 95, 105, 110, 100, 101, 120, 49, 50, 56, 95, 118, 48], [99, 111, 110, 116, 114, 97, 99, 116, 95, 105, 110, 100, 101, 120, 49, 50, 56, 95, 118, 48]),
    ([99, 111, 110, 116, 114, 97, 99, 116, 95, 105, 110, 100, 101, 120, 50, 53, 54, 95, 118, 48], [99, 111, 110, 116, 114, 97, 99, 116, 95, 105, 110, 100, 101, 120, 50, 53, 54, 95, 118, 48]),
    ([99, 111, 110, 116, 114, 97, 99, 116, 95, 105, 110, 100, 101, 120, 95, 100, 111, 117, 98, 108, 101, 95, 118, 48], [99, 111, 110, 116, 114, 97, 99, 116, 95, 105, 110, 100, 101, 120, 95, 100, 111, 117, 98, 108, 101, 95, 118, 48]),
    ([99, 111, 110, 116, 114, 97, 99, 116, 95, 105, 110, 100, 101, 120, 95, 108, 111, 110, 103, 95, 100, 111, 117, 98, 108, 101, 95, 118, 48], [99, 111, 110, 116, 114, 97, 99, 116, 95, 105, 110, 100, 101, 120, 95, 108, 111, 110, 103, 95, 100, 111, 117, 98, 108, 101, 95, 118, 48]),
    ([107, 101, 121, 95, 118, 97, 108, 117, 101, 95, 118, 48], [107, 101, 121, 95, 118, 97, 108, 117, 101, 95, 118, 48]),
    ([103, 108, 111, 98, 97, 108, 95, 112, 114, 111, 112, 101, 114, 116, 121, 95, 118, 48], [103, 108, 111, 98, 97, 108, 95, 112, 114, 111, 112, 101, 114, 116, 121, 95, 118, 48]),
    ([103, 108, 111, 98, 97, 108, 95, 112, 114, 111, 112, 101, 114, 116, 121, 95, 118, 49], [103, 108, 111, 98, 97, 108, 95, 112, 114, 111, 112, 101, 114, 116, 121, 95, 118, 49]),
    ([103, 101, 110, 101, 114, 97, 116, 101, 100, 95, 116, 114, 97, 110, 115, 97, 99, 116, 105, 111, 110, 95, 118, 48], [103, 101, 110, 101, 114, 97, 116, 101, 100, 95, 116, 114, 97, 110, 115, 97, 99, 116, 105, 111, 110, 95, 118, 48]),
    ([112, 114, 111, 116, 111, 99, 111, 108, 95, 115, 116, 97, 116, 101, 95, 118, 48], [112, 114, 111, 116, 111, 99, 111, 108, 95, 115, 116, 97, 116, 101, 95, 118, 48]),
    ([112, 101, 114, 109, 105, 115, 115, 105, 111, 110, 95, 118, 48], [112, 101, 114, 109, 105, 115, 115, 105, 111, 110, 95, 118, 48]),
    ([112, 101, 114, 109, 105, 115, 115, 105, 111, 110, 95, 108, 105, 110, 107, 95, 118, 48], [112, 101, 114, 109, 105, 115, 115, 105, 111, 110, 95, 108, 105, 110, 107, 95, 118, 48]),
    ([114, 101, 115, 111, 117, 114, 99, 101, 95, 108, 105, 109, 105, 116, 115, 95, 118, 48], [114, 101, 115, 111, 117, 114, 99, 101, 95, 108, 105, 109, 105, 116, 115, 95, 118, 48]),
    ([114, 101, 115, 111, 117, 114, 99, 101, 95, 117, 115, 97, 103, 101, 95, 118, 48], [114, 101, 115, 111, 117, 114, 99, 101, 95, 117, 115, 97, 103, 101, 95, 118, 48]),
    ([114, 101, 115, 111, 117, 114, 99, 101, 95, 108, 105, 109, 105, 116, 115, 95, 115, 116, 97, 116, 101, 95, 118, 48], [114, 101, 115, 111, 117, 114, 99, 101, 95, 108, 105, 109, 105, 116, 115, 95, 115, 116, 97, 116, 101, 95, 118, 48]),
    ([114, 101, 115, 111, 117, 114, 99, 101, 95, 108, 105, 109, 105, 116, 115, 95, 99, 111, 110, 102, 105, 103, 95, 118, 48], [114, 101, 115, 111, 117, 114, 99, 101, 95, 108, 105, 109, 105, 116, 115, 95, 99, 111, 110, 102, 105, 103, 95, 118, 48]),
    ([116, 97, 98, 108, 101, 95, 100, 101, 108, 116, 97, 91, 93], [118, 97, 114, 105, 97, 110, 116, 95, 116, 97, 98, 108, 101, 95, 100, 101, 108, 116, 97, 95, 118, 48, 91, 93]),
    ([116, 97, 98, 108, 101, 95, 100, 101, 108, 116, 97], [118, 97, 114, 105, 97, 110, 116, 95, 116, 97, 98, 108, 101, 95, 100, 101, 108, 116, 97, 95, 118, 48]),
    ([116, 97, 98, 108, 101, 95, 100, 101, 108, 116, 97, 95, 118, 48], [116, 97, 98, 108, 101, 95, 100, 101, 108, 116, 97, 95, 118, 48]),
    ([98, 108, 111, 99, 107, 95, 112, 111, 115, 105, 116, 105, 111, 110, 91, 93], [98, 108, 111, 99, 107, 95, 112, 111, 115, 105, 116, 105, 111, 110, 91, 93]),
    ([98, 121, 116, 101, 115, 63], [98, 121, 116, 101, 115, 63]),
    ([114, 111, 119, 91, 93], [114, 111, 119, 91, 93]),
    ([114, 111, 119], [114, 111, 119]),
    ([112, 101, 114, 109, 105, 115, 115, 105, 111, 110, 95, 108, 101, 118, 101, 108, 91, 93], [112, 101, 114, 109, 105, 115, 115, 105, 111, 110, 95, 108, 101, 118, 101, 108, 91, 93]),
    ([97, 99, 99, 111, 117, 110, 116, 95, 97, 117, 116, 104, 95, 115, 101, 113, 117, 101, 110, 99, 101, 91, 93], [97, 99, 99, 111, 117, 110, 116, 95, 97, 117, 116, 104, 95, 115, 101, 113, 117, 101, 110, 99, 101, 91, 93]),
    ([97, 99, 99, 111, 117, 110, 116, 95, 97, 117, 116, 104, 95, 115, 101, 113, 117, 101, 110, 99, 101], [97, 99, 99, 111, 117, 110, 116, 95, 97, 117, 116, 104, 95, 115, 101, 113, 117, 101, 110, 99, 101]),
    ([97, 99, 116, 105, 111, 110, 95, 114, 101, 99, 101, 105, 112, 116, 63], [118, 97, 114, 105, 97, 110, 116, 95, 97, 99, 116, 105, 111, 110, 95, 114, 101, 99, 101, 105, 112, 116, 95, 118, 48, 63]),
    ([97, 99, 116, 105, 111, 110, 95, 114, 101, 99, 101, 105, 112, 116], [118, 97, 114, 105, 97, 110, 116, 95, 97, 99, 116, 105, 111, 110, 95, 114, 101, 99, 101, 105, 112, 116, 95, 118, 48]),
    ([97, 99, 116, 105, 111, 110, 95, 114, 101, 99, 101, 105, 112, 116, 95, 118, 48], [97, 99, 116, 105, 111, 110, 95, 114, 101, 99, 101, 105, 112, 116, 95, 118, 48]),
    ([97, 99, 99, 111, 117, 110, 116, 95, 100, 101, 108, 116, 97, 91, 93], [97, 99, 99, 111, 117, 110, 116, 95, 100, 101, 108, 116, 97, 91, 93]),
    ([112, 114, 117, 110, 97, 98, 108, 101, 95, 100, 97, 116, 97, 95, 116], [118, 97, 114, 105, 97, 110, 116, 95, 112, 114, 117, 110, 97, 98, 108, 101, 95, 100, 97, 116, 97, 95, 116, 121, 112, 101, 58, 58, 102, 117, 108, 108, 95, 108, 101, 103, 97, 99, 121, 95, 112, 114, 117, 110, 97, 98, 108, 101, 95, 100, 97, 116, 97, 95, 116, 121, 112, 101, 58, 58, 110, 111, 110, 101, 95, 112, 114, 117, 110, 97, 98, 108, 101, 95, 100, 97, 116, 97, 95, 116, 121, 112, 101, 58, 58, 112, 97, 114, 116, 105, 97, 108, 95, 112, 114, 117, 110, 97, 98, 108, 101, 95, 100, 97, 116, 97, 95, 116, 121, 112, 101, 58, 58, 102, 117, 108, 108]),
    ([112, 114, 117, 110, 97, 98, 108, 101, 95, 100, 97, 116, 97, 95, 116, 121, 112, 101, 58, 58, 102, 117, 108, 108, 95, 108, 101, 103, 97, 99, 121], [112, 114, 117, 110, 97, 98, 108, 101, 95, 100, 97, 116, 97, 95, 116, 121, 112, 101, 58, 58, 102, 117, 108, 108, 95, 108, 101, 103, 97, 99, 121]),
    ([112, 114, 117, 110, 97, 98, 108, 101, 95, 100, 97, 116, 97, 95, 116, 121, 112, 101, 58, 58, 110, 111, 110, 101], [112, 114, 117, 110, 97, 98, 108, 101, 95, 100, 97, 116, 97, 95, 116, 121, 112, 101, 58, 58, 110, 111, 110, 101]),
    ([112, 114, 117, 110, 97, 98, 108, 101, 95, 100, 97, 116, 97, 95, 116, 121, 112, 101, 58, 58, 112, 97, 114, 116, 105, 97, 108], [112, 114, 117, 110, 97, 98, 108, 101, 95, 100, 97, 116, 97, 95, 116, 121, 112, 101, 58, 58, 112, 97, 114, 116, 105, 97, 108]),
    ([112, 114, 117, 110, 97, 98, 108, 101, 95, 100, 97, 116, 97, 95, 116, 121, 112, 101, 58, 58, 102, 117, 108, 108], [112, 114, 117, 110, 97, 98, 108, 101, 95, 100, 97, 116, 97, 95, 116, 121, 112, 101, 58, 58, 102, 117, 108, 108]),
    ([115, 101, 103, 109, 101, 110, 116, 95, 116, 121, 112, 101, 91, 93], [118, 97, 114, 105, 97, 110, 116, 95, 99, 104, 101, 99, 107, 115, 117, 109, 50, 53, 54, 95, 98, 121, 116, 101, 115, 91, 93]),
    ([115, 101, 103, 109, 101, 110, 116, 95, 116, 121, 112, 101], [118, 97, 114, 105, 97, 110, 116, 95, 99, 104, 101, 99, 107, 115, 117, 109, 50, 53, 54, 95, 98, 121, 116, 101, 115]),
    ([98, 121, 116, 101, 115, 91, 93], [98, 121, 116, 101, 115, 91, 93]),
    ([112, 114, 117, 110, 97, 98, 108, 101, 95, 100, 97, 116, 97, 95, 116, 121, 112, 101, 63], [112, 114, 117, 110, 97, 98, 108, 101, 95, 100, 97, 116, 97, 95, 116, 121, 112, 101, 63]),
    ([97, 99, 116, 105, 111, 110, 95, 116, 114, 97, 99, 101, 91, 93], [118, 97, 114, 105, 97, 110, 116, 95, 97, 99, 116, 105, 111, 110, 95, 116, 114, 97, 99, 101, 95, 118, 48, 95, 97, 99, 116, 105, 111, 110, 95, 116, 114, 97, 99, 101, 95, 118, 49, 91, 93]),
    ([97, 99, 116, 105, 111, 110, 95, 116, 114, 97, 99, 101], [118, 97, 114, 105, 97, 110, 116, 95, 97, 99, 116, 105, 111, 110, 95, 116, 114, 97, 99, 101, 95, 118, 48, 95, 97, 99, 116, 105, 111, 110, 95, 116, 114, 97, 99, 101, 95, 118, 49]),
    ([97, 99, 116, 105, 111, 110, 95, 116, 114, 97, 99, 101, 95, 118, 48], [97, 99, 116, 105, 111, 110, 95, 116, 114, 97, 99, 101, 95, 118, 48]),
    ([97, 99, 116, 105, 111, 110, 95, 116, 114, 97, 99, 101, 95, 118, 49], [97, 99, 116, 105, 111, 110, 95, 116, 114, 97, 99, 101, 95, 118, 49]),
    ([97, 99, 99, 111, 117, 110, 116, 95, 100, 101, 108, 116, 97, 63], [97, 99, 99, 111, 117, 110, 116, 95, 100, 101, 108, 116, 97, 63]),
    ([97, 99, 99, 111, 117, 110, 116, 95, 100, 101, 108, 116, 97], [97, 99, 99, 111, 117, 110, 116, 95, 100, 101, 108, 116, 97]),
    ([115, 116, 114, 105, 110, 103, 63], [115, 116, 114, 105, 110, 103, 63]),
    ([115, 116, 114, 105, 110, 103], [115, 116, 114, 105, 110, 103]),
    ([117, 105, 110, 116, 54, 52, 63], [117, 105, 110, 116, 54, 52, 63]),
    ([116, 114, 97, 110, 115, 97, 99, 116, 105, 111, 110, 95, 116, 114, 97, 99, 101, 91, 93], [118, 97, 114, 105, 97, 110, 116, 95, 116, 114, 97, 110, 115, 97, 99, 116, 105, 111, 110, 95, 116, 114, 97, 99, 101, 95, 118, 48, 91, 93]),
    ([116, 114, 97, 110, 115, 97, 99, 116, 105, 111, 110, 95, 116, 114, 97, 99, 101], [118, 97, 114, 105, 97, 110, 116, 95, 116, 114, 97, 110, 115, 97, 99, 116, 105, 111, 110, 95, 116, 114, 97, 99, 101, 95, 118, 48]),
    ([116, 114, 97, 110, 115, 97, 99, 116, 105, 111, 110, 95, 116, 114, 97, 99, 101, 95, 118, 48], [116, 114, 97, 110, 115, 97, 99, 116, 105, 111, 110, 95, 116, 114, 97, 99, 101, 95, 118, 48]),
    ([112, 97, 114, 116, 105, 97, 108, 95, 116, 114, 97, 110, 115, 97, 99, 116, 105, 111, 110, 63], [118, 97, 114, 105, 97, 110, 116, 95, 112, 97, 114, 116, 105, 97, 108, 95, 116, 114, 97, 110, 115, 97, 99, 116, 105, 111, 110, 95, 118, 48, 95, 112, 97, 114, 116, 105, 97, 108, 95, 116, 114, 97, 110, 115, 97, 99, 116, 105, 111, 110, 95, 118, 49, 63]),
    ([112, 97, 114, 116, 105, 97, 108, 95, 116, 114, 97, 110, 115, 97, 99, 116, 105, 111, 110], [118, 97, 114, 105, 97, 110, 116, 95, 112, 97, 114, 116, 105, 97, 108, 95, 116, 114, 97, 110, 115, 97, 99, 116, 105, 111, 110, 95, 118, 48, 95, 112, 97, 114, 116, 105, 97, 108, 95, 116, 114, 97, 110, 115, 97, 99, 116, 105, 111, 110, 95, 118, 49]),
    ([112, 97, 114, 116, 105, 97, 108, 95, 116, 114, 97, 110, 115, 97, 99, 116, 105, 111, 110, 95, 118, 48], [112, 97, 114, 116, 105, 97, 108, 95, 116, 114, 97, 110, 115, 97, 99, 116, 105, 111, 110, 95, 118, 48]),
    ([112, 97, 114, 116, 105, 97, 108, 95, 116, 114, 97, 110, 115, 97, 99, 116, 105, 111, 110, 95, 118, 49], [112, 97, 114, 116, 105, 97, 108, 95, 116, 114, 97, 110, 115, 97, 99, 116, 105, 111, 110, 95, 118, 49]),
    ([112, 114, 111, 100, 117, 99, 101, 114, 95, 107, 101, 121, 91, 93], [112, 114, 111, 100, 117, 99, 101, 114, 95, 107, 101, 121, 91, 93]),
    ([112, 114, 111, 100, 117, 99, 101, 114, 95, 107, 101, 121], [112, 114, 111, 100, 117, 99, 101, 114, 95, 107, 101, 121]),
    ([115, 105, 103, 110, 97, 116, 117, 114, 101, 91, 93], [115, 105, 103, 110, 97, 116, 117, 114, 101, 91, 93]),
    ([112, 114, 117, 110, 97, 98, 108, 101, 95, 100, 97, 116, 97, 95, 116, 121, 112, 101], [112, 114, 117, 110, 97, 98, 108, 101, 95, 100, 97, 116, 97, 95, 116, 121, 112, 101]),
    ([116, 114, 97, 110, 115, 97, 99, 116, 105, 111, 110, 95, 118, 97, 114, 105, 97, 110, 116, 95, 118, 48], [118, 97, 114, 105, 97, 110, 116, 95, 99, 104, 101, 99, 107, 115, 117, 109, 50, 53, 54, 95, 112, 97, 99, 107, 101, 100, 95, 116, 114, 97, 110, 115, 97, 99, 116, 105, 111, 110, 95, 118, 48]),
    ([112, 97, 99, 107, 101, 100, 95, 116, 114, 97, 110, 115, 97, 99, 116, 105, 111, 110, 95, 118, 48], [112, 97, 99, 107, 101, 100, 95, 116, 114, 97, 110, 115, 97, 99, 116, 105, 111, 110, 95, 118, 48]),
    ([116, 114, 97, 110, 115, 97, 99, 116, 105, 111, 110, 95, 118, 97, 114, 105, 97, 110, 116], [118, 97, 114, 105, 97, 110, 116, 95, 99, 104, 101, 99, 107, 115, 117, 109, 50, 53, 54, 95, 112, 97, 99, 107, 101, 100, 95, 116, 114, 97, 110, 115, 97, 99, 116, 105, 111, 110]),
    ([112, 97, 99, 107, 101, 100, 95, 116, 114, 97, 110, 115, 97, 99, 116, 105, 111, 110], [112, 97, 99, 107, 101, 100, 95, 116, 114, 97, 110, 115, 97, 99, 116, 105, 111, 110]),
    ([116, 114, 97, 110, 115, 97, 99, 116, 105, 111, 110, 95, 114, 101, 99, 101, 105, 112, 116, 95, 118, 48, 91, 93], [116, 114, 97, 110, 115, 97, 99, 116, 105, 111, 110, 95, 114, 101, 99, 101, 105, 112, 116, 95, 118, 48, 91, 93]),
    ([116, 114, 97, 110, 115, 97, 99, 116, 105, 111, 110, 95, 114, 101, 99, 101, 105, 112, 116, 95, 118, 48], [116, 114, 97, 110, 115, 97, 99, 116, 105, 111, 110, 95, 114, 101, 99, 101, 105, 112, 116, 95, 118, 48]),
    ([112, 114, 111, 100, 117, 99, 101, 114, 95, 115, 99, 104, 101, 100, 117, 108, 101, 63], [112, 114, 111, 100, 117, 99, 101, 114, 95, 115, 99, 104, 101, 100, 117, 108, 101, 63]),
    ([115, 105, 103, 110, 97, 116, 117, 114, 101], [115, 105, 103, 110, 97, 116, 117, 114, 101]),
    ([116, 114, 97, 110, 115, 97, 99, 116, 105, 111, 110, 95, 114, 101, 99, 101, 105, 112, 116, 91, 93], [116, 114, 97, 110, 115, 97, 99, 116, 105, 111, 110, 95, 114, 101, 99, 101, 105, 112, 116, 91, 93]),
    ([116, 114, 97, 110, 115, 97, 99, 116, 105, 111, 110, 95, 114, 101, 99, 101, 105, 112, 116], [116, 114, 97, 110, 115, 97, 99, 116, 105, 111, 110, 95, 114, 101, 99, 101, 105, 112, 116]),
    ([98, 108, 111, 99, 107, 95, 112, 111, 115, 105, 116, 105, 111, 110, 63], [98, 108, 111, 99, 107, 95, 112, 111, 115, 105, 116, 105, 111, 110, 63]),
    ([98, 108, 111, 99, 107, 95, 112, 111, 115, 105, 116, 105, 111, 110], [98, 108, 111, 99, 107, 95, 112, 111, 115, 105, 116, 105, 111, 110]),
    ([115, 105, 103, 110, 101, 100, 95, 98, 108, 111, 99, 107, 95, 118, 97, 114, 105, 97, 110, 116, 63], [118, 97, 114, 105, 97, 110, 116, 95, 115, 105, 103, 110, 101, 100, 95, 98, 108, 111, 99, 107, 95, 118, 48, 95, 115, 105, 103, 110, 101, 100, 95, 98, 108, 111, 99, 107, 95, 118, 49, 63]),
    ([115, 105, 103, 110, 101, 100, 95, 98, 108, 111, 99, 107, 95, 118, 97, 114, 105, 97, 110, 116], [118, 97, 114, 105, 97, 110, 116, 95, 115, 105, 103, 110, 101, 100, 95, 98, 108, 111, 99, 107, 95, 118, 48, 95, 115, 105, 103, 110, 101, 100, 95, 98, 108, 111, 99, 107, 95, 118, 49]),
    ([115, 105, 103, 110, 101, 100, 95, 98, 108, 111, 99, 107, 95, 118, 48], [115, 105, 103, 110, 101, 100, 95, 98, 108, 111, 99, 107, 95, 118, 48]),
    ([115, 105, 103, 110, 101, 100, 95, 98, 108, 111, 99, 107, 95, 118, 49], [115, 105, 103, 110, 101, 100, 95, 98, 108, 111, 99, 107, 95, 118, 49]),
    ([116, 105, 109, 101, 95, 112, 111, 105, 110, 116, 95, 115, 101, 99], [116, 105, 109, 101, 95, 112, 111, 105, 110, 116, 95, 115, 101, 99]),
    ([118, 97, 114, 117, 105, 110, 116, 51, 50], [118, 97, 114, 117, 105, 110, 116, 51, 50]),
    ([97, 99, 116, 105, 111, 110, 91, 93], [97, 99, 116, 105, 111, 110, 91, 93]),
    ([97, 99, 116, 105, 111, 110], [97, 99, 116, 105, 111, 110]),
    ([101, 120, 116, 101, 110, 115, 105, 111, 110, 91, 93], [101, 120, 116, 101, 110, 115, 105, 111, 110, 91, 93]),
    ([101, 120, 116, 101, 110, 115, 105, 111, 110], [101, 120, 116, 101, 110, 115, 105, 111, 110]),
    ([98, 108, 111, 99, 107, 95, 116, 105, 109, 101, 115, 116, 97, 109, 112, 95, 116, 121, 112, 101], [98, 108, 111, 99, 107, 95, 116, 105, 109, 101, 115, 116, 97, 109, 112, 95, 116, 121, 112, 101]),
    ([98, 111, 111, 108], [98, 111, 111, 108]),
    ([99, 111, 100, 101, 95, 105, 100, 63], [99, 111, 100, 101, 95, 105, 100, 63]),
    ([99, 111, 100, 101, 95, 105, 100], [99, 111, 100, 101, 95, 105, 100]),
    ([117, 105, 110, 116, 56], [117, 105, 110, 116, 56]),
    ([102, 108, 111, 97, 116, 54, 52], [102, 108, 111, 97, 116, 54, 52]),
    ([102, 108, 111, 97, 116, 49, 50, 56], [102, 108, 111, 97, 116, 49, 50, 56]),
    ([112, 117, 98, 108, 105, 99, 95, 107, 101, 121], [112, 117, 98, 108, 105, 99, 95, 107, 101, 121]),
    ([98, 108, 111, 99, 107, 95, 115, 105, 103, 110, 105, 110, 103, 95, 97, 117, 116, 104, 111, 114, 105, 116, 121], [118, 97, 114, 105, 97, 110, 116, 95, 98, 108, 111, 99, 107, 95, 115, 105, 103, 110, 105, 110, 103, 95, 97, 117, 116, 104, 111, 114, 105, 116, 121, 95, 118, 48]),
    ([98, 108, 111, 99, 107, 95, 115, 105, 103, 110, 105, 110, 103, 95, 97, 117, 116, 104, 111, 114, 105, 116, 121, 95, 118, 48], [98, 108, 111, 99, 107, 95, 115, 105, 103, 110, 105, 110, 103, 95, 97, 117, 116, 104, 111, 114, 105, 116, 121, 95, 118, 48]),
    ([112, 114, 111, 100, 117, 99, 101, 114, 95, 97, 117, 116, 104, 111, 114, 105, 116, 121, 91, 93], [112, 114, 111, 100, 117, 99, 101, 114, 95, 97, 117, 116, 104, 111, 114, 105, 116, 121, 91, 93]),
    ([112, 114, 111, 100, 117, 99, 101, 114, 95, 97, 117, 116, 104, 111, 114, 105, 116, 121], [112, 114, 111, 100, 117, 99, 101, 114, 95, 97, 117, 116, 104, 111, 114, 105, 116, 121]),
    ([112, 114, 111, 100, 117, 99, 101, 114, 95, 115, 99, 104, 101, 100, 117, 108, 101], [112, 114, 111, 100, 117, 99, 101, 114, 95, 115, 99, 104, 101, 100, 117, 108, 101]),
    ([117, 105, 110, 116, 51, 50, 63], [117, 105, 110, 116, 51, 50, 63]),
    ([112, 114, 111, 100, 117, 99, 101, 114, 95, 97, 117, 116, 104, 111, 114, 105, 116, 121, 95, 115, 99, 104, 101, 100, 117, 108, 101], [112, 114, 111, 100, 117, 99, 101, 114, 95, 97, 117, 116, 104, 111, 114, 105, 116, 121, 95, 115, 99, 104, 101, 100, 117, 108, 101]),
    ([99, 104, 97, 105, 110, 95, 99, 111, 110, 102, 105, 103], [118, 97, 114, 105, 97, 110, 116, 95, 99, 104, 97, 105, 110, 95, 99, 111, 110, 102, 105, 103, 95, 118, 48]),
    ([99, 104, 97, 105, 110, 95, 99, 111, 110, 102, 105, 103, 95, 118, 48], [99, 104, 97, 105, 110, 95, 99, 111, 110, 102, 105, 103, 95, 118, 48]),
    ([117, 105, 110, 116, 49, 50, 56], [117, 105, 110, 116, 49, 50, 56]),
    ([98, 121, 116, 101, 115], [98, 121, 116, 101, 115]),
    ([99, 104, 101, 99, 107, 115, 117, 109, 50, 53, 54], [99, 104, 101, 99, 107, 115, 117, 109, 50, 53, 54]),
    ([97, 99, 116, 105, 118, 97, 116, 101, 100, 95, 112, 114, 111, 116, 111, 99, 111, 108, 95, 102, 101, 97, 116, 117, 114, 101, 91, 93], [118, 97, 114, 105, 97, 110, 116, 95, 97, 99, 116, 105, 118, 97, 116, 101, 100, 95, 112, 114, 111, 116, 111, 99, 111, 108, 95, 102, 101, 97, 116, 117, 114, 101, 95, 118, 48, 91, 93]),
    ([97, 99, 116, 105, 118, 97, 116, 101, 100, 95, 112, 114, 111, 116, 111, 99, 111, 108, 95, 102, 101, 97, 116, 117, 114, 101], [118, 97, 114, 105, 97, 110, 116, 95, 97, 99, 116, 105, 118, 97, 116, 101, 100, 95, 112, 114, 111, 116, 111, 99, 111, 108, 95, 102, 101, 97, 116, 117, 114, 101, 95, 118, 48]),
    ([97, 99, 116, 105, 118, 97, 116, 101, 100, 95, 112, 114, 111, 116, 111, 99, 111, 108, 95, 102, 101, 97, 116, 117, 114, 101, 95, 118, 48], [97, 99, 116, 105, 118, 97, 116, 101, 100, 95, 112, 114, 111, 116, 111, 99, 111, 108, 95, 102, 101, 97, 116, 117, 114, 101, 95, 118, 48]),
    ([112, 101, 114, 109, 105, 115, 115, 105, 111, 110, 95, 108, 101, 118, 101, 108], [112, 101, 114, 109, 105, 115, 115, 105, 111, 110, 95, 108, 101, 118, 101, 108]),
    ([117, 105, 110, 116, 49, 54], [117, 105, 110, 116, 49, 54]),
    ([107, 101, 121, 95, 119, 101, 105, 103, 104, 116, 91, 93], [107, 101, 121, 95, 119, 101, 105, 103, 104, 116, 91, 93]),
    ([107, 101, 121, 95, 119, 101, 105, 103, 104, 116], [107, 101, 121, 95, 119, 101, 105, 103, 104, 116]),
    ([112, 101, 114, 109, 105, 115, 115, 105, 111, 110, 95, 108, 101, 118, 101, 108, 95, 119, 101, 105, 103, 104, 116, 91, 93], [112, 101, 114, 109, 105, 115, 115, 105, 111, 110, 95, 108, 101, 118, 101, 108, 95, 119, 101, 105, 103, 104, 116, 91, 93]),
    ([112, 101, 114, 109, 105, 115, 115, 105, 111, 110, 95, 108, 101, 118, 101, 108, 95, 119, 101, 105, 103, 104, 116], [112, 101, 114, 109, 105, 115, 115, 105, 111, 110, 95, 108, 101, 118, 101, 108, 95, 119, 101, 105, 103, 104, 116]),
    ([119, 97, 105, 116, 95, 119, 101, 105, 103, 104, 116, 91, 93], [119, 97, 105, 116, 95, 119, 101, 105, 103, 104, 116, 91, 93]),
    ([119, 97, 105, 116, 95, 119, 101, 105, 103, 104, 116], [119, 97, 105, 116, 95, 119, 101, 105, 103, 104, 116]),
    ([116, 105, 109, 101, 95, 112, 111, 105, 110, 116], [116, 105, 109, 101, 95, 112, 111, 105, 110, 116]),
    ([97, 117, 116, 104, 111, 114, 105, 116, 121], [97, 117, 116, 104, 111, 114, 105, 116, 121]),
    ([105, 110, 116, 54, 52], [105, 110, 116, 54, 52]),
    ([110, 97, 109, 101], [110, 97, 109, 101]),
    ([117, 115, 97, 103, 101, 95, 97, 99, 99, 117, 109, 117, 108, 97, 116, 111, 114], [118, 97, 114, 105, 97, 110, 116, 95, 117, 115, 97, 103, 101, 95, 97, 99, 99, 117, 109, 117, 108, 97, 116, 111, 114, 95, 118, 48]),
    ([117, 115, 97, 103, 101, 95, 97, 99, 99, 117, 109, 117, 108, 97, 116, 111, 114, 95, 118, 48], [117, 115, 97, 103, 101, 95, 97, 99, 99, 117, 109, 117, 108, 97, 116, 111, 114, 95, 118, 48]),
    ([117, 105, 110, 116, 54, 52], [117, 105, 110, 116, 54, 52]),
    ([114, 101, 115, 111, 117, 114, 99, 101, 95, 108, 105, 109, 105, 116, 115, 95, 114, 97, 116, 105, 111], [118, 97, 114, 105, 97, 110, 116, 95, 114, 101, 115, 111, 117, 114, 99, 101, 95, 108, 105, 109, 105, 116, 115, 95, 114, 97, 116, 105, 111, 95, 118, 48]),
    ([114, 101, 115, 111, 117, 114, 99, 101, 95, 108, 105, 109, 105, 116, 115, 95, 114, 97, 116, 105, 111, 95, 118, 48], [114, 101, 115, 111, 117, 114, 99, 101, 95, 108, 105, 109, 105, 116, 115, 95, 114, 97, 116, 105, 111, 95, 118, 48]),
    ([101, 108, 97, 115, 116, 105, 99, 95, 108, 105, 109, 105, 116, 95, 112, 97, 114, 97, 109, 101, 116, 101, 114, 115], [118, 97, 114, 105, 97, 110, 116, 95, 101, 108, 97, 115, 116, 105, 99, 95, 108, 105, 109, 105, 116, 95, 112, 97, 114, 97, 109, 101, 116, 101, 114, 115, 95, 118, 48]),
    ([101, 108, 97, 115, 116, 105, 99, 95, 108, 105, 109, 105, 116, 95, 112, 97, 114, 97, 109, 101, 116, 101, 114, 115, 95, 118, 48], [101, 108, 97, 115, 116, 105, 99, 95, 108, 105, 109, 105, 116, 95, 112, 97, 114, 97, 109, 101, 116, 101, 114, 115, 95, 118, 48]),
    ([117, 105, 110, 116, 51, 50], [117, 105, 110, 116, 51, 50])]

end Ship
end Abieos
