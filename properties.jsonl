{"id": "C01", "title": "varuint32 round trip and bounded read", "statement": "Writing any 32-bit value as varuint32 and reading it back (with arbitrary bytes after it) returns that value and leaves exactly the following bytes unread; the encoding has between 1 and 5 bytes and is the shortest one that decodes to the value; the writer refuses every value >= 2^32. The reader never consumes more than 5 bytes, and on truncated or over-long input it reports an error.", "quantifier": "all values < 2^64, all input byte strings, all suffixes", "why_tests_cant": "2^32 values times all continuations; non-canonical encodings are rarely sampled", "anchors": ["include/eosio/from_bin.hpp: varuint32_from_bin", "include/eosio/to_bin.hpp: varuint32_to_bin", "include/eosio/varint.hpp"]}
{"id": "C02", "title": "varint32 round trip", "statement": "Writing any signed 32-bit value as varint32 (zig-zag) and reading it back returns that value and leaves the following bytes unread; every 32-bit zig-zag image is hit exactly once (the mapping is a bijection) so small magnitudes get short encodings.", "quantifier": "all signed 32-bit values, all suffixes", "why_tests_cant": "2^32 values incl. both boundaries", "anchors": ["include/eosio/from_bin.hpp: varint32_from_bin", "include/eosio/varint.hpp: to_bin(varint32)"]}
{"id": "C03", "title": "hex text round trip and exact acceptance", "statement": "Encoding any byte string as hex and decoding it gives back the bytes. The decoder accepts a text iff it has even length and only hex digits of either case, and re-encoding an accepted text gives its upper-case form.", "quantifier": "all byte strings, all texts", "why_tests_cant": "infinite domain", "anchors": ["include/eosio/from_json.hpp: unhex, from_json_hex", "include/eosio/to_json.hpp: to_json_hex", "src/abieos.hpp: hex, unhex"]}
{"id": "C04", "title": "account name text round trip", "statement": "For every 64-bit name value, converting to text and back (strict and lenient conversion) gives the same value; for every text accepted by the strict conversion, converting to a value and back gives the text up to trailing dots. Distinct values print differently.", "quantifier": "all 2^64 name values and all texts", "why_tests_cant": "2^64 values; the 13th character is packed in 4 bits", "anchors": ["include/eosio/chain_conversions.hpp: name_to_string, string_to_name, string_to_name_strict, try_string_to_name_strict", "include/eosio/name.hpp"]}
{"id": "C05", "title": "strict name parser accepts exactly the documented texts", "statement": "string_to_name_strict accepts a text iff it is at most 13 characters from .12345a-z, with the 13th (if any) from .1-5a-j, and the lenient converter agrees with it on every accepted text. The C API lenient converter is total: any other character counts as '.'. A compile-time literal \"...\"_n compiles exactly for the texts the strict converter accepts, and is the same name.", "quantifier": "all texts", "why_tests_cant": "infinite set of texts", "anchors": ["include/eosio/name.hpp: operator\"\"_n, name::char_to_value", "include/eosio/chain_conversions.hpp: string_to_name_strict, try_string_to_name_strict, string_to_name", "src/abieos.cpp: abieos_string_to_name"]}
{"id": "C06", "title": "name order is text order", "statement": "Comparing two names as 64-bit integers gives the same answer as comparing their texts (padded with dots) lexicographically in the alphabet order . 1-5 a-z.", "quantifier": "all pairs of 64-bit names", "why_tests_cant": "2^128 pairs", "anchors": ["include/eosio/chain_conversions.hpp: string_to_name, name_to_string", "include/eosio/name.hpp: operator<"]}
{"id": "C07", "title": "symbol code and symbol text round trip", "statement": "Every symbol code made of 1..7 upper-case letters prints to text that parses back to it, and every text accepted as a symbol code prints back to itself (modulo skipped leading blanks). A symbol with precision p and code c prints as 'p,c' and parses back. symbol::is_valid holds exactly for codes of 1..7 letters followed only by zero bytes.", "quantifier": "all 64-bit raw symbol values, all texts", "why_tests_cant": "2^64 raw values", "anchors": ["include/eosio/chain_conversions.hpp: string_to_symbol_code, symbol_code_to_string, string_to_symbol, symbol_to_string", "include/eosio/symbol.hpp: symbol_code, symbol, is_valid, length"]}
{"id": "C08", "title": "asset text round trip", "statement": "For every signed 64-bit amount other than -2^63 and every valid symbol, printing the asset and parsing the text gives back the same amount and symbol.", "quantifier": "all amounts in (-2^63, 2^63), all precisions 0..255, all valid symbol codes", "why_tests_cant": "amount x precision space is 2^72", "anchors": ["include/eosio/chain_conversions.hpp: asset_to_string, string_to_asset", "include/eosio/asset.hpp: to_json, from_json"]}
{"id": "C09", "title": "asset arithmetic is exact or rejected", "statement": "For two assets within +-(2^62-1), + - and * / by an integer either return the exact mathematical result (division truncated toward zero), which is again within +-(2^62-1) with the same symbol, or throw; they throw exactly when symbols differ, the exact result is out of range, or the divisor is zero. No signed overflow occurs on the way. Any sequence of such operations keeps the invariant. Extended assets behave the same and additionally throw for different contracts; only == on them compares the contracts instead of throwing.", "quantifier": "all amounts, symbols and multipliers; all operation histories", "why_tests_cant": "overflow corners in a 2^128 space; invariants over histories", "anchors": ["include/eosio/asset.hpp: asset::operator+=, -=, *=, /=, is_amount_within_range, is_valid, extended_asset"]}
{"id": "C10", "title": "calendar conversion is a bijection", "statement": "Converting a day number to year-month-day and back gives the day number, and converting any valid proleptic-Gregorian date (given by the usual leap-year and month-length rules) to a day number and back gives the date; consecutive days map to consecutive dates.", "quantifier": "all days and all valid dates in the supported range", "why_tests_cant": "millions of dates, leap-century corner cases", "anchors": ["include/eosio/chain_conversions.hpp: year_month_day::from_days, to_days"]}
{"id": "C11", "title": "time text round trip", "statement": "Printing a time_point_sec, a block_timestamp or (to millisecond precision) a time_point and parsing the text gives the same instant, for every instant that fits the 32-bit seconds range the parser uses.", "quantifier": "all 2^32 seconds, all 2^32 slots, all microsecond instants in that range", "why_tests_cant": "2^32..2^52 values", "anchors": ["include/eosio/chain_conversions.hpp: microseconds_to_str, string_to_utc_seconds, string_to_utc_microseconds", "include/eosio/time.hpp"]}
{"id": "C12", "title": "block timestamp slot conversion", "statement": "slot -> time_point -> slot is the identity for every slot; slot -> time_point_sec -> slot rounds to whole seconds; time -> slot -> time never moves by a full slot; slots are monotone in time; next() either gives the slot 500ms later or throws.", "quantifier": "all slots and time points", "why_tests_cant": "2^32 slots, 2^63 microsecond values", "anchors": ["include/eosio/time.hpp: block_timestamp"]}
{"id": "C13", "title": "base58 round trip", "statement": "Encoding any byte string to base58 and decoding gives back exactly those bytes, including leading zero bytes; every accepted text built from the base58 alphabet re-encodes to itself.", "quantifier": "all byte strings, all texts over the alphabet", "why_tests_cant": "arbitrary length carry propagation", "anchors": ["src/crypto.cpp: base58_to_binary, binary_to_base58, to_base58, from_base58"]}
{"id": "C14", "title": "key text round trip", "statement": "For every public key (K1, R1, WebAuthn), private key (K1, R1) and signature, printing and parsing gives back the same value, whatever the digest function is. The binary form and the text of every kind of key are exactly the documented ones: K1 and R1 public keys of 33 bytes, private keys of 32, signatures of 65, WebAuthn keys and signatures with their further fields; the text is the prefix of the kind and base 58 of the key with the first four bytes of the digest of key and kind.", "quantifier": "all keys of each alternative", "why_tests_cant": "2^264 keys", "anchors": ["src/crypto.cpp: public_key_to_string, public_key_from_string, private_key_to_string, private_key_from_string, signature_to_string, signature_from_string"]}
{"id": "C15", "title": "key text checksum is enforced", "statement": "A PUB_*, PVT_* or SIG_* text, or an EOS... text, is accepted only if its last four decoded bytes are the checksum of the payload and suffix; parsing a text whose checksum does not match always fails. (The legacy private key format, without a prefix, carries a checksum which the library does not verify; it is accepted exactly if it decodes to at least 37 bytes.)", "quantifier": "all texts", "why_tests_cant": "infinite set of corrupted texts", "anchors": ["src/crypto.cpp: string_to_key, digest_suffix_ripemd160, public_key_from_string, private_key_from_string, signature_from_string"]}
{"id": "C16", "title": "integer JSON parsing is exact", "statement": "Parsing a JSON integer of any width and signedness returns the mathematical value of the digits iff it is in the range of the type, and fails otherwise (never wraps); printing an integer and parsing it returns the integer. Integers wider than 32 bits are printed in quotes, others without.", "quantifier": "all digit strings of any length, all widths 8..128 and both signs", "why_tests_cant": "unbounded digit strings; overflow check per digit", "anchors": ["include/eosio/from_json.hpp: from_json_int", "include/eosio/to_json.hpp: int_to_json"]}
{"id": "C17", "title": "128-bit decimal conversion", "statement": "decimal_to_binary returns the little-endian bytes of the decimal number iff it fits the array and consists of digits, else fails; binary_to_decimal followed by decimal_to_binary is the identity; negation is two's complement. Without native 128-bit integers, the JSON text of a 128-bit integer is accepted iff it is the decimal text of a number in range (signed: -0 is refused), and printing gives the decimal text of the value.", "quantifier": "all digit strings, all fixed sizes, all byte arrays", "why_tests_cant": "unbounded strings and 2^128 values", "anchors": ["include/eosio/abieos_numeric.hpp: decimal_to_binary, binary_to_decimal, negate, is_negative"]}
{"id": "C18", "title": "JSON strings are always well-formed", "statement": "Whatever bytes a string contains, its JSON rendering is a syntactically valid JSON string in valid UTF-8; reading it back with a standard JSON reader gives the original string whenever that was valid UTF-8 (and a '?'-patched one otherwise).", "quantifier": "all byte strings", "why_tests_cant": "arbitrary malformed UTF-8", "anchors": ["include/eosio/to_json.hpp: to_json(std::string_view)"]}
{"id": "C19", "title": "database keys preserve order", "statement": "For two values a, b of the same key type with no NaN in them, convert_to_key(a) < convert_to_key(b) as byte strings exactly when a < b in the C++ order of the type (numbers, strings, containers, optionals, variants and structs compared field by field). Keys exist for every value and are appended to the given vector.", "quantifier": "all key types built from ints, bools, strings, floats, optionals, pairs/tuples, vectors/sets/maps, variants and all values", "why_tests_cant": "nested containers with embedded zero bytes; infinite domain", "anchors": ["include/eosio/to_key.hpp"]}
{"id": "C20", "title": "database keys are prefix free", "statement": "The key of one value is never a proper prefix of the key of another value of the same type, so keys can be concatenated; two values have the same key exactly when neither is less than the other, and without floating-point numbers in the type (0 and -0) that means the values are equal.", "quantifier": "all key types, all value pairs", "why_tests_cant": "infinite domain", "anchors": ["include/eosio/to_key.hpp"]}
{"id": "C21", "title": "native binary serialization round trip", "statement": "For every reflected C++ type built from the supported constructors (ints, bool, varints, string, bytes, optional, vector, array, set, map, pair/tuple/struct, variant), convert_to_bin followed by convert_from_bin returns the value and consumes exactly the bytes written.", "quantifier": "all types in the universe and all values", "why_tests_cant": "infinite type and value space", "anchors": ["include/eosio/to_bin.hpp", "include/eosio/from_bin.hpp"]}
{"id": "C22", "title": "size pass equals write pass", "statement": "convert_to_bin computes a buffer size in a first pass and writes in a second: the second pass never overruns the buffer and fills it completely, for every value; same for convert_to_key and convert_to_json.", "quantifier": "all values of all supported types", "why_tests_cant": "memory-safety for every value", "anchors": ["include/eosio/to_bin.hpp: convert_to_bin", "include/eosio/to_key.hpp: convert_to_key", "include/eosio/to_json.hpp: convert_to_json", "include/eosio/stream.hpp: size_stream, fixed_buf_stream"]}
{"id": "C23", "title": "binary readers stay within the input", "statement": "Reading any supported type from any byte string either fails or returns a value together with a suffix of the input: no read passes the end of the buffer.", "quantifier": "all types, all (malformed) byte strings", "why_tests_cant": "adversarial inputs", "anchors": ["include/eosio/from_bin.hpp", "include/eosio/stream.hpp: input_stream"]}
{"id": "C24", "title": "ABI loading resolves everything or fails", "statement": "Loading an ABI definition either throws, or yields a type table where every entry is resolved: no unresolved alias, struct or variant definition remains, every type reference points to an existing non-alias entry with a serializer, and optional/array/extension wrappers are nested only in the permitted ways. Loading terminates for every definition, cyclic ones included; cyclic aliases and cyclic inheritance are always rejected.", "quantifier": "all ABI definitions (arbitrary graphs of aliases, structs, bases, variants)", "why_tests_cant": "arbitrary cyclic graphs, depth limits", "anchors": ["src/abi.cpp: convert(abi_def, abi), get_type, resolve, fill"]}
{"id": "C25", "title": "ABI loading: struct fields are base fields then own fields", "statement": "After a successful load, the fields of each struct are the fields of its base (recursively) followed by its own fields in order, variants list their alternatives in order, and every alias denotes the type its chain ends in; each field's type is the one its type string denotes.", "quantifier": "all ABI definitions", "why_tests_cant": "arbitrary inheritance chains, resolution order of the type map", "anchors": ["src/abi.cpp: resolve, get_type"]}
{"id": "C26", "title": "later type lookups do not disturb a loaded ABI", "statement": "Looking up any type string on a loaded ABI (which may add T?, T[], T$ entries) keeps all earlier entries unchanged, keeps the table resolved, and the same lookup later gives the same answer.", "quantifier": "all loaded ABIs, all lookup histories", "why_tests_cant": "histories of lookups", "anchors": ["src/abi.cpp: abi::get_type, get_type", "src/abieos.cpp: abieos_json_to_bin"]}
{"id": "C27", "title": "ABI JSON -> binary -> JSON -> binary", "statement": "For every loaded ABI (extensions last, distinct field names) and type, if json_to_bin (ordered or reorderable) accepts a JSON document nested at most 128 deep and yields bytes b, and no scalar loses information when encoded (time_point to the millisecond, asset amounts other than -2^63, floats the C library reads back), then bin_to_json accepts b completely, and the JSON it yields is accepted by both json_to_bin conversions and yields exactly b again.", "quantifier": "all ABIs, types (recursive ones too), JSON documents", "why_tests_cant": "infinite type/value space, recursion, extensions", "anchors": ["src/abieos.hpp: json_to_bin, bin_to_json"]}
{"id": "C28", "title": "ABI binary -> JSON -> binary is stable", "statement": "If bin_to_json accepts bytes b and yields JSON t, and the scalars in t are texts the library takes back (times 1970-2106, symbols with a proper code, floats the C library reads back), then json_to_bin accepts t and the bytes it yields decode to the same JSON t; if b was itself produced by json_to_bin, the bytes are exactly b.", "quantifier": "all ABIs, types, byte strings", "why_tests_cant": "non-canonical binary inputs", "anchors": ["src/abieos.hpp: bin_to_json, json_to_bin"]}
{"id": "C29", "title": "ordered and reorderable conversion agree", "statement": "If the ordered conversion accepts a document whose keys are unique, the reorderable one accepts it with the same bytes; conversely if the reorderable one accepts a document whose fields are in ABI order without unknown keys, the ordered one gives the same bytes.", "quantifier": "all ABIs whose extension fields are trailing, types, documents within the depth limit", "why_tests_cant": "two separately written stack machines", "anchors": ["src/abieos.hpp: json_to_bin (jvalue), json_to_bin (json_to_bin_state), json_to_jvalue"]}
{"id": "C30", "title": "reorderable conversion ignores key order and unknown keys", "statement": "Permuting the members of any objects in a document, or adding members the ABI does not mention, never changes the result (bytes or failure) of json_to_bin_reorderable.", "quantifier": "all ABIs, documents, permutations at all nesting levels", "why_tests_cant": "all permutations", "anchors": ["src/abieos.hpp: json_to_jvalue, json_to_bin(pseudo_object*, jvalue_to_bin_state&)"]}
{"id": "C31", "title": "bin_to_json emits well-formed JSON", "statement": "Whenever bin_to_json succeeds for an ABI whose binary extensions come last in each struct, its output is exactly one well-formed JSON document.", "quantifier": "all ABIs, types, byte strings", "why_tests_cant": "arbitrary binaries; extension skipping", "anchors": ["src/abieos.hpp: bin_to_json"]}
{"id": "C32", "title": "conversions terminate on every input", "statement": "json_to_bin, json_to_bin_reorderable and bin_to_json finish after finitely many steps on every loaded ABI and every input, including ABIs with infinitely recursive types, with a unique result; the ordered conversion finishes within a number of steps linear in the number of JSON tokens.", "quantifier": "all ABIs, inputs", "why_tests_cant": "non-termination is not observable by tests", "anchors": ["src/abieos.hpp: json_to_bin, bin_to_json drivers"]}
{"id": "C33", "title": "nesting depth limit", "statement": "During ordered json_to_bin and bin_to_json the work stack never holds more than 129 entries, a conversion that needs more than 128 nested containers fails with recursion_limit_reached, and one that needs at most 128 is not refused for depth.", "quantifier": "all ABIs, inputs", "why_tests_cant": "deep adversarial inputs", "anchors": ["src/abieos.hpp: max_stack_size, drivers"]}
{"id": "C34", "title": "decoding consumes exactly the value", "statement": "bin_to_json reads only a prefix of its input and leaves the rest; its result does not depend on the bytes after that prefix (for ABIs with binary extensions: as long as there are some in both cases, or none in both).", "quantifier": "all ABIs, types, inputs and suffixes", "why_tests_cant": "all suffixes", "anchors": ["src/abieos.hpp: bin_to_json", "src/abieos.cpp: abieos_bin_to_json"]}
{"id": "C35", "title": "extensions may be omitted only at the tail", "statement": "json_to_bin accepts an object that omits a field only if that field is a binary extension at the tail of the top-level value, and then nothing is serialized after it; with all extensions present the result is the same as if the fields were ordinary.", "quantifier": "all ABIs, documents", "why_tests_cant": "nesting of allow_extensions through optionals, variants and structs", "anchors": ["src/abieos.hpp: pseudo_object, pseudo_extension, skipped_extension"]}
{"id": "C36", "title": "array length prefixes in streaming conversion", "statement": "The ordered conversion writes array elements first and splices the length prefixes afterwards; the result always equals writing each array as its element count followed by its elements, however arrays nest.", "quantifier": "all documents, nesting patterns", "why_tests_cant": "nested insertion positions", "anchors": ["src/abieos.hpp: json_to_bin driver, size_insertions"]}
{"id": "C37", "title": "duplicate JSON keys", "statement": "In the reorderable conversion, when a key is repeated in an object the last value wins; in the ordered conversion a repeated key is rejected unless the ABI repeats the field.", "quantifier": "all documents", "why_tests_cant": "all documents", "anchors": ["src/abieos.hpp: json_to_jobject, json_to_bin"]}
{"id": "C38", "title": "C API: errors never crash and are reported", "statement": "With a null context no entry point does anything but return its failure value (string_to_name, which needs no context, still converts); on a context every call returns, whatever came before; loads and queries have defined behaviour for every argument; whenever a call returns its failure value, abieos_get_error gives a non-empty text; a failed load changes neither the loaded contracts nor the binary result.", "quantifier": "all call sequences", "why_tests_cant": "histories", "anchors": ["src/abieos.cpp: handle_exceptions, set_error, abieos_get_error, abieos_set_abi*"]}
{"id": "C39", "title": "C API: contracts are isolated", "statement": "Loading an ABI for one contract never changes conversion results for another; conversions depend only on the ABI first loaded under that contract name and the arguments, not on the call history.", "quantifier": "all call sequences", "why_tests_cant": "histories", "anchors": ["src/abieos.cpp: abieos_set_abi, abieos_set_abi_bin, abieos_json_to_bin, abieos_bin_to_json"]}
{"id": "C40", "title": "C API: result buffers", "statement": "After a successful json_to_bin, abieos_get_bin_size/data/hex describe exactly the bytes of that conversion until the next conversion from JSON on the context, whatever other calls are made; after a failed conversion there are either no bytes, or (contract or type unknown) the bytes from before the call, never part of the new value; hex_to_json of the hex text does the same as bin_to_json of the bytes.", "quantifier": "all call sequences", "why_tests_cant": "histories", "anchors": ["src/abieos.cpp: abieos_get_bin_size, abieos_get_bin_data, abieos_get_bin_hex, abieos_json_to_bin"]}
{"id": "C41", "title": "ABI definition binary round trip", "statement": "Serializing any ABI definition to binary (abi_def format, including the optional trailing variants section) and reading it back gives the same definition; a definition stored without trailing sections is read as having none.", "quantifier": "all ABI definitions", "why_tests_cant": "infinite", "anchors": ["include/eosio/abi.hpp: abi_def, might_not_exist", "src/abieos.cpp: abieos_set_abi_bin"]}
{"id": "C42", "title": "loaded ABI can be exported", "statement": "Converting a loaded ABI's types back to a definition never fails, and the definition loads again. Every type text then denotes the same type as before, and each type has the same structure, except that the alternatives of a variant are named by the types they denote (an alternative given by a typedef loses its name). If no variant lists a typedef, every conversion in every direction gives the same result as with the original ABI.", "quantifier": "all ABI definitions that load", "why_tests_cant": "arbitrary graphs", "anchors": ["src/abi.cpp: to_abi_def, convert(abi, abi_def)"]}
{"id": "C43", "title": "fixed-size byte arrays", "statement": "checksum/fixed_bytes values round trip between bytes, words and hex text; extract_as_byte_array and construction from byte arrays are inverse, and comparison of values is lexicographic comparison of their bytes.", "quantifier": "all sizes and contents", "why_tests_cant": "2^512 values", "anchors": ["include/eosio/fixed_bytes.hpp"]}
{"id": "C44", "title": "RIPEMD-160: digest and streaming", "statement": "The digest of a message is RIPEMD-160 of it as its paper defines it (80 steps on two lines with the published word orders, shifts and constants, MD4 padding), and feeding the message in any sequence of chunks gives the same digest as feeding it at once, for every message and every split.", "quantifier": "all messages, all chunkings", "why_tests_cant": "all splits around the 64-byte block boundary", "anchors": ["include/eosio/abieos_ripemd160.hpp"]}
{"id": "C45", "title": "invalid names are hashed, never rejected", "statement": "Reading a name from JSON never fails on a string: valid names give their value, any other string gives a deterministic 64-bit hash (MurmurHash64A with seed 0xbadd00d00, blocks loaded the code's own way). Two different invalid texts of the same length below eight bytes never get the same value; from eight bytes on, the first byte of every block of eight is ignored.", "quantifier": "all strings", "why_tests_cant": "infinite", "anchors": ["include/eosio/name.hpp: hash_name, from_json", "include/eosio/murmur.hpp"]}
{"id": "C46", "title": "name prefix and suffix", "statement": "name::length is the number of characters of the name's text. name::suffix of a name is the part of its text after the last dot and name::prefix the part before the last dot without trailing dots; both are the whole name if its text has no dot. When the character before the last dot is not a dot, prefix, dot and suffix give back the text.", "quantifier": "all 64-bit names", "why_tests_cant": "2^64 values with dots in every position", "anchors": ["include/eosio/name.hpp: length, suffix, prefix"]}
{"id": "C47", "title": "struct comparison is lexicographic", "statement": "If each field's own < and == are a total order, EOSIO_COMPARE gives a total order on the struct: exactly one of a<b, a==b, b<a holds and < is transitive; a<b exactly when the first field that differs is less in a; ==, !=, <=, > and >= agree with it; the same for structs nested in structs.", "quantifier": "all field tuples", "why_tests_cant": "all triples", "anchors": ["include/eosio/operators.hpp"]}
{"id": "C48", "title": "floating point numbers print to text that identifies them", "statement": "Printing any finite double to JSON gives a JSON number whose exact decimal value is closer to that double than to every other finite double, so any reader that rounds to nearest gets the same number back; the sign of zero is kept, infinities and NaN print as the strings Infinity, -Infinity, NaN.", "quantifier": "every 64-bit double (and every 32-bit float, widened)", "why_tests_cant": "2^64 doubles cannot be enumerated; the printer works with 64-bit approximations of powers of ten whose error must be bounded for all of them", "anchors": ["include/eosio/fpconv.c:fpconv_dtoa", "include/eosio/powers.h", "include/eosio/to_json.hpp:fp_to_json"]}
{"id": "C49", "title": "floating point printing stays within its buffer", "statement": "Printing a double writes at most 24 characters, the size of its buffer, except for negative numbers of exactly 24 digits (between -10^24 and -10^23), where it writes a 25th character past the end.", "quantifier": "every 64-bit double", "why_tests_cant": "the overflow happens only for a sliver of inputs; the bound needs an analysis of every output shape", "anchors": ["include/eosio/to_json.hpp:fp_to_json", "include/eosio/fpconv.c:emit_digits"]}
{"id": "C50", "title": "ABI definition JSON text", "statement": "Loading an ABI from a JSON text fills the definition exactly as documented: members are read in any order at every level, unknown members are skipped whatever they hold, absent members are empty, the last occurrence of a text or number member counts, repeated list members are joined, and a text that does not have the required shape is refused; the definition read is determined by the document.", "quantifier": "every JSON document, including duplicate, unknown and missing members at every level", "why_tests_cant": "documents are unboundedly large and nested; acceptance must be characterised exactly", "anchors": ["include/eosio/abi.hpp:abi_def", "include/eosio/from_json.hpp:from_json", "src/abieos.cpp:abieos_set_abi"]}
{"id": "C51", "title": "defined behaviour on every input", "statement": "Whatever bytes, text or document they are given, conversions return or report an error but never run into undefined behaviour, apart from these values: reading static types is always defined, and writing a value that was read; json_to_bin and json_to_bin_reorderable are defined for documents without arrays of 2^31 elements, and for texts that are no documents; bin_to_json is undefined only where the input has an asset of amount -2^63, a double or float whose text is a minus sign and 24 digits, or the size of an array of 2^31 or more elements; reading a date overflows an int exactly outside 1901-12-14 to 2038-01-19. The same holds for the C calls after any history of calls.", "quantifier": "every type, table, document, byte string and history of calls", "why_tests_cant": "absence of undefined behaviour ranges over all inputs; the exceptions are slivers that random inputs do not hit", "anchors": ["src/abieos.hpp:json_to_bin", "src/abieos.hpp:bin_to_json", "include/eosio/from_bin.hpp:from_bin", "include/eosio/chain_conversions.hpp:string_to_utc_seconds", "src/abieos.cpp:abieos_json_to_bin", "include/eosio/chain_conversions.hpp:asset_to_string"]}
{"id": "C52", "title": "binary form of the builtin types", "statement": "For every builtin ABI type, the texts json_to_bin accepts and the bytes it stores are those of the documented format: integers in little-endian two's complement, varints in (zig-zag) LEB128, names as five bits per character, hex for checksums and byte strings, assets as amount and symbol, times as counts of microseconds, seconds or half-second slots, keys by their base58 payload. Decoding such bytes, whatever follows them, gives a text that is stored as the same bytes.", "quantifier": "all builtin types, all texts, all byte strings following the value", "why_tests_cant": "The texts of each type are infinitely many (2^128 integers, arbitrary-length strings); a test checks single pairs, and a consistent error in both directions passes every round-trip test.", "anchors": ["include/eosio/from_json.hpp: from_json", "include/eosio/to_bin.hpp: to_bin", "include/eosio/name.hpp, asset.hpp, time.hpp, crypto.hpp, fixed_bytes.hpp, varint.hpp", "src/abieos.hpp: json_to_bin"]}
{"id": "C53", "title": "The JSON read and written is RFC 8259", "statement": "The reader the conversions are given (the contract assumed of rapidjson) accepts a text, as a document, exactly if the grammar of RFC 8259 derives the text for that document: white space between any tokens, every escape including surrogate pairs, numbers without leading zeros kept as their text, UTF-8 only; the grammar is unambiguous; and every text the binary-to-JSON conversion produces, and every string written, is such a text.", "quantifier": "all byte strings, all documents, all tables and binaries", "why_tests_cant": "a grammar over all byte strings, and texts produced from all tables and inputs", "anchors": ["src/abieos.hpp:508-522 json_to_jvalue", "src/abieos.hpp:739-768 json_to_bin", "include/eosio/from_json.hpp:160-340 json_token_stream", "include/eosio/to_json.hpp:30-63"]}
{"id": "C54", "title": "JSON of C++ values, compact and indented", "statement": "convert_to_json of a C++ value (builtin types, vectors, optionals, variants and reflected structs, nested in any way) gives exactly its compact JSON text, and format_json the same JSON value laid out with one element or member per line and four blanks per level. Both succeed on the same values and fail with the same error; the size computed in the first pass is always the size written in the second, so neither over- nor underruns its buffer, and the indentation never underflows; both texts are RFC 8259 JSON of one and the same document.", "quantifier": "all programs of reflected structs, all types over them, all values", "why_tests_cant": "types and values of any shape and depth, and buffer sizes depending on them", "anchors": ["include/eosio/to_json.hpp:149-236 to_json", "include/eosio/to_json.hpp:257-277 convert_to_json, format_json", "include/eosio/stream.hpp:90-185 fixed_buf_stream, size_stream, pretty_stream", "include/eosio/types.hpp:12-95 get_type_name"]}
{"id": "C55", "title": "C++ values read from JSON", "statement": "from_json of a C++ value (builtin types, vectors, optionals, variants and reflected structs, nested in any way) gets from a JSON text exactly the value that its document gives: object members are matched to the first field of that name, in any order, unknown members are skipped, null is an absent optional, and a variant is [type name, value] with the first alternative of that name. Every value that JSON can carry is read back exactly from both the text of convert_to_json and that of format_json, so different values have different texts.", "quantifier": "all programs of reflected structs, all types over them, all texts and values; texts in which no object has a name twice", "why_tests_cant": "types, values and texts of any shape, depth, member order and white space", "anchors": ["include/eosio/from_json.hpp:539-589 from_json of vector, optional, variant", "include/eosio/from_json.hpp:610-653 from_json_object, from_json_skip_value, from_json of structs", "include/eosio/from_json.hpp:680-692 from_json<T>", "include/eosio/to_json.hpp:257-277 convert_to_json, format_json"]}
{"id": "C56", "title": "Adding C++ types to an ABI", "statement": "abi::add_type<T>() always ends, with one outcome. It never changes or removes a type that the ABI already has, whether it succeeds or throws. If it succeeds, the ABI has under the name of T, and of every type that T uses, exactly the description of that type (the fields of a struct in order, the element of an array, optional or extension, the alternatives of a variant), also for recursive structs, and nothing else was added; the ABI stays resolved (every reference leads to an entry, nesting as ABIs allow it). It succeeds whenever the builtin types used are known, the nesting is allowed and names do not clash; it fails if the nesting is not allowed. Adding a type again changes nothing.", "quantifier": "all programs of reflected structs, all types over them, all resolved ABIs, every outcome", "why_tests_cant": "types of any shape, mutual recursion of any kind, and any content of the ABI before the call", "anchors": ["include/eosio/abi.hpp:216-290 add_type", "include/eosio/types.hpp:12-95 get_type_name", "include/eosio/abi.hpp:149-204 abi_type"]}
{"id": "C57", "title": "C++ values in binary", "statement": "convert_to_bin of a C++ value (builtin types, vectors, optionals, variants, extensions and reflected structs, nested in any way, recursive types included) appends its serialization to the buffer: fields and elements one after the other, counts and variant indices as varuint32, one byte for the presence of an optional. from_bin reads every value back exactly and leaves what follows it; different values have different serializations and none is the beginning of another. From any input, from_bin takes a part of the input from its start, and what it reads can be written and read again. A might_not_exist is absent exactly at the end of the input.", "quantifier": "all programs of reflected structs, all types over them, all values and all inputs (shorter than 2^32 bytes where written again)", "why_tests_cant": "types, values and inputs of any shape, depth and size", "anchors": ["include/eosio/to_bin.hpp:51-186 to_bin, convert_to_bin", "include/eosio/from_bin.hpp:91-115,178-212,236-270 from_bin, convert_from_bin", "include/eosio/abi.hpp:43-62 might_not_exist", "include/eosio/stream.hpp:53-63 has_bitwise_serialization"]}
{"id": "C58", "title": "C++ types and their ABI convert alike", "statement": "If an ABI describes a C++ type (as after add_type), the conversions of the ABI and the templates for the C++ type agree: json_to_bin_reorderable of a JSON text gives some bytes exactly if from_json reads a value from that text whose convert_to_bin gives those bytes, likewise json_to_bin for texts with members in order; bin_to_json of an input gives some text exactly if from_bin reads a value from that input whose convert_to_json gives that text, leaving the same rest. So what convert_to_bin writes, bin_to_json shows as convert_to_json does, and what convert_to_json writes, json_to_bin turns into what convert_to_bin gives.", "quantifier": "all programs of reflected structs, all types without extensions over them, all resolved ABIs that describe them, all JSON texts without duplicate names within the depth limit, all inputs shorter than 2^32 bytes (from_bin of arbitrary inputs: without vectors of fixed-size numbers)", "why_tests_cant": "two independent implementations have to agree on every type, text and input", "anchors": ["src/abieos.hpp:587-899 json_to_bin, bin_to_json drivers", "include/eosio/from_json.hpp:539-692", "include/eosio/to_bin.hpp:51-186", "include/eosio/from_bin.hpp:91-250", "include/eosio/to_json.hpp:149-277", "include/eosio/abi.hpp:216-290 add_type"]}
{"id": "C59", "title": "Floating point numbers survive text", "statement": "If the C library's strtod and strtof round to nearest, then a double that is zero (of either sign), normal, infinite or the usual NaN is converted by bin_to_json to a JSON text that json_to_bin turns into the same eight bytes, unless its text would overrun the print buffer (C49); likewise every float above the smallest normal one. Consequently the JSON-binary-JSON-binary and binary-JSON-binary round trips (C27, C28) hold for documents with floating point numbers without any condition on their texts.", "quantifier": "all C libraries that round correctly on normal results; all such doubles and floats; all ABIs, types, documents and inputs", "why_tests_cant": "2^64 doubles, and the shortest-digits printer has to be inverted by an independent reader at every rounding boundary", "anchors": ["include/eosio/to_json.hpp:111-127 fp_to_json", "include/eosio/from_json.hpp:480-501", "src/fpconv.c", "src/abieos.hpp:587-899"]}
{"id": "C60", "title": "The conversions implement the wire format of the definition", "statement": "After any history of C API calls, abieos_json_to_bin_reorderable(contract, type, text) succeeds if and only if the text is a JSON text (RFC 8259) of a document, nested at most 128 levels, that is a value of the type denoted by the type name in the ABI definition first loaded for the contract; the bytes then returned are the document's wire format: builtin types as described per type, T? a 0 or a 1 and the value, T[] the LEB128 count and the elements, a variant the LEB128 number of the first alternative of that name and the value, a struct its base's fields and its own one after the other (each with the last value the object gives it), extensions at the very end left out if not given. abieos_json_to_bin does the same for documents whose members are in the order of the fields, without unknown or repeated ones. abieos_bin_to_json turns the wire format of a document back into a JSON text that says a document with the same wire format. The format is stated over the ABI definition alone.", "quantifier": "all histories of C API calls, all definitions, type names, texts and byte strings (the reverse direction: scalars whose text says all of them, a C library that rounds correctly)", "why_tests_cant": "unbounded definitions, nesting, inheritance and histories; refusing everything else as well as accepting every value", "anchors": ["src/abieos.cpp abieos_json_to_bin, abieos_json_to_bin_reorderable, abieos_bin_to_json", "src/abieos.hpp:508-1008", "src/abi.cpp:78-226", "include/eosio/chain_conversions.hpp:266-334"]}
{"id": "C61", "title": "The exact text bin_to_json shows", "statement": "After any history of C API calls and for all bytes, abieos_bin_to_json(contract, type, data) returns the text t if and only if all of the data is a value of the type denoted by the type name in the ABI definition first loaded for the contract, nested at most 128 deep, and t is how that value is shown: per builtin type (integers in decimal, between quotes beyond four bytes; times as calendar texts rounded down; names, symbols, assets; keys in base 58 with their check sum; strings escaped, with ? for bytes that are no characters; bytes in hexadecimal), null or the value for T?, an object with the fields in order for a struct (extensions missing at the very end left out), an array for T[], and [\"name\",value] for a variant. Sizes and indices need not be in their shortest form. In all other cases the call fails. The same for abieos_hex_to_json. Both formats are stated over the ABI definition alone.", "quantifier": "all histories of C API calls, all definitions, type names and byte strings, valid or not", "why_tests_cant": "unbounded definitions, nesting, inputs and histories; every malformed input has to be refused and every unusual one shown as specified", "anchors": ["src/abieos.cpp abieos_bin_to_json, abieos_hex_to_json", "src/abieos.hpp:362-368, 884-1008", "include/eosio/to_json.hpp", "include/eosio/from_bin.hpp", "include/eosio/chain_conversions.hpp", "src/crypto.cpp"]}
{"id": "C62", "title": "Opaque values: skipped whole, unpacked later", "statement": "Reading an opaque<T> from binary takes a size (at most 64 bits) and exactly that many bytes, whatever they are, and leaves the rest of the input alone; writing it writes the size and the same bytes. Whatever T's writer wrote is unpacked later into the same value, and leaves the opaque value empty. unpack gives what the reader of T gives on the stored bytes, fails as it fails, and keeps what is left over. Unpacking a vector element by element (unpack_size, then each element) gives the same as unpacking the vector at once, as long as the elements are not plain numbers; for numbers, as long as the count was written by the library (a count of 2^32 written by someone else counts as 0 one way and is an overrun the other way). Stopping after some elements leaves exactly the bytes of the others.", "quantifier": "all element types, values, byte strings and following inputs", "why_tests_cant": "unbounded types, values and inputs, valid or not", "anchors": ["include/eosio/opaque.hpp:45-117", "include/eosio/from_bin.hpp:91-159", "include/eosio/to_bin.hpp:51-186"]}
{"id": "C63", "title": "Conversion between struct versions", "statement": "Converting a struct to another struct succeeds exactly if a conversion between them is declared, no member of the struct whose members are gone through is missing in the other unless the declared conversion may discard members, and the members both have by the same name convert; then every such member is the converted one, whatever the order of the members, and all others of the destination are what they were. Converting to the same type copies (types with variants at the outside of vectors and optionals excepted: no value of any type converts to a variant type). If a type has everything another has, a value converted to it, into any object, and back again, into any object, is the value. A type read through another with serialize_as reads exactly one object from what was written as the other type, leaves the rest, and loses nothing: converted back it is the value that was written.", "quantifier": "all struct declarations, declared conversions, nesting of vectors, optionals and structs, values and destination objects", "why_tests_cant": "unbounded declarations, nesting and values; the result has to be independent of the order of members", "anchors": ["include/eosio/convert.hpp:11-95", "include/eosio/from_bin.hpp:214-250"]}
{"id": "C64", "title": "What the binary readers of C++ values accept", "statement": "from_bin of a C++ type accepts exactly the inputs that begin with a value of the type in one of its forms, leaves what follows, and the forms are unambiguous: fixed-size values as they are; a truth byte other than 0 is true and a presence byte other than 0 means present; sizes and indices may have superfluous groups but fit their width; counted arrays must have the right count; the elements of sets and the entries of maps may come in any order and be repeated, the container holding of equal ones the first, sorted; a might_not_exist member is missing exactly at the end of the input. convert_from_bin ignores what follows. What the library writes is one of these forms.", "quantifier": "all types built from the serializable ones (with orders that are strict weak orders), all byte strings", "why_tests_cant": "unbounded types and inputs; every malformed input has to be refused", "anchors": ["include/eosio/from_bin.hpp", "include/eosio/varint.hpp", "include/eosio/abi.hpp:43-62"]}
{"id": "C65", "title": "The state-history protocol", "statement": "Every value of the protocol's types (requests, results, blocks, traces, table rows) that is written is read back from its bytes, nothing else can be read from them, and what follows is left; transaction traces may be nested in each other to any depth. What is read in whatever form from less than 2^32 bytes can be written again and is read back from that. The requests and the status result have exactly the documented bytes: a tag, then the fields one after the other. The text of a transaction status is its name and back; other numbers and texts are refused.", "quantifier": "all values of all types of the protocol, all inputs shorter than 2^32 bytes, any nesting depth", "why_tests_cant": "unbounded values, nesting and inputs over 73 structs and 36 variants", "anchors": ["include/eosio/ship_protocol.hpp", "include/eosio/reflection.hpp", "include/eosio/from_bin.hpp", "include/eosio/to_bin.hpp"]}
{"id": "C66", "title": "Malformed JSON is refused and blamed correctly", "statement": "With a text that is not JSON (truncated, with a syntax error or with something after the document) the C calls abieos_json_to_bin, abieos_json_to_bin_reorderable and abieos_set_abi return false, leave no bytes and load nothing. The error of abieos_json_to_bin and abieos_set_abi is a JSON syntax message, or the very error every well-formed document with the same beginning gives; that of abieos_json_to_bin_reorderable, for a loaded contract and a known type, is always 'Unspecific syntax error'. No text of less than 2^31 - 1 bytes, JSON or not, leads to undefined behaviour.", "quantifier": "all byte strings as texts, all types, all loaded definitions, all histories of calls", "why_tests_cant": "the texts, the places where they can break and the definitions are unbounded", "anchors": ["src/abieos.cpp: abieos_set_abi, abieos_json_to_bin, abieos_json_to_bin_reorderable", "src/abieos.hpp: json_to_bin, json_to_jvalue", "include/eosio/from_json.hpp: peek_token, complete, from_json_object, from_json_skip_value"]}
{"id": "C67", "title": "Failed calls say what is wrong", "statement": "After any history of C API calls, abieos_get_error after a failed call returns the documented text: 'contract \"K\" is not loaded' when nothing was loaded for the contract ('binary decode error' for the decoding calls), 'contract \"K\" does not have action/table \"N\"', 'Unknown type' or 'Invalid nesting' for a type text that denotes nothing, by the reason why it does not, 'expected hex string', 'no data', 'unsupported abi version', 'Missing name' or 'Redefined type' according to the first name of the definition that cannot be declared, 'Extra data' when bytes are left over, and otherwise the text that the library's error tables give for the error the loader, the conversion of the document or the decoding ended with.", "quantifier": "all histories of calls, contracts, names, definitions, type texts, documents and byte strings", "why_tests_cant": "the tests fix the messages of some hundred calls; which message comes first depends on definition, text and history", "anchors": ["src/abieos.cpp: abieos_set_abi, abieos_set_abi_bin, abieos_set_abi_hex, abieos_get_type_for_action, abieos_get_type_for_table, abieos_json_to_bin, abieos_bin_to_json, abieos_hex_to_json", "src/abi.cpp: get_type, convert", "include/eosio/abi.hpp: convert_abi_error", "include/eosio/from_json.hpp: convert_json_error", "include/eosio/stream.hpp: convert_stream_error"]}
{"id": "C68", "title": "Truncated binary data", "statement": "If abieos_bin_to_json (or hex_to_json) converts a byte string, then it refuses every proper beginning of it with the error 'Stream overrun', except that with a definition that has binary extensions ('$') the beginning may be a complete value itself. With a definition without extensions, bytes added after a complete value give 'Extra data', and bytes refused with any error other than 'Stream overrun' are refused with the same error whatever bytes follow: so 'Stream overrun' means that more data is needed, every other error that no more data can help. A beginning of the binary form of a definition is refused by abieos_set_abi_bin with 'Stream overrun' unless it is the same definition or that definition without the variants. C++ values read with from_bin behave alike, with might_not_exist in the place of extensions.", "quantifier": "all histories, definitions, types, byte strings and ways to cut them", "why_tests_cant": "every value of every type can be cut at every byte; the tests truncate a handful of encodings", "anchors": ["include/eosio/stream.hpp: input_stream::read, check_available", "include/eosio/from_bin.hpp: varuint32_from_bin, from_bin", "src/abieos.hpp: bin_to_json", "src/abieos.cpp: abieos_bin_to_json, abieos_set_abi_bin", "include/eosio/abi.hpp: might_not_exist"]}
{"id": "C69", "title": "The command line tool name2num / num2name", "statement": "The tool `name` (installed also as name2num and num2name) turns names into numbers if its own name contains 'name2num', else numbers into names; each option letter r changes that, the last of x and d chooses hexadecimal or decimal output. Any other option letter ends it with code 2, no output, and the usage (-h, --help) or the offending option on the error output. It works on the arguments that are not options or, if there are none, on the lines of its input, printing one line for each that can be converted, in order; the code is 0 with no error output if all can be, else 1. A number is accepted exactly if it is spaces, an optional sign and a C integer (decimal, octal, hexadecimal) below 2^64, and its name is shown without trailing dots; a name exactly if it is a valid name, and its number is shown without superfluous zeros. name2num | num2name gives the names back without trailing dots; num2name | name2num gives the same numbers.", "quantifier": "all program names, argument lists and inputs; all lists of valid names and of numbers", "why_tests_cant": "there is no test of the tool, and the inputs are unbounded texts and 2^64 values", "anchors": ["tools/name.cpp: handle_one, usage, main", "include/eosio/name.hpp: name", "include/eosio/chain_conversions.hpp: string_to_name_strict, name_to_string"]}
{"id": "C70", "title": "What a refused document is told", "statement": "When abieos_json_to_bin or abieos_json_to_bin_reorderable refuses a JSON document for a type of a loaded ABI, abieos_get_error tells the message of the first fault in it, where the faults can be read off the ABI definition and the document alone: a value that is no object, array or variant pair where one is wanted, a field that is missing, unexpected or out of order, an unknown alternative, nesting over 128 levels, or a scalar that is no value of its builtin type (with the message for each of the 31 builtin types: which texts are out of range, which are no integers, which keys are too short ...). The reorderable conversion looks in the order of the definition (members that are no fields do not matter, the last one of a name counts), the ordered conversion in the order of the document. Conversely, whenever such a fault is present the call fails and tells exactly that message.", "quantifier": "all histories of calls, all loaded ABI definitions (fewer than 2^32 alternatives and entries; for the ordered conversion distinct field names and extensions last), all types, all JSON documents shorter than 2^31 bytes", "why_tests_cant": "the faults of a document depend on an unbounded definition and an unbounded document; tests compare a few messages", "anchors": ["src/abieos.hpp: json_to_bin (object, array, variant, ordered and reorderable)", "src/abi.cpp: abi_type", "include/eosio/abi.hpp: might_not_exist", "include/eosio/from_json.hpp: from_json_int, from_json_error", "include/eosio/chain_conversions.hpp", "src/crypto.cpp: string_to_key"]}
{"id": "C71", "title": "What refused binary data is told", "statement": "When abieos_bin_to_json or abieos_hex_to_json refuses binary data for a type of a loaded ABI, abieos_get_error tells the message of the first fault in the bytes, where the faults can be read off the ABI definition and the bytes alone: data that ends inside a value or a size (Stream overrun), a size or index of more than five bytes (Invalid varuint encoding; ten bytes for the 64-bit sizes inside bytes and WebAuthn signatures), an index of no alternative or kind of key (Bad variant index), nesting over 128 levels (Recursion limit reached), or a complete value followed by more bytes (Extra data). Missing bytes where only extensions remain at the end of the data are no fault. Conversely, whenever such a fault is present the call fails and tells exactly that message.", "quantifier": "all histories of calls, all loaded ABI definitions (fewer than 2^32 alternatives and entries, extensions last), all types including all 31 builtin ones, all byte strings shorter than 2^32", "why_tests_cant": "the faults depend on an unbounded definition and unbounded bytes; the fuzzer of the tests only checks that nothing crashes", "anchors": ["src/abieos.hpp: bin_to_json (object, array, variant)", "src/abieos.cpp: abieos_bin_to_json, abieos_hex_to_json", "include/eosio/from_bin.hpp", "include/eosio/stream.hpp: input_stream", "include/eosio/chain_conversions.hpp"]}
{"id": "C72", "title": "Arithmetic and comparison of times", "statement": "Sums and differences of time_point and microseconds are exact and defined exactly if they fit in 64 bits; what was added can be subtracted again, and the order is kept. milliseconds(n), seconds(n), minutes(n), hours(n), days(n) are exactly that many microseconds whenever these fit. time_point_sec arithmetic with numbers of seconds is exact modulo 2^32; with a duration, += and -= use its whole seconds (truncated toward zero) and undo each other, while + and - give exact time_points; differences of time_point_sec are exact and never overflow. Converting time_point_sec to time_point and back gives the same value; converting a time_point in 1970..2106 to time_point_sec gives the last whole second not after it. The six comparison operators compare instants, for time_point_sec the same as for the converted time_points.", "quantifier": "all 64-bit counts of microseconds, all 32-bit counts of seconds, all unit counts", "why_tests_cant": "2^64 and 2^32 values with overflow boundaries", "anchors": ["include/eosio/time.hpp: microseconds, time_point, time_point_sec, seconds, minutes, hours, days", "include/eosio/operators.hpp: EOSIO_COMPARE"]}
{"id": "C73", "title": "What a refused ABI definition is told", "statement": "When an ABI definition whose names can be declared is refused, the error told (by abieos_set_abi, abieos_set_abi_bin, abieos_set_abi_hex) is that of the first declaration, in the byte order of the declared names, that has no meaning, and the reason can be read off the definition alone: 'Unknown type' for a type text that is not declared and has no suffix, 'Invalid nesting' for an optional, array or extension made optional or an array or for an extension of an extension, 'Extension typedef' for a typedef of an extension, 'Base not a struct' for a base that denotes none; in a struct the base (with its own bases and fields) counts before the fields, the fields and the alternatives of a variant count in order. Conversely a definition with such a fault is always refused. Only definitions with a chain of at least 32 steps through typedefs, suffixes and bases may be refused with 'Recursion limit reached' instead; definitions that are only circular always are. A definition without such chains loads exactly if it has no fault.", "quantifier": "all ABI definitions, however many declarations, texts of any length, chains of any depth; all calls that ask to load one, in every context", "why_tests_cant": "unbounded definitions and orders of resolution; the loader resolves in map order and reuses what earlier lookups resolved, so which fault is met first is not obvious", "anchors": ["src/abi.cpp: get_type, resolve, fill, convert", "src/abieos.cpp: abieos_set_abi, abieos_set_abi_bin, abieos_set_abi_hex", "include/eosio/abi.hpp: abi_error"]}
{"id": "C74", "title": "What an unreadable ABI definition is told", "statement": "A JSON document describes an ABI definition exactly if it has its shape: an object whose known members are texts, lists of objects of the given members, or (error_code) an unsigned 64-bit number; other members do not matter. Loading any other document with abieos_set_abi fails and tells the first thing that is wrong in the order of the document: 'Expected {', 'Expected [', 'Expected string', what is wrong with the number, or 'from_json does not support std::pair' for anything in abi_extensions. Loading bytes with abieos_set_abi_bin, or their digits with abieos_set_abi_hex, tells 'no data' if there are none, else what is wrong with the version text, else 'unsupported abi version', else the first section of the layout that cannot be read: 'Stream overrun' or 'Invalid varuint encoding'. Every document and every byte string has exactly one such fault, or none and then holds a definition (of a known version).", "quantifier": "all JSON documents and all byte strings shorter than 2^32 bytes, all contexts and contracts", "why_tests_cant": "unbounded documents and byte strings; which of several faults is told depends on the order in which members and sections are read", "anchors": ["src/abieos.cpp: abieos_set_abi, abieos_set_abi_bin, abieos_set_abi_hex", "include/eosio/abi.hpp: abi_def", "include/eosio/from_json.hpp: from_json_object, from_json_array", "include/eosio/from_bin.hpp: from_bin"]}
{"id": "C75", "title": "What the fuzzer runs", "statement": "The fuzzer's entry point takes every input apart in one way: a 24-byte header (definition in JSON or binary, operation, contract, sizes of definition and type) and three pieces that end with a zero byte; inputs not put together so make no call. It then runs exactly one session on a fresh context: it loads the definition for the contract and, only if that succeeds, converts the data from JSON in both ways, or decodes it, with the type. Every file that the tests write for the fuzzer is taken apart into what was written, so every session of this kind is reached by some input. Every input comes to an end, and its behaviour is defined unless it asks to decode data holding a value that cannot be printed (C51).", "quantifier": "all inputs of any length, all sessions", "why_tests_cant": "a fuzzer only samples inputs; the claim is about all of them", "anchors": ["src/fuzzer.cpp: LLVMFuzzerTestOneInput", "src/fuzzer.hpp: fuzzer_header", "src/test.cpp: write_corpus"]}
{"id": "C76", "title": "How much the conversions can grow", "statement": "If no struct of the definition has two fields with the same name, the binary form a JSON text is converted to takes up at most seventeen times as many bytes as the text, and there is a text for which it is exactly seventeen times. If every struct has a field that is not a binary extension, the text that bytes are shown as has at most 129·(w+128) characters for each byte, where w is the length of the names of the fields of a struct (or of the alternatives of a variant) written as JSON strings in the longest way. Both conditions are needed: with a definition of n+1 structs that contain each other twice, no bytes at all are shown as a text of 2^n characters, five bytes as an array of 2^31-1 empty structs, and, if the two fields have the same name, a text of 6n+7 characters is converted to 2^n bytes; all for n up to 126, the limit on nesting.", "quantifier": "all histories of calls, all definitions, types, texts and bytes", "why_tests_cant": "a bound on the size of results must hold for every input and every definition; large results cannot be produced in a test at all", "anchors": ["src/abieos.hpp: json_to_bin, bin_to_json (object, array, variant)", "src/abieos.cpp: abieos_json_to_bin, abieos_json_to_bin_reorderable, abieos_bin_to_json", "include/eosio/abi.hpp: abi_type"]}
{"id": "C77", "title": "JSON of the state-history protocol", "statement": "convert_to_json and format_json of a request, trace, block, delta row or any other type of the state-history protocol (except get_blocks_result_v1 and result, which have no conversion) write an object with the members in the declared order, arrays for vectors and [name, value] for variants, scalars as in every other conversion, and the state of a transaction as its name (executed, soft_fail, hard_fail, delayed, expired), not its number. Both texts are JSON for the same document. Every value that can be stored is printed, unless the state of some transaction in it, at any depth, has a number above 4 - then, and only then, an exception 'unknown status: N' is thrown - or a double in it is a negative number of 24 digits.", "quantifier": "all types of the protocol, all values, traces nested to any depth", "why_tests_cant": "the protocol has 36 variants and recursive traces; every value of every type must be printed", "anchors": ["include/eosio/ship_protocol.hpp: to_json (input_stream, transaction_status, recurse_transaction_trace), to_string, EOSIO_REFLECT", "include/eosio/to_json.hpp: to_json, convert_to_json, format_json"]}
{"id": "C78", "title": "names of types do not matter", "statement": "If two types, of one ABI definition or of two, in one context or in two, have the same structure - after following typedefs and bases, the same builtin types, optionals, arrays and extensions, structs with the same member names in the same order and variants with the same alternative names in the same order - then each of the four conversions does the same for both with the same argument: the same return value, the same text or bytes, the same error, whatever calls came before. Neither the names of structs and variants nor the way the types are written (typedefs, base structs, declaration order, unused declarations, recursion through other types) has any influence.", "quantifier": "all pairs of ABI definitions, all types of the same structure, recursive ones too, all arguments, all histories of calls", "why_tests_cant": "all pairs of definitions and all arguments, including refused ones, and recursive types", "anchors": ["src/abieos.hpp: json_to_bin, bin_to_json", "src/abi.cpp: get_type, fill, convert", "src/abieos.cpp: abieos_json_to_bin, abieos_json_to_bin_reorderable, abieos_bin_to_json, abieos_hex_to_json"]}
{"id": "C79", "title": "the protocol's ABI and its C++ types", "statement": "A program that loads an ABI definition of the state-history protocol (written by hand: 77 structs, 38 variants) reads and makes the same messages, traces and rows as one that uses the C++ types: the definition loads; every C++ struct and variant has its name in it; bin_to_json of any bytes returns a text exactly if the C++ type's from_bin reads a value from all of the bytes, and then the text is the value's; json_to_bin_reorderable of any JSON document makes bytes exactly if the C++ type's from_json reads a value whose convert_to_bin gives these bytes; and the JSON and bytes that C++ writes are converted to each other by bin_to_json and json_to_bin. (Streams and opaque members count as bytes, the state of a transaction as its number.)", "quantifier": "all 36 variants, all structs and the arrays in results; all bytes, documents and values, traces nested to any depth that bin_to_json allows; all histories of calls", "why_tests_cant": "every byte sequence and every value, recursive ones included; a field of the wrong type, or two in the wrong order, shows only in some messages", "anchors": ["include/eosio/ship_protocol.hpp: all structs and variants", "src/abi.cpp: convert, get_type", "src/abieos.hpp: json_to_bin, bin_to_json", "include/eosio/from_bin.hpp: from_bin", "include/eosio/from_json.hpp: from_json"]}
{"id": "C80", "title": "an ABI type made like a C++ type converts like it", "statement": "Whenever a loaded ABI definition has a type of the same structure as a C++ type (the same builtin types, the same member names in the same order with types that correspond, the same alternatives under the C++ names; typedefs, bases and the names of structs and variants do not matter), the library's conversions of the ABI type are those of the C++ type: bin_to_json of any bytes returns a text exactly if the C++ type's from_bin reads a value from all of the bytes and convert_to_json shows it as that text; json_to_bin_reorderable of any JSON document makes bytes exactly if the C++ type's from_json reads a value whose convert_to_bin gives these bytes; and json_to_bin, of the text that convert_to_json gives, makes what convert_to_bin makes.", "quantifier": "all ABI definitions, all C++ types that are made like one of the definition's (recursive ones included), all bytes, documents and values, all histories of calls", "why_tests_cant": "every pair of a definition and a program, and every value; a test has one pair and some values", "anchors": ["include/eosio/abi.hpp: abi_type", "src/abi.cpp: convert, get_type, fill, resolve", "src/abieos.hpp: json_to_bin, bin_to_json", "include/eosio/from_bin.hpp: from_bin", "include/eosio/from_json.hpp: from_json", "include/eosio/to_json.hpp: convert_to_json", "src/test.cpp: transactionAbi"]}
{"id": "C81", "title": "an ABI made from C++ types, and exported, speaks for the C++ types", "statement": "A program takes a loaded ABI definition (possibly one without types), adds C++ types to it with add_type, and converts the abi back to an abi_def. The conversion succeeds and the definition it gives can be used: storing it and loading it with abieos_set_abi_bin succeeds. Every type of the abi has its meaning in the definition (alternatives are named by their types). With the definition loaded, bin_to_json, json_to_bin and json_to_bin_reorderable under the name of an added C++ type do what from_bin, from_json, convert_to_json and convert_to_bin do for the C++ type, also after more types have been added.", "quantifier": "all definitions loaded, all sequences of C++ types added (recursive ones included) whose names are different, all bytes, documents and values, all histories of calls", "why_tests_cant": "every sequence of types and every value; a test has one of each", "anchors": ["include/eosio/abi.hpp: add_type, abi", "src/abi.cpp: to_abi_def, convert", "src/abieos.cpp: abieos_set_abi_bin", "src/abieos.hpp: json_to_bin, bin_to_json"]}
{"id": "C82", "title": "exporting again changes nothing", "statement": "An abi is converted to an abi_def (it was loaded from a definition and C++ types may have been added to it). Loading that abi_def, looking up any type names in it, and converting it again gives the same abi_def. What was loaded from it has the types of the first abi, each with its meaning (alternatives of variants are named by their types), and otherwise only optionals, arrays and extensions. Looking up type names never changes what an abi is converted to.", "quantifier": "all definitions loaded, all sequences of C++ types added, all texts looked up before and in between", "why_tests_cant": "every definition and every sequence of look-ups; a test has one of each", "anchors": ["src/abi.cpp: to_abi_def, convert, get_type", "include/eosio/abi.hpp: add_type, abi"]}
{"id": "C83", "title": "encodings are unambiguous", "statement": "Different encodings of a type are shown as different texts by bin_to_json. With an ABI without binary extensions there is only one way to split bytes into an encoding of a type and a rest, so no encoding is a proper beginning of another; and encodings of any types, written one after another and followed by any bytes, are read back by calling bin_to_json once for each on what the last call left: every call gives the text it gives for the encoding alone, and the following bytes are left. Two sequences of encodings of the same types are the same bytes only if they are the same sequences.", "quantifier": "all ABIs (extensions last, distinct field names), types, documents whose scalars are encoded without loss, all sequences of types and encodings, all following bytes", "why_tests_cant": "a statement about every pair of encodings and every sequence", "anchors": ["src/abieos.hpp: json_to_bin, json_to_bin_reorderable, bin_to_json", "include/eosio/stream.hpp: input_stream"]}
