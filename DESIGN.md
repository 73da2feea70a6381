# Formal model of EOSIO/abieos in Lean 4

## What is here

* `properties.jsonl` – the properties (C01 ...), in terms of the public API.
* `lean/Verif/Model/*` – the model: executable Lean functions, one per C++ function,
  each with the file and lines of `/repo` it models and any simplification.
* `lean/Verif/Spec/*` – small independent specifications used in theorem statements
  (calendar rules, JSON grammar, lexicographic order, mathematical value of a digit string, ...).
* `lean/Verif/Proofs/*` – helper lemmas.
* `lean/Verif/Props/*` – the property theorems, each next to examples that meet its hypotheses.
* `MANIFEST.json` – property → theorems and status.
* `seeded/LOG.jsonl` – record of mutation attempts against the model.

## Modelling conventions

* A `char`/`uint8_t` buffer is `List UInt8` (`Bytes`). `std::string` is also `Bytes` (C++ strings are byte strings).
* An exception (`eosio::check` failing) is `Except.error` with an error constructor named after the C++ error code.
  Undefined behaviour, where the code can reach it, is a distinct error `ub`, never silently totalised.
* Fixed-width arithmetic: `Nat`/`Int` with explicit `% 2^n` where the C++ wraps (unsigned),
  an explicit `ub` outcome where signed overflow is reachable, `UInt64`/`BitVec` where bits are twiddled.
* `input_stream` is the remaining `Bytes`; a read returns the value and the rest.
* A loop is structural recursion; the three conversion drivers are *step machines* with the same explicit
  stack as the C++, and theorems speak about the machine's run.
* `std::map<std::string, abi_type>` is a finite map; an `abi_type*` is the key of the map node it points to
  (map nodes are never moved or erased in the code, so key and address determine each other).
* rapidjson is not part of the repository. It is modelled by its contract: for a well-formed document it
  delivers the SAX events of the document's value tree (numbers delivered as strings, because the code sets
  kParseNumbersAsStringsFlag); of any other text it delivers the events before the error (Model/JsonReader `upTo`) and
  reports one of its errors.

## Plan per property

| id | modelled | proof |
|---|---|---|
| C01 | varuint32_to_bin / varuint32_from_bin loops | induction on 7-bit groups, `omega` |
| C02 | zig-zag on 32-bit vectors over C01 | bit-vector lemma, case split on sign |
| C03 | hex/unhex/from_json_hex loops | induction on list, 256-case table for one byte |
| C04-C06 | string_to_name*, name_to_string, operator< | base-32 digit expansion lemma; order = big-endian digit order |
| C07 | symbol code/symbol text loops, is_valid, length | byte expansion, induction |
| C08 | asset_to_string / string_to_asset loops | decimal digit lemmas, induction |
| C09 | asset arithmetic with checks, int128 product | invariant over operation lists |
| C10 | year_month_day from_days/to_days | 400-year era arithmetic; `omega` + finite table lifted by periodicity |
| C11-C12 | time printing/parsing, block_timestamp | composition of C10 with digit lemmas; `omega` |
| C13 | base58 loops with carries | value-of-digits invariant |
| C14-C15 | key text functions, digest abstract (any function to 20 bytes) | from C13 |
| C16-C17 | from_json_int, int_to_json, decimal_to_binary... | digit-string value invariant |
| C18 | to_json(string_view) with UTF-8 scanner; independent JSON-string/UTF-8 grammar | induction on scanner |
| C19-C20 | to_key over a universe of key types | induction on type: order-embedding + prefix-freeness together |
| C21-C23 | to_bin/from_bin over a universe of types; size_stream/fixed_buf_stream | induction on type |
| C24-C26 | abi.cpp get_type/resolve/fill/convert | induction on recursion depth fuel, table invariants |
| C27-C37 | three conversion machines over the resolved type table | machine refines recursive function; induction on document / depth |
| C38-C40 | C API as state machine over the context | induction over call list |
| C41-C42 | abi_def codec, to_abi_def | instance of C21 plus table argument |
| C43 | fixed_bytes construction, byte access, comparison | word/byte expansion |
| C44 | RIPEMD-160 block function, buffering, padding | step-by-step equality with an 80-step specification written from the paper; buffering invariant |
| C45 | hash_name (Murmur) of texts that are no names | equality with a specification on numbers, collision lemmas |
| C46-C47 | name prefix/suffix; operators.hpp over a universe of types | base-32 digits; induction on type |
| C48-C49 | fpconv_dtoa (Grisu2), fp_to_json, float widening | exact rational interval argument over the digit loop; table facts checked by the kernel |
| C50 | from_json of abi_def over a token list | semantic function of the document, induction |
| C51 | every modelled function: absence of the `ub` outcome | per-function invariants, composed over the conversion machines; the exceptions are reached by calls (Props/Undefined) |
| C52 | the 30-odd builtin types: text ↔ bytes | per-type equality with the storage format of Spec/BuiltinFormat, also for every text of a time (`c52_scalar_to_binary`) |
| C53 | the JSON reader assumed of rapidjson | both inclusions with the RFC 8259 grammar |
| C54 | to_json over C++ types (vector, optional, variant, struct), size/fixed-buffer/pretty streams | text = layout of a document tree, by induction on the value; both stream laws (size, indentation) |
| C55 | from_json over C++ types on a token list | equality with the relation `Given` between documents and values, both directions |
| C56 | add_type with the map it changes | fuel-independent termination by counting missing names; invariant of partly filled structs |
| C57 | to_bin/from_bin over C++ types, size and fixed-buffer streams | both directions with the relation `Stored`, by induction on the value and on the fuel |
| C58 | C55–C57 against the conversion machines of C29–C36 | the derivations of `Enc`/`Dec` (C33, C36) are rebuilt from values and back |
| C59 | fp_to_json and the float readers with a correctly rounding C library as hypothesis | the printed value is nearest (C48) and lies in the normal range; the extreme numbers are evaluated; a library meeting the contract is constructed |
| C60 | C26, C36, C39, C52, C53, C59 put together | the wire format as an inductive relation over the definition (Spec/Wire), shown equal to the encoding over the loaded table |
| C61 | C33, C39, C53 put together; readers and printers of all builtin types shown equal to their specification | what is shown as an inductive relation over the definition (Spec/Shown), shown equal to the decoding over the loaded table; exact forms of C01, C02, C04, C07, C08, C11, C16, C18 in Props/Texts |
| C62 | opaque<T>: `from_bin`, `to_bin`, `unpack`, `unpack_size`, `unpack_next`, `empty` over the readers and writers of C21 | the stored bytes are any bytes after a size (Spec/Shown's `VarRead`); unpacking piece by piece related to the vector reader by induction over the count |
| C63 | `convert` and its overloads, `conversion_kind`, `serialize_as`, over the C++ types of C54-C58 | member-wise specification; there and back by induction over the value, for any relation of types closed under members (so recursive types are covered) |
| C64 | the readers of C21-C23 | the accepted forms as a relation over types (Spec/BinAccept), shown equal to the readers by mutual induction over the type; sets and maps by the invariant "sorted, and the firsts of what was inserted" |
| C65 | every struct and variant of ship_protocol.hpp, generated from the header by tools/ship.py (Model/Ship), as a program of C57; `to_string` and `get_transaction_status` | C57 for this program; requests and the status result against a byte-by-byte specification (Spec/Ship); nesting by induction |
| C66 | `peek_token`/`complete` on texts that break off: the events before the error (Model/JsonReader `upTo`); the three calls of the C interface that read JSON | each reader and each step of the ordered conversion shown to look at the tokens one after the other, so that an error found in a beginning is found in every document with that beginning; prefix-freeness of documents; lengths for the absence of undefined behaviour |
| C67 | the calls of the C interface with `set_error`, `handle_exceptions` and the error tables (Model/CApi `Err.what`); Spec/Messages is generated from the headers by tools/messages.py | each call's body evaluated in a context reached by any history; for types an induction over the reasons why a text denotes nothing, for names one over the declarations |
| C68 | the readers of the builtin types, `from_bin` (Model/StaticBin), the decoder (Model/Decode) and the reader of definitions (Model/AbiDefBin), as they are | two properties of readers, proved through the structure of each: `Online` (an error other than `Stream overrun`, like a value, does not depend on what follows) and, where a missing rest is allowed, `Cut`; then through C67 to the calls |
| C69 | `handle_one`, `usage` and `main` of tools/name.cpp as a function of program name, arguments and input (Model/NameTool); `std::stoull` with base 0, `std::getline` and the stream flags from the standards | `stoull` of a whole text is the relation ValueText, by induction on numerals; the loops by induction on arguments, letters and lines; the round trips from C04 and C05 |
| C70 | no new model: the errors of the conversions of C27–C37 and of the builtin types of C52 through the C interface of C67; the faults are the inductive relations of Spec/Faults (over the definition) and Spec/ScalarFaults (per builtin type) | the conversion function fails with an error exactly if the document has the fault with its text, by induction on depth (Proofs/Faults) and type by type for the scalars (Proofs/ScalarFaults, Proofs/KeyFaults) |
| C71 | no new model: the errors of the decoder of C27–C37 and of the builtin types of C52 through the C interface of C67; the faults are the inductive relations of Spec/BinFaults over the definition, with the messages per builtin type | the decoder fails with an error other than undefined behaviour (C51) exactly if the bytes have the fault with its text, by induction on depth (Proofs/BinFaults) and type by type (Proofs/BytesFaults) |
| C72 | Model/TimeArith: the operators of time.hpp on integers, int64_t overflow as undefined behaviour, uint32_t modulo 2^32; the comparison through Model/Operators (C47) | integer arithmetic |
| C73 | Model/Loader as for C24-C26; the faults of a definition as inductive relations over the definition alone (Spec/LoadFaults), no table, no order of lookups | each loader function that throws has met a fault of its argument, or as many steps as it had left (induction on the fuel, with the loader invariant); faults exclude meanings and are unique; the loop visits names in order, so the first faulty name is met first. Which too deep definitions load anyway depends on what was resolved before, and is left open (C25 `c25_loads` says which do load) |
| C74 | Model/AbiDefJson and Model/AbiDefBin as for C50 and C41; the shape of a document and the layout of bytes as data, their first fault as inductive relations (Spec/AbiFaults) | each reader of a member or section succeeds exactly on its shape (layout) and fails exactly with its fault, composed along the definition; then through Model/CApi. Byte strings of 2^32 bytes and more are left out |
| C75 | Model/Fuzzer: src/fuzzer.cpp on top of Model/CApi, with the struct layout of the usual 64-bit ABIs; Spec/Fuzzer says how an input is put together | splitting is inverted; sessions as `Calls` of the C interface; definedness from C51, and inputs that meet its exceptions (Props/Undefined) |
| C76 | no new code: the results of C60 and C61; Spec/Growth measures the names of a definition | sizes by induction over `Wire`, `Shown` and the JSON grammar (Proofs/Bounds); the unbounded families `ladder n` are loaded and converted for every `n` |
| C77 | `to_json` of the protocol's types (Model/ShipJson): C54 for the structs of Model/Ship, with each `transaction_status` replaced by the string `to_string` gives | the tree of the value in Spec/ShipJson; model and specification agree by induction over the value; a stored value either has a tree or a state without a name (induction over `Stored`) |
| C78 | the C interface (Model/CApi) with the conversion loops and loaded tables | `SameType`: a relation between types that is a bisimulation, given by what `Meaning` says of the definitions; the ordered loop is simulated step by step, the other two by induction over their recursive counterparts |
| C79 | the protocol's types (Model/Ship, generated from the header) against a hand-written ABI definition (Spec/ShipAbi), loaded by the modelled loader | a table that describes the C++ types and the loaded table correspond type by type (C78's relation, checked by evaluation in the kernel over the 163 types, which are all there are); C58 on the one side, C39 on the other, then hold for all data |
| C80 | any ABI definition, loaded by the modelled loader, and any C++ type; `LikeCpp` (Spec/StaticAbi): a relation between type texts and C++ types under which both are made alike | C56 builds a table for the C++ type alone; in it and in the loaded table the types correspond (C78's relation), so that C58 on the one side and C39 on the other give the theorems of C79 for all pairs |
| C81 | `Built` (Spec/Reexport): a loaded table, then `add_type`s (`AddType` of C56), then the modelled `to_abi_def` (C42) and the modelled loader again | an invariant of such tables (every name is sorted, every entry's parts have entries under the texts the export writes, structs' bases give a prefix of the members) makes the exported definition load to a table of the same meanings; described C++ types are then `LikeCpp` it, and C80's theorems apply |
| C82 | `Built` tables and the exporter of C42, C81; `lookups` (C26) for the texts looked up | the lists of the export are sorted by name, so they are determined by their members (`sorted_ext`); these are the entries of the table that are not optionals, arrays or extensions, which the loader gives back with the same meanings |
| C83 | `Encoded` (what the conversions of C27 make of some document) and `ReadAll` (calls of the `bin_to_json` machine, each on what the last one left), Spec/Records | C27 reads an encoding completely, C34 out of whatever follows, and the machine's result is unique; induction over the sequence |

## How a claim is organised

The statement of a claim is a theorem `cNN_...` in `lean/Verif/Props`. It mentions the model function it is about and otherwise only definitions of
`lean/Verif/Spec` (relations such as `Layout type value bytes`, `Encodes`, `Denotes`, `IsJson`, `Reads`, `LebGroups`, `Follows` ...), which do not call
the model. Where a specification has to mention a model type (documents, type tables, ABI definitions), it uses the data type and its projections. Some
specifications of the larger conversions call the model of a smaller one, which has a claim of its own:

| specification | calls | pinned down by |
|---|---|---|
| Encoding, Decoding, Layout, Defined | varuint32 to and from bytes | C01 |
| Decoding, Layout, StaticJson | the text of a JSON string | C18, C53 (`c53_string`) |
| Encoding, Layout, Occurs | the first alternative with a name | a three-line search (`findAlt`) |
| StaticJson, Lossless | the builtin types' text and bytes | C52 |
| StaticJson | the name of a C++ type | C56 (`c56_name`) |
| Lossless | texts of times, symbols, assets and floats | C07, C08, C11, C48 |
| AbiJson | the hash of names | C45 |
| BuiltinFormat | base58 digits and the key digest | C13, C44 |
| CApi | conversions, ABI loading | C24–C37 |
| JsonText (`Reads`) | the JSON reader | C53 |
| Shown | base58 digits, the key digest, the UTF-8 of a code point, the text of a float32/float64 (as a parameter) | C13, C44, C53, C48 |

The JSON conversions are modelled twice: as step machines that follow the C++ drivers (explicit stack, one `step` per loop iteration, frames with the
position and flags of the C++ stack entries), and as recursive functions (`Proofs/Ref*.lean`); the refinement theorems `jsonToBin_iff`, `reorderable_iff`
and `binToJson_iff` carry theorems from the second to the first. Every theorem of `Props` is about the machines.

## Trusted base

* **Kernel.** Lean 4.33.0's kernel. `decide +kernel` is used for finite tables (the kernel evaluates; no compiled code). No `native_decide`, no `bv_decide`.
* **Axioms.** No axiom is declared. Each theorem depends on a subset of `propext`, `Quot.sound`, `Classical.choice`, Lean's standard ones, as shown by
  `#print axioms`; AXIOMS.md lists the set for every claim theorem. vcheck replays every module.
* **The reading of the C++ into the model.** Every definition cites file and lines. This is the part the kernel does not check.
  As a check of this reading, `tools/conformance.py` runs the 333 cases of src/test.cpp (every `check_type`, `check_error` and direct call) on the model:
  all of them give the expected result. They are run by `Exec.exec` (Proofs/Exec.lean), a function that `exec_step` proves to give outcomes of the model.
* **Outside the model, trusted or left as a parameter:**
  * rapidjson (not in the repository): modelled by its contract, a reference reader that C53 proves to be the grammar of RFC 8259, and, for other texts, the
    events reported before the error (C66). Known difference: rapidjson refuses numbers that overflow a double. Which message it gives for an error is not
    modelled.
  * `strtod`/`strtof`: parameters (`Floats`) of the conversion of float texts to bits. Theorems that need more say so (`FloatBits`: results are in range;
    C27/C28 name the float texts they hold for; `RoundsCorrectly` in C59: correct rounding where the result is normal or zero).
  * `std::map`, `std::vector`, `std::string`, `std::optional`, `std::variant`: their mathematical behaviour. Allocation never fails.
  * The compiler, `char` being signed 8 bits and the machine little-endian (as the code itself assumes in its bitwise serialization).
  * `memcpy` and pointer validity at the C boundary: a `const char*` argument is a NUL-terminated text or null.

## Modelled, function by function

| file | modelled | not modelled |
|---|---|---|
| src/abieos.cpp | every exported function, the context, error texts, exception mapping | `abieos_create`/`destroy` beyond giving a fresh context |
| src/abi.cpp | all of it | |
| src/abieos.hpp | hex, unhex, the three conversion drivers and every per-kind function, both variants of 128-bit integers, check_abi_version | `json_to_jvalue`'s recursion guard is modelled as the depth check of receive_event |
| src/crypto.cpp, abieos_ripemd160.hpp | base58, key and signature texts, RIPEMD-160 | |
| src/fpconv.c, powers.h | fpconv_dtoa (Grisu2) with its tables | |
| include/eosio/abi.hpp | definitions, binary and JSON forms, might_not_exist, add_type | |
| include/eosio/from_bin.hpp, to_bin.hpp, stream.hpp | all serializers over a universe of types, vector/size/fixed-buffer streams | |
| include/eosio/from_json.hpp | integers, strings, hex, bool, vectors, objects, unknown members; token stream as a token list, up to the error if the text is malformed | reading in place (buffers) |
| include/eosio/to_json.hpp | strings, integers, floats, hex, vectors, optionals, variants, structs, convert_to_json, format_json | |
| include/eosio/to_key.hpp | all overloads over a universe of key types | varint32 (does not compile) |
| include/eosio/{name,symbol,asset,time,fixed_bytes,varint,bytes,float,operators,chain_conversions,murmur,types}.hpp | all text and arithmetic functions | comparison operators of `varuint32` and `varint32` (those of the numbers in them) |
| include/eosio/opaque.hpp | opaque over the universe of types | the lifetime of the buffer an opaque value points into |
| include/eosio/convert.hpp | conversions of structs, vectors, optionals, declared kinds, serialize_as in from_bin | the overload from input_stream to vector<char>; the compile-time assertion of convert_impl |
| include/eosio/ship_protocol.hpp | all structs and variants (binary forms and JSON), status texts | — |
| include/eosio/{chain_types,reflection,map_macro,for_each_field}.hpp | not modelled (data declarations and macros); their serializers are instances of C21-C23 | |
| tools/name.cpp | all; numbers, lines and stream flags of the C++ library as in the standards, C locale | `argc == 0`; an empty argument is read as having no first character (the code reads the terminating zero) |
| src/fuzzer.cpp, fuzzer.hpp | all, and the corpus writer of src/test.cpp | |
| src/{test,template_test,reflect_test,key_test}.cpp | not modelled (the cases of test.cpp are run on the model, tools/conformance.py) | |

## Findings (behaviour the theorems had to state around)

Each is visible in the model and, where it concerns a claim, in a theorem or a counterexample next to it.

1. The order-preserving conversion, at the end of an object, checks only that the *next* missing field is an extension.
2. `bin_to_json` prints `{,"b":{}}` for `struct{a: int8$, b: empty struct}` on empty input (a counterexample beside C31).
3. Depth limits differ between the conversions, and the loader's depth limit makes the error kind depend on what was resolved before.
4. The position of `bin_to_json` in an array is an `int`: an array of 2^31 empty structs overflows it.
5. `time_point` texts lose sub-millisecond digits; years above 9999 print their last four digits; times before 1970 do not read back.
6. `string_to_utc_seconds` overflows `int` from 2038-01-20 (undefined behaviour), accepts months 0 to 99 and days, hours, minutes and seconds 00 to 99; block_timestamp texts from 2068-01-19T03:14:08 wrap.
7. `symbol_code::is_valid` accepts 7 letters and any 8th byte; symbol precisions and asset amounts wrap silently when read.
8. `asset +=`/`-=` leave the out-of-range amount behind when they throw.
9. base58 decoding accepts NUL as the digit 58; bytes after the key inside a checksummed payload are ignored; legacy WIF texts are read without verifying their checksum.
10. `fp_to_json`'s buffer is one byte short for negative doubles whose text has 25 characters.
11. `abi → abi_def` replaces alternatives' texts by canonical names and drops actions and tables.
12. `set_abi` never replaces a loaded contract though it returns true; `last_error` keeps stale texts after a success; a failed lookup leaves the previous binary visible.
13. `hash_name` ignores the first byte of every whole 8-byte block, so names that differ only there collide; it sign-extends `char`.
14. `fixed_bytes` equality sees padding; `operator<` of assets throws for different symbols; `to_key` of varint32 does not compile.
15. Non-native 128-bit integers refuse "-0" and read "" as 0.
16. bool and presence bytes other than 0 and 1 are read into a `bool` by memcpy (modelled as true; formally undefined).
17. `get_type_name` of a variant joins the alternatives' names with `_`: different variants, or a variant and a struct, can have the same name, and `add_type` then silently uses the first one's entry.
18. A failed `add_type` leaves structs with only some of their fields; the next call finds the entry and succeeds with the incomplete description.
19. A struct named like a builtin type or an alias of the ABI gets that entry; an alias entry has no serializer.
20. An optional of an empty optional prints `null` and is read back as an empty optional; members missing from the JSON text of a struct keep their default value.
21. `from_bin` of a vector of numbers reads the count as a varuint64, `bin_to_json` as a varuint32: `80 80 80 80 10` is 2^32 elements for one and none for the other.
22. Subnormal doubles, and the smallest normal float, are printed as texts for which `strtod`/`strtof` may set `errno` (glibc does for inexact subnormal results): the library refuses what it printed.
23. `opaque::unpack_size` reads the count of a vector as a varuint32, `unpack` of a vector of numbers reads it as a varuint64 (as in 21): the two ways to unpack differ for counts of 2^32 and more. Writing a partly unpacked opaque value writes what is left, without the count already taken.
24. `convert` never converts to a variant, not even from the same variant type; elements of a destination vector keep their old values of members the source lacks; `serialize_as` is used by `from_bin` only, so such a type is not read back from what `to_bin` writes unless the two layouts agree.
25. `from_bin` of `ship_protocol::transaction_trace` recurses as deep as the traces in the input are nested, without a limit (`c65_nested`): 62 bytes of input per level. Nothing but the stack ends the recursion (the conversions driven by an ABI stop at 128 levels).
26. A type text with exactly 32 suffixes that denotes nothing is refused with `Recursion limit reached` or, if a text inside
    it was looked up before, with `Invalid nesting`: the message depends on earlier calls.
27. `abieos_bin_to_json` for a contract that is not loaded puts `contract ... is not loaded` into a local variable; the caller is
    told `binary decode error`.
28. `block_timestamp::maximum()` is slot 65535 (2000-01-01T09:06:07.5), not the largest slot (`c72_maximum`). `time_point_sec += microseconds` drops fractions toward zero, so `t += microseconds(-1)` leaves `t` unchanged, while `t + microseconds(-1)` is an earlier time.
29. The corpus files for `fuzzer_hex_to_json` hold hex digits, but the fuzzer hands them to `abieos_bin_to_json` as they are: `abieos_hex_to_json` and `abieos_set_abi_hex` are never fuzzed. All data the fuzzer decodes ends with a zero byte.
30. An ABI can make `abieos_bin_to_json` produce a text of 2^n characters from no bytes (`c76_text_from_nothing`, n up to 127: structs without data nested twice in each other) and an array of 2^31-1 empty objects from five bytes (`c76_array_of_nothing`); only the nesting depth is limited, not the size of the result.
31. Field names of a struct may repeat. The reorderable conversion then uses the one member for all of them, so that 6n+7 characters become 2^n bytes (`c76_repeated_names`).

## Testing the theorems

`seeded/LOG.jsonl` records, for about eight hundred edits of the model, the claim the edit breaks and the theorems whose proofs failed. Edits that left
the theorems of the claim standing led to the tightened theorems named there (`tightened`); they were repeated against the result (ids ending in `-r2`).
