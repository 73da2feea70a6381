{
 "C01": {
  "note": "Round trip, shortest encoding, refusal of values over 32 bits, acceptance and error cases of the reader, for every input byte string."
 },
 "C02": {
  "note": "Round trip for every int32; zig-zag bijection; small magnitudes are short."
 },
 "C03": {
  "note": "Round trip; the decoder accepts exactly even-length hex texts; re-encoding gives upper case."
 },
 "C04": {
  "note": "Both directions, for all 2^64 values and all accepted texts."
 },
 "C05": {
  "note": "Exact acceptance of the strict parser, agreement with and totality of the lenient one; name literals of the compiler."
 },
 "C06": {
  "note": "Integer order = padded text order for all 2^64 x 2^64 pairs."
 },
 "C16": {
  "note": "Exact acceptance (mathematical value iff in range) for every width; printing then parsing; print buffer bound."
 },
 "C17": {
  "note": "For arrays of every size, not only 16 bytes."
 },
 "C45": {
  "note": "Murmur64 modelled bit for bit; totality and agreement with the strict parser."
 },
 "C07": {
  "note": "Round trips for every valid code; is_valid characterised exactly (7 letters with any 8th byte are accepted: finding i)."
 },
 "C08": {
  "note": "Every amount except -2^63, every precision below 256 and every valid code."
 },
 "C09": {
  "note": "Every operation and every sequence of operations; += and -= leave the out-of-range amount when they throw (finding j)."
 },
 "C10": {
  "note": "All integers; Gregorian calendar specified by leap-year and month-length rules."
 },
 "C11": {
  "note": "Every instant the parser's 32-bit seconds can hold; sub-millisecond digits of a time_point are lost (finding e), shown by a theorem."
 },
 "C12": {
  "note": "All 2^32 slots."
 },
 "C13": {
  "note": "All byte strings; alphabet texts re-encode to themselves."
 },
 "C14": {
  "note": "For every digest function with 20-byte output; RIPEMD-160 is an instance."
 },
 "C15": {
  "note": "Acceptance implies the checksum matches, for every text and digest."
 },
 "C18": {
  "note": "All byte strings; rendering is a JSON string and valid UTF-8; read back exactly if the input was UTF-8."
 },
 "C21": {
  "note": "Universe of type descriptions closed under all constructors, any nesting depth."
 },
 "C22": {
  "note": "convert_to_bin for every type description."
 },
 "C23": {
  "note": "Every reader of the same universe."
 },
 "C29": {
  "note": "Stated for documents in ABI order without unknown keys; any ABI table."
 },
 "C30": {
  "note": "Permutation and unknown members, at every depth."
 },
 "C32": {
  "note": "Machine models with explicit step functions: every run ends; ordered conversion has a linear bound."
 },
 "C33": {
  "note": "Stack bound as invariant of every reachable machine state; no refusal below the limit."
 },
 "C35": {
  "note": "Binary extensions, top level tail only."
 },
 "C36": {
  "note": "Both conversions proved equal to the recursive encoding, for every table, document and nesting."
 },
 "C37": {
  "note": "Last value wins / repeated keys rejected."
 },
 "C44": {
  "note": "Spec/Ripemd160.lean is written from the paper (80-step form, rho/pi, shift table by message word); chunks of 2^31 bytes or more are refused by the code and are outside the model."
 },
 "C48": {
  "note": "Full Grisu2 analysis: all finite doubles, with the power table checked by the kernel."
 },
 "C49": {
  "note": "Exact condition of the 25th character, and a witness (finding p)."
 },
 "C27": {
  "note": "All ABIs, types and documents, with the real serializers of all 31 builtin types. What a scalar must satisfy is Spec/Lossless.lean; strtof/strtod are parameters."
 },
 "C28": {
  "note": "All ABIs, types and byte strings, with the real serializers of all builtin types. Conditions on scalars: Spec/Lossless.lean."
 },
 "C31": {
  "note": "All byte strings; also through the reference JSON reader. Example.lean shows that the condition on extensions is needed (output `{,\"b\":{}}`)."
 },
 "C34": {
  "note": "All byte strings and continuations, with the real serializers of all builtin types. The C entry point's refusal of leftover bytes belongs to C40."
 },
 "C24": {
  "note": "All definitions. Termination with a unique result, the resolved-table invariant, and rejection of every typedef cycle (also through wrappers) and every inheritance cycle (also through typedefs)."
 },
 "C25": {
  "note": "All definitions, against an independent inductive meaning of ABI definitions that is shown to be unique; also a sufficient condition for loading (distinct names, everything found within 32 steps)."
 },
 "C26": {
  "note": "All loaded ABIs and all lookup histories, including failed lookups that leave entries behind. Lookups find exactly what the text denotes; conversions are unaffected. The kind of error of a failing lookup may depend on the history."
 },
 "C42": {
  "note": "All loaded ABIs, after any lookups. The exception for variants that list typedefs is witnessed by an example."
 },
 "C41": {
  "note": "Byte layout of the whole definition, round trip, the optional trailing variants section, every storable definition, generic reader and writer agree."
 },
 "C50": {
  "note": "Exact: the reader returns d iff the independent description AbiDoc relates document and d."
 },
 "C38": {
  "note": "Over all histories of calls on a context. Loads and queries never have undefined behaviour; conversions may (C51)."
 },
 "C39": {
  "note": "Over all histories: answers depend only on the definition loaded first under the contract's name. Finding: a second set_abi for a contract returns true but has no effect."
 },
 "C40": {
  "note": "Over all histories. Finding: when the type lookup fails the previous result stays visible."
 },
 "C43": {
  "note": "Any byte and word counts. Finding: words with non-zero padding compare unequal although their bytes are equal."
 },
 "C46": {
  "note": "Length, suffix, prefix and rejoining for every 64-bit name value."
 },
 "C19": {
  "note": "All key types: integers and enums of any size, bool, float, double, varuint32, strings, fixed_bytes, containers, arrays, optionals, variants, tuples and reflected structs, nested at will. varint32 keys do not compile."
 },
 "C20": {
  "note": "Same universe as C19."
 },
 "C47": {
  "note": "Any struct, any field types. Finding: asset's own < throws for different symbols, so it is not total."
 },
 "C51": {
  "note": "Undefined behaviour is what the model marks as such: overflow of signed positions, negation of -2^63, writing past fp_to_json's buffer, reads outside the modelled alternatives. A bool byte other than 0 or 1 is read as true. Time texts outside the range wrap in the model; c51_date says exactly which dates these are. Malformed JSON texts are included (c51_call_json_to_bin with ShortText; c66_defined). That the exceptions are met: c51_call_smallest_amount, c51_call_long_double, c51_call_huge_array."
 },
 "C52": {
  "note": "Spec/BuiltinFormat.lean is one line per type. strtof/strtod are parameters. Times: c52_scalar_to_binary covers every text (Spec/TimeText.lean); c52_times spells out calendar dates from 1970 to 2106."
 },
 "C53": {
  "note": "rapidjson is not in the repository: the reader is its contract, here proved equal to the RFC grammar. rapidjson additionally refuses numbers overflowing a double."
 },
 "C54": {
  "note": "Exact texts as a function of the tree of the value; success and failure alike; both texts derive the same document in the RFC 8259 grammar. Texts of builtin values are those of C07-C18, C48. c54_prints: every storable value has a text, but for the scalars of C51."
 },
 "C55": {
  "note": "Read = Given in both directions for every RFC 8259 text without duplicate names; both written forms are read back. Values JSON cannot carry (optional of empty optional, lossy leaves as in C27, names that are not UTF-8 or occur twice) are excluded by Carried, with a counterexample shown."
 },
 "C56": {
  "note": "Names of the types used must differ (get_variant_type_name joins with _, so variants and structs can clash; counterexample shown) and entries already there must agree. A failed call can leave structs with only some of their fields (example)."
 },
 "C57": {
  "note": "Values of builtin types are represented by their bytes (LeafBytes says which). A struct with a might_not_exist that is not there is not covered as a written value: to_bin writes its default value. 64-bit platform, memory suffices for resize."
 },
 "C58": {
  "note": "Vectors of fixed-size numbers are excluded from the statement about arbitrary inputs because from_bin reads their count as varuint64 and bin_to_json as varuint32 (counterexamples shown); what convert_to_bin writes is covered for them too. Extensions are excluded (there is no to_json for might_not_exist, and to_bin of an absent one writes a default value)."
 },
 "C59": {
  "note": "strtod/strtof are hypotheses (Spec/CLibrary.lean): correct rounding for texts in the normal range, zero, infinity and NaN; a library that meets them is constructed (exactFloats). Subnormal numbers, NaN payloads and the smallest normal float are excluded: the C library may report underflow, and the library then refuses its own text."
 },
 "C60": {
  "note": "The JSON reader is rapidjson's contract (C53). Conditions on the definition: fewer than 2^31 fields per struct; for json_to_bin also distinct field names and extensions last; for bin_to_json also UTF-8 names and fewer than 2^32 alternatives. The way back needs a C library that rounds correctly (C59) and scalars whose text says all of them (KeptScalar)."
 },
 "C61": {
  "note": "Conditions on the definition: fewer than 2^31 fields per struct, extensions last. Which of the possible shortest-style digits a double is shown with is left to the printer (C48 says which texts are possible); a negative double of 24 digits and an asset of -2^63 units are undefined behaviour (C49, C51) and not shown."
 },
 "C62": {
  "note": "The bytes an opaque value points at are modelled as its own; that they outlive it is up to the user."
 },
 "C63": {
  "note": "The overload converting an input_stream to a vector of char is not modelled."
 },
 "C65": {
  "note": "Model/Ship.lean is generated from the header by tools/ship.py. input_stream and opaque members are modelled by their bytes; their JSON is C77; the depth of the recursion is limited by the stack only, which is not modelled."
 },
 "C66": {
  "note": "The events rapidjson reports before the error are modelled by Reader.upTo (one event per token; the last event is lost if something follows the document). Which of rapidjson's messages is given is not modelled. A type or contract error comes before the text is looked at and is the same for every text."
 },
 "C67": {
  "note": "The texts of Spec/Messages.lean are generated from the headers by tools/messages.py. A type text with more than 31 suffixes that denotes nothing is refused with 'Unknown type', 'Invalid nesting' or 'Recursion limit reached' (c67_no_type_any); which of them can depend on earlier lookups. Which of the errors the loader or a conversion ends with is given by the model relations LoadTypes, JsonToBin, JsonToBinReorderable and BinToJson. What std::bad_alloc says is not stated."
 },
 "C68": {
  "note": "Memory is taken to suffice for the containers that are resized before their elements are read (as in C21). With extensions an error other than 'Stream overrun' may change when bytes are added, because a field that was skipped is read then; that case is not claimed."
 },
 "C69": {
  "note": "std::stoull with base 0, std::getline and std::showbase/std::hex are modelled from the standards (C locale). As an argument a negative number is an option ('-1' ends with code 2); as a line of input it is a number."
 },
 "C70": {
  "note": "Syntactically malformed texts are C66; types that do not exist and contracts that are not loaded C67. Documents are shorter than 2^31 bytes (base58 lengths in int)."
 },
 "C71": {
  "note": "Both directions: the call tells a message exactly if the bytes have the fault with this message. Array elements are counted in an int, so at most 2^31 are looked at before the behaviour is undefined (C51). Which scalars begin the bytes is C61."
 },
 "C72": {
  "note": "Undefined behaviour is int64_t overflow only; uint32_t wraps."
 },
 "C73": {
  "note": "Exact for definitions without a chain of 32 steps; for the others the reason told is the first fault or the recursion limit. Names that cannot be declared are in C67."
 },
 "C74": {
  "note": "Byte strings shorter than 2^32 bytes. Syntactically malformed texts are C66; definitions that can be read but not loaded C73."
 },
 "C75": {
  "note": "Layout of fuzzer_header as in the usual 64-bit C++ ABIs, little-endian. c75_undefined: inputs of 69 bytes (and all of their kind) do run into the exception of C51."
 },
 "C76": {
  "note": "Both families without a bound are reachable through set_abi_bin."
 },
 "C77": {
  "note": "A double of 24 digits is the exception of C49. get_blocks_result_v1 has members of type opaque, for which there is no to_json."
 },
 "C78": {
  "note": "The structure is a correspondence between types (Spec/SameType); c78_refl, c78_symm, c78_trans say that it is an equivalence. Error texts included; of malformed documents, for which the parser's own message is not modelled exactly, the same messages are possible."
 },
 "C79": {
  "note": "The value's text is that of the members as they are stored: the state of a transaction is its number (the C++ to_json prints its name: C77), a stream is bytes, an opaque member its bytes. C++ has no from_json for streams; for types that contain them, c79_json_to_bin_reorderable and c79_json speak of the same struct with bytes instead. Data of less than 2^32 bytes; documents with no key twice in an object; no vector of 2^31 elements or more, which 64-bit data could have in C++."
 },
 "C80": {
  "note": "The C++ type has no might_not_exist and no two types of the same name, and, for showing, no vector of fixed-size numbers (C++ reads their size as 64 bits). Data of less than 2^32 bytes; documents with no key twice in an object. The example is the ABI of test.cpp with the transaction of ship_protocol.hpp."
 },
 "C81": {
  "note": "The C++ types added have names that no other type of the ABI has (NamesDiffer, Agrees), structs with names and members that differ. As in C80: no might_not_exist, no vector of fixed-size numbers for showing, data of less than 2^32 bytes, documents with no key twice in an object."
 },
 "C82": {
  "note": "Stated for tables that are Built (loaded, then C++ types with different names added), as in C81."
 },
 "C83": {
  "note": "For encodings of documents that C27 speaks about. The condition on extensions is needed: an example shows a type of which one encoding is the beginning of another."
 }
}