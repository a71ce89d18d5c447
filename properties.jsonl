{"id": "C01", "title": "Accepted protocols are well formed", "statement": "If loading a protocol description succeeds, then in the loaded protocol: struct names are pairwise distinct, message names are pairwise distinct, no name is used by two of struct/message/enum, no struct/message/enum name is empty, contains ASCII whitespace or equals (case-insensitively) a built-in type name or 'list'; no member name contains whitespace; every member's type is a built-in type, 'string', a declared struct or a declared enum, never a message and never a list of lists; there are at most 255 messages; and both size types are integer types.", "quantifier": "every TOML document (any tables, arrays, strings, numbers in any position) that the loader accepts", "why_tests_cant": "The tests feed about thirty hand-written bad files, one per rule; the claim is about every document, including ones mixing several mistakes and wrongly shaped TOML values.", "anchors": ["beschi/protocol.py:Protocol.__init__", "beschi/protocol.py:Protocol._build_enum", "beschi/protocol.py:Enum.__init__"]}
{"id": "C02", "title": "Well-formed protocols are accepted unchanged", "statement": "Every protocol whose names, member types and enum values obey the documented rules and whose structs do not contain each other circularly is accepted when written as TOML, and the loaded protocol has exactly the written structs, messages, enums and members, in written order, with list members marked as lists.", "quantifier": "every well-formed acyclic protocol of any size", "why_tests_cant": "Tests load seven sample files; rejecting or reordering some other valid file would go unnoticed.", "anchors": ["beschi/protocol.py:Protocol.__init__", "beschi/protocol.py:Enum.__init__"]}
{"id": "C03", "title": "Circular struct containment is never accepted", "statement": "No protocol in which some struct contains itself, directly, through other structs, or through lists, is ever accepted by the loader.", "quantifier": "every protocol with a containment cycle of any length anywhere in the struct graph, in any declaration order", "why_tests_cant": "Two cycle shapes are tested (length 2 and length 3 through the first struct); the graph shapes are unbounded.", "anchors": ["beschi/protocol.py:Protocol.__init__ check_for_cycles"]}
{"id": "C04", "title": "Loading always terminates", "statement": "Loading any protocol description finishes: it either returns a protocol or raises an error.", "quantifier": "every protocol description", "why_tests_cant": "Non-termination cannot be shown by finitely many passing tests; a hang only shows on the one graph shape that causes it.", "anchors": ["beschi/protocol.py:check_for_cycles"]}
{"id": "C05", "title": "Enums use the narrowest integer that holds all their values", "statement": "An accepted enum is stored as a byte if all its numbers are in 0..255, otherwise as int16 if all are in -32768..32767, otherwise as int32 if all are in the int32 range; an enum with a number outside the int32 range is rejected.", "quantifier": "every enum declaration with any integer values", "why_tests_cant": "Boundaries are tested at 256 and 32768 entries only; the test file itself says the int32 limit cannot be tested.", "anchors": ["beschi/protocol.py:Enum.__init__", "beschi/protocol.py:NUMERIC_TYPE_RANGES"]}
{"id": "C06", "title": "Enum numbering, default and uniqueness", "statement": "For an accepted enum the numbers are pairwise distinct; an enum given as a list of names numbers them 0,1,2,... in order with no name repeated; the default entry is the first one listed; no name given in the description is dropped.", "quantifier": "every accepted enum declaration", "why_tests_cant": "A dropped or renumbered entry shows only for particular lists of names and values.", "anchors": ["beschi/protocol.py:Enum.__init__", "beschi/protocol.py:Enum.get_default_pair", "beschi/protocol.py:validate_enum"]}
{"id": "C07", "title": "Enum names are unique", "statement": "Two enums with the same name in one protocol description are rejected, as documented for structs, messages and enums.", "quantifier": "every protocol description with two enums of the same name", "why_tests_cant": "No test covers duplicate enum names; the claim is about all descriptions.", "anchors": ["beschi/protocol.py:Protocol.__init__", "docs/protocols.md"]}
{"id": "C08", "title": "Message identifiers", "statement": "In every generated library the identifier byte of the k-th declared message is k: identifiers are non-zero, pairwise distinct, fit in one byte, are the same in all eight languages, and the dispatcher maps each back to its own message.", "quantifier": "every accepted protocol, every message in it, every language", "why_tests_cant": "Each backend computes the number in its own way (dict enumeration, list index, implicit enum numbering); tests use at most five messages.", "anchors": ["beschi/writers/go.py", "beschi/writers/rust.py", "beschi/writers/c.py", "beschi/writers/csharp.py", "beschi/writers/swift.py", "beschi/writers/typescript.py", "beschi/writers/zig.py"]}
{"id": "C09", "title": "Static sizes are exact", "statement": "A type is reported as fixed-size exactly when no string and no list can be reached inside it, and the static size reported for it is the number of bytes every value of that type occupies on the wire; asking for the static size of any other type is refused.", "quantifier": "every accepted protocol, every type, every value", "why_tests_cant": "The number feeds the size arithmetic of every backend; tests check a handful of structs.", "anchors": ["beschi/protocol.py:Variable.is_simple", "beschi/protocol.py:Struct.is_simple", "beschi/protocol.py:Protocol.get_size_of"]}
{"id": "C10", "title": "One wire format", "statement": "Writing the same message value without a tag produces the same bytes in every language: members in declaration order, little-endian fixed-width numbers, booleans as 0/1, enums as their integer, strings and lists preceded by their length in the protocol's size type, structs inline.", "quantifier": "every accepted protocol, every message value whose lengths fit the size types, every language", "why_tests_cant": "CI compares eight files for one or two protocols; the claim covers all protocols, including different list and string size types, enums inside fixed-size structs and nested structs.", "anchors": ["beschi/writers/*.py:serializer", "beschi/writers/boilerplate/*", "docs/protocols.md"]}
{"id": "C11", "title": "Same-language round trip", "statement": "Reading back the bytes written for a message returns an equal message and consumes exactly the bytes written, whatever follows them.", "quantifier": "every accepted protocol, every message value whose lengths fit the size types, every continuation of the buffer, every language", "why_tests_cant": "Tests round-trip one filled-in message; values, protocols and trailing data are unbounded.", "anchors": ["beschi/writers/*.py:deserializer", "beschi/writers/*.py:serializer"]}
{"id": "C12", "title": "Cross-language interoperability", "statement": "A message written by any language's library is read by any other language's library as the same value, consuming the same number of bytes.", "quantifier": "every pair of languages, every accepted protocol, every message value whose lengths fit the size types", "why_tests_cant": "64 language pairs times all protocols and values; tests compare files for fixed samples only.", "anchors": ["beschi/writers/*.py", "beschi/writers/boilerplate/*"]}
{"id": "C13", "title": "GetSizeInBytes equals the number of bytes written", "statement": "GetSizeInBytes of a message equals the number of bytes that writing it untagged produces, and writing it tagged produces exactly one more.", "quantifier": "every accepted protocol, every message value, every language", "why_tests_cant": "Sizes are computed by separate generated arithmetic from the writing code; an error shows only for particular nestings, names or non-ASCII text.", "anchors": ["beschi/writers/*.py:gen_measurement"]}
{"id": "C14", "title": "Tagged writing", "statement": "Writing with tag=true produces the message's identifier byte followed by exactly the untagged bytes.", "quantifier": "every message value, every language", "why_tests_cant": "Holds for all values, not only for the sample.", "anchors": ["beschi/writers/*.py:gen_message"]}
{"id": "C15", "title": "Truncated messages are rejected", "statement": "If the bytes of a message are cut off anywhere before their end and nothing follows, reading the message reports an error rather than returning a message.", "quantifier": "every message value, every proper prefix of its bytes, every language", "why_tests_cant": "Tests truncate two messages at one place each; every cut point of every message matters.", "anchors": ["beschi/writers/*.py:deserializer", "beschi/writers/boilerplate/*"]}
{"id": "C16", "title": "Reading stays inside the buffer", "statement": "Reading from arbitrary bytes terminates with a message or an error, never looks at bytes outside the buffer, and never moves the position beyond the end of the buffer or backwards.", "quantifier": "every byte sequence and start position, every accepted protocol, every language", "why_tests_cant": "Arbitrary (hostile) input; fuzzing samples it.", "anchors": ["beschi/writers/boilerplate/*", "beschi/writers/*.py:deserializer"]}
{"id": "C17", "title": "Undeclared enum values are rejected on reading", "statement": "If a message is read successfully then every enum member in it, at any nesting depth, holds one of the declared values; reading bytes that carry an undeclared number reports an error.", "quantifier": "every byte sequence, every accepted protocol, every language", "why_tests_cant": "All byte values at all positions, including enums inside structs inside lists.", "anchors": ["beschi/writers/*.py:deserializer", "beschi/writers/*.py:gen_enum"]}
{"id": "C18", "title": "Every declared enum value survives", "statement": "Every declared enum value, whatever its number and its place in the declaration, is read back as itself.", "quantifier": "every enum declaration (any order, any gaps, negative numbers), every declared value, every language", "why_tests_cant": "Tests use enums whose last entry is the largest; other orders change the generated range checks.", "anchors": ["beschi/writers/typescript.py:gen_enum", "beschi/writers/typescript.py:deserializer"]}
{"id": "C19", "title": "Message streams", "statement": "Processing a byte stream made of any number of tagged messages, optionally ended by a zero byte, returns exactly those messages in order; with a limit k it returns the first k of them (none for k=0, all for a negative k) and leaves the position right after the last one returned.", "quantifier": "every list of messages, every limit, every language", "why_tests_cant": "Length of the stream, mix of message types and limit are unbounded.", "anchors": ["beschi/writers/*.py:ProcessRawBytes generation"]}
{"id": "C20", "title": "A zero byte ends a stream", "statement": "When the stream processor meets a zero byte where an identifier is expected it returns what it has read so far and ignores everything after it.", "quantifier": "every list of messages before and every bytes after the zero byte, every language", "why_tests_cant": "Unbounded streams and arbitrary trailing bytes.", "anchors": ["beschi/writers/*.py:ProcessRawBytes generation"]}
{"id": "C21", "title": "Unknown identifiers and broken messages in a stream are reported", "statement": "If an identifier that belongs to no message, or a message that cannot be read, is met in a stream before the limit is reached, the stream processor reports an error instead of returning a list.", "quantifier": "every list of messages before the bad item, every bad identifier byte, every bytes after, every language", "why_tests_cant": "Position and value of the bad item are arbitrary.", "anchors": ["beschi/writers/*.py:ProcessRawBytes generation", "beschi/writers/typescript.py"]}
{"id": "C22", "title": "Pack and unpack are inverse", "statement": "Unpacking what was packed returns the same messages in the same order, for any list of messages including the empty one, and a buffer packed in one language unpacks in every other.", "quantifier": "every list of fewer than 2^31 messages, every language pair", "why_tests_cant": "List lengths and contents are unbounded; tests pack one list.", "anchors": ["beschi/writers/boilerplate/*:PackMessages", "beschi/writers/boilerplate/*:UnpackMessages"]}
{"id": "C23", "title": "Packed size", "statement": "GetPackedSize of a list of messages equals the number of bytes that packing it produces.", "quantifier": "every list of messages, every language", "why_tests_cant": "Depends on every message size being exact.", "anchors": ["beschi/writers/boilerplate/*:GetPackedSize"]}
{"id": "C24", "title": "Unpacking checks header and count", "statement": "Unpacking succeeds only for buffers that start with the four bytes BSCI and whose 32-bit count equals the number of messages returned; anything else, including buffers shorter than the header, is reported as an error and never crashes.", "quantifier": "every byte sequence, every language", "why_tests_cant": "Arbitrary input bytes.", "anchors": ["beschi/writers/boilerplate/*:UnpackMessages"]}
{"id": "C25", "title": "Default values", "statement": "A freshly created message has zero numbers, false booleans, empty strings and lists, and the first declared entry for every enum at any depth of struct nesting, and it can be written and read back, in every language.", "quantifier": "every accepted protocol, every message, every language", "why_tests_cant": "Nesting of structs with enums is unbounded.", "anchors": ["beschi/writers/*.py:gen_default", "beschi/writers/*.py:gen_struct"]}
{"id": "C26", "title": "Fixed-buffer writing never overruns", "statement": "In the languages that write into a caller-supplied buffer (C, TypeScript, AssemblyScript, Zig), writing a message changes no byte outside the buffer and none before the starting position; with at least GetSizeInBytes bytes available (one more when tagged) it succeeds, and with fewer it reports failure. The same holds for packing messages, with GetPackedSize.", "quantifier": "every buffer length, starting position, message value and list of messages", "why_tests_cant": "All buffer sizes around the exact fit matter, for every message.", "anchors": ["beschi/writers/boilerplate/C.*.h", "beschi/writers/boilerplate/AssemblyScript.ts", "beschi/writers/boilerplate/TypeScript.ts", "beschi/writers/boilerplate/Zig.zig"]}
{"id": "C27", "title": "C: everything allocated by reading is released exactly once", "statement": "After a message has been read successfully from bytes in C, destroying it releases every block allocated while reading it exactly once, and nothing else.", "quantifier": "every accepted protocol, every message value", "why_tests_cant": "Leaks and double frees depend on nesting and list lengths; tests run one shape without a checker.", "anchors": ["beschi/writers/c.py:destructor", "beschi/writers/c.py:deserializer"]}
{"id": "C28", "title": "C: a created message is usable", "statement": "A message obtained from the create function in C can be written, measured and destroyed without touching uninitialised or unowned memory.", "quantifier": "every accepted protocol, every message", "why_tests_cant": "Undefined behaviour may pass a test by luck.", "anchors": ["beschi/writers/c.py:gen_message _Create", "beschi/writers/c.py:destructor"]}
{"id": "C29", "title": "Member renaming keeps members apart", "statement": "Renaming members to the target language's convention (capitalised in Go, snake case in Rust) keeps distinct members distinct and leaves the wire format unchanged.", "quantifier": "every accepted protocol", "why_tests_cant": "Collisions depend on particular name pairs.", "anchors": ["beschi/writers/go.py:__init__", "beschi/writers/rust.py:__init__", "beschi/writer.py:TextUtil"]}
{"id": "C30", "title": "Generated Rust readers keep members apart", "statement": "The value read for each member is the one returned for that member, whatever the other members are called.", "quantifier": "every accepted protocol whose members have distinct names", "why_tests_cant": "Local variable names introduced by the generator may capture a member with an unlucky name.", "anchors": ["beschi/writers/rust.py:deserializer"]}
{"id": "C31", "title": "The embedded DataView position is honoured (TypeScript)", "statement": "Reading and writing through a view that starts inside a larger buffer gives the same messages as through a view of a copy of just those bytes.", "quantifier": "every buffer, view offset and message", "why_tests_cant": "Tests use views starting at offset 0.", "anchors": ["beschi/writers/boilerplate/TypeScript.ts:DataAccess"]}
{"id": "C32", "title": "All documented size types work", "statement": "For each size type the loader accepts for lists and strings, generated code round-trips messages whose lengths fit it.", "quantifier": "every pair of list and string size types, every language, every message value", "why_tests_cant": "64 pairs of size types; tests use two pairs with equal types.", "anchors": ["beschi/protocol.py:Protocol.__init__ valid_sizes", "beschi/writers/*.py", "docs/protocols.md"]}
{"id": "C33", "title": "Number encodings", "statement": "Every value of every number type is written as its fixed-width little-endian two's-complement (or IEEE bit pattern) form and read back exactly; distinct values have distinct encodings; every byte pattern of the right width decodes to a value in range, and a boolean byte reads as true exactly when non-zero.", "quantifier": "every number type, every value, every byte pattern", "why_tests_cant": "2^64 values per type.", "anchors": ["beschi/writers/boilerplate/*"]}
{"id": "C34", "title": "The wire format is unambiguous", "statement": "For a given message type no two different values share an encoding and no encoding is a proper prefix of another, so a stream of messages can be split in only one way.", "quantifier": "every accepted protocol, every pair of values", "why_tests_cant": "Pairs of values are unbounded.", "anchors": ["docs/protocols.md", "beschi/writers/*.py:serializer"]}
{"id": "C35", "title": "Command line: failures write nothing", "statement": "When the arguments are incomplete, the protocol cannot be loaded, the language is unknown or generation fails, the tool exits with a non-zero status and leaves the output file untouched; on success it exits zero and the output file (or standard output) holds exactly the generated text.", "quantifier": "every combination of arguments, protocol outcomes and generation outcomes", "why_tests_cant": "Order of checks and effects over all combinations.", "anchors": ["beschi/cli.py:main"]}
{"id": "C36", "title": "Command line: namespace override is validated", "statement": "A namespace given on the command line is subject to the same rule (no whitespace) as one in the protocol file.", "quantifier": "every namespace string", "why_tests_cant": "Not covered by a test; all strings.", "anchors": ["beschi/cli.py:main", "beschi/protocol.py:Protocol.__init__"]}
{"id": "C37", "title": "Re-indentation preserves the program", "statement": "Replacing the indentation of boilerplate text changes only leading indentation: the sequence of lines and everything after the leading indentation of each line is kept, and a line keeps its indentation depth.", "quantifier": "every boilerplate text and every indentation string", "why_tests_cant": "Unbounded texts.", "anchors": ["beschi/writer.py:Writer.add_boilerplate", "beschi/writer.py:Writer.add_boilerplate.replace_indent"]}
{"id": "C38", "title": "Generated blocks are balanced", "statement": "Generating code for any accepted protocol ends at indentation level zero in every backend that checks it, so the balance assertion never fails and the nesting of emitted lines is properly bracketed.", "quantifier": "every accepted protocol, every language", "why_tests_cant": "The indentation counter is threaded through recursive emitters; protocols are unbounded.", "anchors": ["beschi/writer.py", "beschi/writers/*.py:generate"]}
{"id": "C39", "title": "What is loaded is exactly what is described", "statement": "A protocol loaded from a description has exactly the namespace, the size types (uint32 when left out), the structs, the messages, the members (in order, with their types and whether they are lists), and the enums (with their names and numbers) that the description declares; and a description of the documented shape is accepted with a given protocol exactly if it describes that protocol and the protocol obeys the documented rules.", "quantifier": "every parsed TOML document, every protocol", "why_tests_cant": "Documents are unbounded trees; a dropped, reordered or defaulted entry could depend on any combination of sections and keys.", "anchors": ["beschi/protocol.py:Protocol.__init__"]}
{"id": "C40", "title": "The generated text is the text of the modelled functions", "statement": "For every accepted protocol, all options and every target language, the generated file contains, for each enum, struct and message, the lines that are the language's notation for exactly the reading, writing and size statements (and default values) that the other properties are about, and the lines that choose a message by its number with exactly the numbers in declaration order.", "quantifier": "every accepted protocol, every indentation, embedded text and option, every target language", "why_tests_cant": "A wrong line could be written for one combination of member type, list, nesting and namespace only; behaviour proved about statements says nothing about such a line unless text and statements are shown to agree for all protocols.", "anchors": ["beschi/writers/rust.py:RustWriter.gen_struct", "beschi/writers/rust.py:RustWriter.generate", "beschi/writers/swift.py:SwiftWriter.gen_struct", "beschi/writers/swift.py:SwiftWriter.generate", "beschi/writers/go.py:GoWriter.gen_struct", "beschi/writers/go.py:GoWriter.generate", "beschi/writers/typescript.py:TypeScriptWriter.gen_struct", "beschi/writers/typescript.py:TypeScriptWriter.generate", "beschi/writers/csharp.py:CSharpWriter.gen_struct", "beschi/writers/csharp.py:CSharpWriter.generate", "beschi/writers/c.py:CWriter.gen_struct", "beschi/writers/c.py:CWriter.gen_implementation", "beschi/writers/c.py:CWriter.generate"]}
{"id": "C41", "title": "Zig: everything allocated by reading is released exactly once", "statement": "After a message, a stream or a packed list of messages has been read successfully in Zig, with any allocator, the memory holds the value that was read, and calling deinit on it (for a list: on every message that has one, and freeing the list) releases every block allocated while reading it exactly once, and nothing else. A message with default members can be deinitialised too; that releases nothing.", "quantifier": "every accepted protocol, every buffer, every allocator (which may refuse any request)", "why_tests_cant": "Leaks and double frees depend on nesting, on list lengths (empty slices are special) and on how the list of messages grows; tests run a few shapes with one allocator.", "anchors": ["beschi/writers/zig.py:ZigWriter.destructor", "beschi/writers/zig.py:ZigWriter.gen_struct", "beschi/writers/zig.py:ZigWriter.generate", "beschi/writers/boilerplate/Zig.zig:readList"]}
{"id": "C42", "title": "Zig: a failed read leaves nothing allocated", "statement": "If reading a message, a stream or a packed list of messages fails in Zig (data that ends early, invalid data, an allocator that refuses), every block allocated on the way has been released, as the caller gets no value that could be released.", "quantifier": "every accepted protocol, every buffer, every allocator (which may refuse any request)", "why_tests_cant": "There is a failure point after every byte of every message and at every allocation; the errdefer in readList handles only some of them, and the tests for broken data use messages without texts or lists before the broken part.", "anchors": ["beschi/writers/boilerplate/Zig.zig:readList", "beschi/writers/boilerplate/Zig.zig:unpackMessages", "beschi/writers/zig.py:ZigWriter.gen_struct", "beschi/writers/zig.py:ZigWriter.generate"]}
{"id": "C43", "title": "Zig: memory asked for is limited by the data", "statement": "While reading a message in Zig, no single request to the allocator is for more elements than there are bytes in the buffer.", "quantifier": "every accepted protocol, every buffer", "why_tests_cant": "A hostile length needs only a few bytes; tests use data written by the library, where lengths are honest.", "anchors": ["beschi/writers/boilerplate/Zig.zig:readString", "beschi/writers/boilerplate/Zig.zig:readList"]}
{"id": "C44", "title": "Embedding the protocol adds only a comment", "statement": "With --embed-protocol the output is the output without it, with one comment added that contains the text of the protocol; nothing else changes, and in particular generation fails with the option exactly if it fails without it.", "quantifier": "every protocol, every text of it, every language and all other options", "why_tests_cant": "The text of a protocol is arbitrary: any comment or name in it ends up in the generated file, and whether it can end the comment early depends on the language; no test uses the option.", "anchors": ["beschi/cli.py:main", "beschi/writers/c.py:CWriter.generate", "beschi/writers/csharp.py:CSharpWriter.generate", "beschi/writers/go.py:GoWriter.generate", "beschi/writers/rust.py:RustWriter.generate", "beschi/writers/swift.py:SwiftWriter.generate", "beschi/writers/typescript.py:TypeScriptWriter.generate", "beschi/writers/assemblyscript.py:AssemblyScriptWriter", "beschi/writers/zig.py:ZigWriter.generate"]}
{"id": "C45", "title": "Protocols can be extended", "statement": "Adding structs, enums and enum values to a protocol, and messages after the existing ones, changes nothing for the messages that were there: they keep their identifiers and bytes, so that programs generated before and after understand each other in both directions, in streams and packed data too, and a program from before reports a message it does not know.", "quantifier": "every pair of accepted protocols of which one extends the other, every pair of languages, every message", "why_tests_cant": "The tests never generate code for two versions of a protocol; the claim is about all pairs of versions.", "anchors": ["beschi/protocol.py:Protocol.__init__", "beschi/protocol.py:Enum.__init__", "beschi/writers/rust.py:RustWriter.generate"]}
{"id": "C46", "title": "The embedded DataView position is honoured (AssemblyScript)", "statement": "Reading, writing, processing, packing and unpacking through a view that starts inside a larger buffer gives the same result as through a view of a copy of just those bytes, and changes no byte outside the view.", "quantifier": "every accepted protocol, buffer, view offset, view length and message", "why_tests_cant": "Tests use views starting at offset 0 and covering the buffer.", "anchors": ["beschi/writers/boilerplate/AssemblyScript.ts:DataAccess", "beschi/writers/boilerplate/AssemblyScript.ts:UnpackMessages", "beschi/writers/boilerplate/AssemblyScript.ts:PackMessages"]}
{"id": "C47", "title": "What does not matter in a description", "statement": "Two descriptions that differ only in the order of sections and of keys other than members, in keys that are not documented, or in sections that are empty or left out, are loaded alike. If the structs and enums of an accepted description are put in another order it is still accepted, and programs generated from both exchange the same bytes.", "quantifier": "every pair of descriptions", "why_tests_cant": "The tests have one order for each description; the claim is about all orders and all further keys.", "anchors": ["beschi/protocol.py:Protocol.__init__", "beschi/protocol.py:Enum.__init__"]}
{"id": "C48", "title": "Writers for one protocol object do not influence each other", "statement": "A program that loads a protocol once and constructs several writers for it gets from each call of generate the text that this writer would return had it been the only one, in whatever order writers are constructed and used and however often generate is called; and the libraries generated write and read the same bytes whatever was done before.", "quantifier": "every accepted protocol, every sequence of constructing writers and calling generate, all options", "why_tests_cant": "The tests start one process per language, so no writer ever sees a protocol that another one has had; the claim is about all sequences.", "anchors": ["beschi/writer.py:Writer.__init__", "beschi/writers/go.py:GoWriter.__init__", "beschi/writers/rust.py:RustWriter.__init__"]}
{"id": "C49", "title": "Command line: options of other languages have no effect", "statement": "Each writer finds the options it looks up among those the tool passes on, and flags documented for another language than the one asked for (--go-no-rename, --rust-no-rename, --typescript-use-namespace) change neither the exit status nor the standard output nor any file.", "quantifier": "every file system, all arguments, every language", "why_tests_cant": "The tests run each writer with its own flags only; the claim is about all combinations of flags, languages and protocols.", "anchors": ["beschi/cli.py:main", "beschi/writers/go.py:GoWriter.__init__", "beschi/writers/rust.py:RustWriter.__init__", "beschi/writers/typescript.py:TypeScriptWriter.__init__"]}
{"id": "C50", "title": "The namespace names the generated code", "statement": "With a namespace n: Swift wraps everything in `enum n`, C# in `namespace n`, TypeScript in `namespace n` if asked to with --typescript-use-namespace; Go makes the package n (in snake case, or as written with --go-no-rename); Rust calls its error type nError; C guards the header by INCLUDE_N_H, with n in upper case. TypeScript without the flag, AssemblyScript and Zig ignore the namespace altogether, as documented. Without a namespace, or with an empty one, no name is made up.", "quantifier": "every accepted protocol, every namespace that is text, all options", "why_tests_cant": "Tests use one or two namespaces and only check that the output compiles; the claim is about every namespace and every combination of options.", "anchors": ["beschi/writers/swift.py:SwiftWriter.generate", "beschi/writers/csharp.py:CSharpWriter.generate", "beschi/writers/typescript.py:TypeScriptWriter.generate", "beschi/writers/go.py:GoWriter.generate", "beschi/writers/rust.py:RustWriter.generate", "beschi/writers/zig.py:ZigWriter.generate", "beschi/writers/c.py:CWriter.__init__"]}
{"id": "C51", "title": "C reports that memory has run out while reading", "statement": "If BESCHI_MALLOC or BESCHI_REALLOC returns NULL for any request made while a message, a stream or packed messages are read, reading returns ERR_ALLOCATION_FAILURE and touches no memory it was not given; a read that returns ERR_OK has the value that it would have with enough memory, and if no request is refused the outcome is the one for enough memory. Every text, list and message of a successful read has a request of its own.", "quantifier": "every protocol, every input and position, every allocator (which requests are refused)", "why_tests_cant": "The tests run with an allocator that never refuses; which of the unboundedly many requests is refused is a further input.", "anchors": ["beschi/writers/c.py:CWriter.deserializer", "beschi/writers/c.py:CWriter.generate"]}
