# Design of the formal model of beschi

Source of truth: `/repo` (sjml/beschi at the pinned commit), read as text only.
The deliverable is the Lean 4 project in `lean/`; the properties are in
`properties.jsonl`, their status and theorem names in `MANIFEST.json`, and the
wrong programs the theorems were tried on in `seeded/LOG.jsonl`.

## What is modelled, and how

beschi is a Python program that turns a TOML protocol description into source
code for eight target languages.  A user relies on three things: the loader
accepts the right descriptions, the generated code does the right thing when it
runs, and the tool writes that code where it should.

| layer | Lean modules | code in `/repo/beschi` |
|---|---|---|
| Loader | `Protocol/Basic`, `Protocol/Load`, `Protocol/Sizes` | `protocol.py`, all of it: `Variable`, `Struct`, `Enum`, `Protocol` |
| Generated functions as statements | `Lang/Reader`, `Lang/Writer`, `Lang/Measure`, `Lang/Create`, `Lang/Names`, `Lang/Rename` and one file per language: `Lang/{Rust,CSharp,Swift,TypeScript,AssemblyScript,Go,Zig,C}` | `writers/*.py`: `serializer`, `deserializer`, `gen_measurement`, `gen_default`, `gen_struct`, enum checks, ids; `TextUtil` |
| Library code shipped with the output | `Lang/Library` and the language files | `writers/boilerplate/*` : streams (`ProcessRawBytes`), packing, unpacking, packed size, readers and writers of primitives |
| Memory | `Lang/CMemory`, `Lang/CAlloc`, `Lang/ZigMemory` | `c.py` and `C.1.h`: allocation while reading (in `CAlloc` with an allocator that may refuse), `_Create`, `_Cleanup`, `_Destroy`, `DestroyMessageList`; `zig.py` and `Zig.zig`: allocation with an allocator that may refuse, `errdefer`, `deinit`, the growing list of messages |
| Buffers of fixed size, views | `Lang/Buffer`, `Lang/Fixed`, `Lang/AssemblyScriptView` | TypeScript, AssemblyScript, C, Zig |
| The text itself | `Text/Writer`, one file per language `Text/*`, `Text/Boilerplate`, `Text/Generate`, `Text/Session` | `writer.py` and every line written by `writers/*.py`, with indentation, dictionaries and exceptions; the boilerplate files verbatim |
| Notation of statements | `Syntax/*`, one file per language | the lines that the statements of `Lang/*` stand for, apart from the functions that write text |
| Command line | `Cli/Main` | `cli.py` |

The generators appear twice.  In `Lang/*` a generator is a function from the
protocol to a small statement language with a meaning (what the emitted lines do
when they run); the properties about behaviour are about these.  In `Text/*` a
generator is the Python function line by line, with the exact text as result;
the properties about the text are about these.  `Syntax/*` gives the notation of
the statements in the target language; C40 says that the text contains, for every
function, the notation of its statements.

Specifications are apart from all of this, in `Spec/*`, and mention no function
of the model: what a well-formed protocol is (`Spec/WellFormed`), what a
description says (`Spec/Described`), the wire format as a relation between values
and bytes (`Spec/Wire`), sizes, default values, which values a program can put
into a message (`Spec/Typed`), what can come out of arbitrary data
(`Spec/Shape`), naming conventions (`Spec/Names`), matched brackets
(`Spec/Brackets`), indented lines (`Spec/Indent`), what the tool is asked for
(`Spec/Cli`).

Property theorems are in `Props/*`; everything named `*Proof`, `*Lemmas` or
`*Link` is helper material.

## Per property

"witness" means that the property as stated is false of the code, and that this
is proved with a concrete accepted protocol or run; the theorems with suffix
`_partial` then say under which conditions it is true.

| id | model | proof |
|----|-------|-------|
| C01 | loader | inversion of the loader, case by case |
| C02 | loader | forward evaluation on the rendering of any well-formed protocol |
| C03 | cycle check, a loop with fuel | a cycle is never exhausted: every run raises or goes on |
| C04 | same | false: a struct leading into a cycle; only circular descriptions hang |
| C05 | `Enum` | case analysis of the first-fit loop |
| C06 | `Enum`, validation | induction on the list of values; false for repeated names with numbers |
| C07 | dictionary of enums | false: witness |
| C08 | message ids in each language | list indexing |
| C09 | `is_simple`, `get_size_of` | induction on nesting |
| C10-C14, C18, C25 | writers, readers, measuring, defaults | refinement of the wire format in both directions, language by language (`Lang/*Proof`), collected as laws (`Lang/Laws`), under conditions on the protocol (`Lang/Support`); `Props/Limits` shows that the conditions are needed |
| C15-C17, C21, C24 | readers on arbitrary data | induction on statements, per language |
| C19, C20, C22, C23 | stream loop, packing | induction on the list of messages |
| C26 | fixed buffers | the pieces written are stored one after the other or do not fit |
| C27, C28 | C heap | the set of allocated blocks before and after; C28 false: witness |
| C29 | renaming | false: collisions; what renaming does, that bytes do not depend on it |
| C30 | local variables in Rust readers | false: shadowing; true without |
| C31 | `DataView` with an offset | false for text, packing, unpacking; true otherwise |
| C32 | types of lengths | a table per language, with a proof or a witness for every entry |
| C33 | numbers | arithmetic |
| C34 | wire format | every text can be read in one way only |
| C35, C36 | command line | case analysis; both false in one case: witness |
| C37 | `add_boilerplate` | induction on lines; all lines of the boilerplate files |
| C38 | all functions that write text | a rule for each writing operation (`Text/Runs`) followed line by line; brackets by a stack |
| C39 | loader | both directions, against `Spec/Described` |
| C40 | `Lang/*`, `Text/*` and the notation `Syntax/*` | the text functions are followed line by line (`Text/Emits`); the type lookups are evaluated for every known type (`Text/Lookup`); size computations by induction on the nesting (`Text/SizeLink`) |
| C41 | Zig heap, allocator as a parameter | the set of allocated blocks before and after, by induction on what is read |
| C42 | same | false: witness; exactly which messages leave nothing behind: all members but the last are of fixed size, and so on inside the last one |
| C43 | same | false for lists: witness; true for messages without lists |
| C44 | all functions that write text | what is written does not depend on what was written before (`Text/Appends`), so that the part after the comment is the same with and without; comments by counting how deep one is inside; false for some texts: witnesses |
| C45 | wire format, `Lang/*` | induction on the layout; the laws of the languages for both protocols; what is loaded from C39; false for enum values that need more room: witness |
| C46 | `Lang/AssemblyScriptView` | C26 for the bytes shown; unpacking: which bytes are looked at, exactly; false unless the view starts at 0: witness |
| C47 | loader, wire format | the loader looks up keys only; C39 in both directions for the order of structs and enums; C45 in both directions for the bytes |
| C48 | writers' constructors, text | sessions: one protocol object, writers that share it, `generate` at any time; renaming is idempotent; C38 for the level left by `generate`; counterexamples by evaluation of the generated text |
| C49 | command line | the dictionary of options is filtered by name as in Python; evaluated for each of the eight languages |
| C50 | text | the line after the preamble; replacements in the first lines of the boilerplate; for languages that ignore the namespace, both texts are the same by evaluation with an unknown protocol; counterexamples as theorems |
| C51 | C reading with an allocator as a parameter | the requests made are numbered; a relation between the attempt and `C.read`, kept by sequencing; counterexample as a theorem |

## Trusted base

* Lean's kernel.  No `native_decide`, no `bv_decide`, no axioms of our own.
* Axioms: all theorems named in `MANIFEST.json` depend on `propext`,
  `Classical.choice` and `Quot.sound` at most (`C26_pack_fails_c_overrun` on
  `propext` only).  They come in through Lean's own simplifier and library.
  `#print axioms` on any of them shows it.
* The reading of `/repo` that produced the definitions.  Each cites its lines.
* The meaning given to emitted statements, i.e. the runtimes of the target
  languages: fixed-width numbers are little-endian two's complement and IEEE
  bit patterns (`Lang/Numbers`); text is decoded as UTF-8, and where a runtime
  repairs text that is not UTF-8 the result is a parameter about which nothing is
  assumed; what is an exception, a trap or undefined behaviour is said at the
  head of each language file.

## What is not modelled

* TOML parsing: the loader is given the parsed document (any value a TOML parser
  can return).  `argparse`.  The standard error stream.  I/O errors other than
  a file that cannot be read, opened for writing, decoded or encoded.
* Python's recursion limit, and running out of memory or time, except memory in
  generated C and Zig (C41 to C43, C51).
* `upper`, `lower` and `capitalize` beyond ASCII letters.
* Namespaces that are arrays or tables (the loader accepts them) in generated
  text.
* Whether names are legal in the target language: keywords, characters, names
  of standard types, macros.  File-level clashes of names in Rust, C#, Swift,
  TypeScript and AssemblyScript (those in Go, Zig and C are modelled).  Whether a
  name in Go that does not start with an ASCII letter is exported.
* That a compiler gives the notation in `Syntax/*`, which C40 finds in the text, the
  meaning of the statements in `Lang/*`; and, of the library code in the boilerplate
  files, everything but what is said there (the files are in `Text/Boilerplate`).
* Overflow of sizes (`GetSizeInBytes` and the like beyond the range of their
  type), `x_len * n` in C.  C: `string.h` is not included by the header; the host
  is little-endian; `malloc(0)` is not null; empty structs are a GNU extension.
* Zig: element types of size zero.  Swift: slices of `Data`.  C#: a list of more
  than 2^31 elements of size zero.  JavaScript: NaN payloads.  AssemblyScript:
  limits on array lengths.

## Defects found in the code

Each is a theorem (a witness) unless marked with *.

* The cycle check does not end if a struct leads into a cycle (C04).
* A second enum of the same name silently replaces the first (C07); repeated
  value names in the numbered form are dropped (C06).
* The Rust code for lists of bytes and of bools does not compile; a member called
  `x_len` is overwritten by the length of a list `x` (C10, C30).
* C# counts characters instead of bytes in `GetSizeInBytes` (C13); texts and
  lists cut off at the end go unnoticed in C# and Go (C15).
* Go drops errors of nested reads, so undeclared enum values in nested structs
  are accepted (C17).
* AssemblyScript accepts undeclared enum values (C17), rejects some declared ones
  (C18), ends streams quietly (C21), and `PackMessages` fails silently (C26);
  `UnpackMessages` takes the messages from the wrong place if the view does not start
  at 0 (C46).  *`Message.fromBytesDA` passes a `DataAccess` where a `DataView` is expected.
* TypeScript ignores the offset of a view for text, packing, unpacking (C31); loop
  variables in `GetSizeInBytes` capture (C13).
* Zig: enums and structs inside simple structs do not compile or are not written
  (C10); writing into short buffers traps (C26); a failed read leaves texts and
  lists allocated that were read before (C42); a list length is allocated before
  any of its elements is read (C43).
* C: `PackMessages` writes its header without a check and ignores the failure of
  the last write (C26); a failed read leaves a message that cannot be released
  (C27); a created message cannot be written or destroyed if it has texts or lists
  (C28).  The check after the allocation of `els_len` tests the wrong variable
  (c.py L82, C51).  *`UnpackMessages` compares a pointer with 0 where the length is
  meant.
* Size types: see the table of C32.
* Renaming makes distinct members collide in Go and Rust (C29).
* The namespace on the command line is not validated (C36); the output file is
  emptied before the text is encoded (C35).
* The constructors for Go and Rust rename the members of the protocol object they are
  given, so other writers for the same object use these names (C48).
* Brackets in names reach the output unchanged (C38).
* An embedded protocol that contains `*/` ends its comment early, except in Zig; in
  Rust and Swift a `/*` in it makes the comment go on to the end of the file (C44).
* `--typescript-use-namespace` without a namespace writes `namespace None` (C50).
* With `--go-no-rename` the Go package is called `beschi` whatever the namespace is (C50).
* An empty namespace is accepted; Swift and TypeScript then write a block without a
  name (C50).
