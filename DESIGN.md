# DESIGN — a Lean 4 model of OK-DMR/dmr-kaitai

`/repo` is a family of binary-protocol decoders (compiled from `.ksy` schemas by kaitai-struct-compiler and checked in as Python),
the schemas themselves, and a few hand-written Python helpers (`tools/*.py`, `motorola/motorola_utils.py`). All of it is
modelled except what the section "Not modelled" lists.

## The model

| Lean files | what they model |
| --- | --- |
| `Verif/Runtime.lean` | the part of the `kaitaistruct` runtime (>= 0.10, `pyproject.toml`) that the decoders call: `read_bits_int_be`, `read_bytes`, `read_bytes_full`, `read_u1/u2/u4/s2`, `align_to_byte`, `is_eof`, `seek`, `pos`, `size`, `resolve_enum`; Python exceptions are values. A reader is `Stream → Except PyErr α × Stream`; a failing reader keeps the stream it failed in, because lazily evaluated properties can be retried after a failure |
| `Verif/Text.lean` | Python's strict `bytes.decode` for ASCII, UTF-8, UTF-16LE, UTF-16BE |
| `Verif/Model/{Hytera,Etsi,Homebrew,Motorola}/*.lean` | every class of every decoder module: one structure and one `read` per class, mirroring `_read` statement by statement. A conditionally assigned attribute is an `Option` (`none`: the Python object has no such attribute). `switch` bodies are inductive unions; `_root`/`_parent` look-ups become explicit arguments |
| `Verif/Model/Motorola/MotorolaUtils.lean` | `motorola_utils.py` (Mbxml numbers and floats) |
| `Verif/Model/Lazy.lean`, `accessData` in `Model/Etsi/DmrDataHeader.lean` | cached properties (`_m_*`) as state machines: object with caches × stream |
| `Verif/Py/{Syntax,Semantics}.lean`, `Verif/Py/Source/*.lean` | the decoder modules as data (abstract syntax), and what running them does |
| `Verif/Model/Tools/*.lean` | `byteswap.py`, `prettyprint.py`, `debug*.py`; `PyVal`/`PyView` are the Python objects as data (class, attributes in order of assignment) |
| `Verif/Ksy/Schema.lean` | the 28 schema files with their 167 types, as data |
| `Verif/Ksy/Lang.lean` | the meaning of the part of the Kaitai language that they use: one interpreter for all schemas |

`tools/py2lean.py` produces the regular part of the model of the Python classes from the Python AST (stdlib `ast`), so that every
field, width, constant and order is copied mechanically; `tools/ksy2lean.py` produces `Ksy/Schema.lean` from the `.ksy` files. The two
generators share no code and read different files, and C47 proves that the results agree. Generated files are committed and can
be read on their own: every definition cites file and lines, hand-written ones say so.

Simplifications (each is repeated in the comment of the definition concerned): loops whose number of iterations depends on the
data carry a fuel (`loopFuel`, the stream length + 2) and raise the pseudo exception `diverge` when it runs out; C17, C34, C37,
C40 prove that this never happens. `_io`, `_parent`, `_root` are opaque in `PyVal`. Exception *messages* are not modelled, only
their classes and, for `ValidationNotEqualError`, the place in the schema.

## Specification

`Verif/Spec.lean` is the vocabulary: `bitsAt buf off w` (the number formed by `w` bits of `buf` from bit `off`, by integer division of
the big-endian value of the whole buffer), `u8/u16be/u16le/u32be/u32le buf off`, `slice buf off n`. It does not mention streams or
readers. `Verif/Spec/*.lean` gives for each class `X` the layout `X.spec b q` (the object whose fields are at these offsets) and the
sizes; the theorems of `Verif/Props` are stated in these terms, or spell the layout out. `X.spec` is read against the protocol
documents (or the schema); it is not used by the model. C47 is a second, independent specification of the same decoders.

Layout theorems have the form

    X.from_bytes buf = if <too short> then EOFError else if <bad magic> then ValidationNotEqualError
                       else ok { field := u16be buf 6, ... }

for all `buf`: they fix value, offset, width, endianness, presence, and the exact error of every decoder for every input.

## Property by property

| | modelled | proof |
| --- | --- | --- |
| C01 C02 | the stream primitives | refinement: the state `Stream.at buf p` for bit position `p` (`Refine.lean`); any list of widths / history of operations by induction |
| C03 | `resolve_enum` and every `Enum` class | `LawfulEnum` instances: values distinct, by cases over the members |
| C04 | `bytes.decode` | encoders written separately; `decode b = some s ↔ encode s = some b`, induction on the text |
| C05–C07, C10–C14, C19, C21, C23, C24, C26–C28 | the classes of these messages | layout theorems by symbolic execution of the reader (`Layout*.lean`, simp set `rd`) |
| C08 C20 C25 | cached properties | induction over access histories. C08, C09: negative theorems for the `seek(0)` defect inside frames |
| C09 C15 C16 | telemetry, HDAP, HRNP | layout theorems; round trip from a separately written encoder |
| C17 C18 | HSTRP with its chain of options | well-founded recursion on the option chain; termination, accounting, round trip by induction on the option list |
| C22 | RTP | layout; audio and padding partition the packet |
| C29–C32 | Homebrew 2015, MMDVM 2020 | layout per command; classification iff-statements, incl. the ambiguity of configuration and closing |
| C33–C36 | `motorola_utils`, uintvar/sintvar | induction on payload lists; floats: a rational with a correctly-rounding function on binary64 (`Props/MotorolaFloats.lean`), characterised independently as rounding to nearest, ties to even (`Props/MotorolaRounding.lean`) |
| C37–C39 | MBXML, ARS, Motorola TMP | layout theorems; negative theorems for the defects found |
| C40 | all protocol classes | predicate `Errs` on readers, closed under bind (`Errors*.lean`); C40_exact: the table lists exactly the exceptions that some input raises (witness inputs, checked by the kernel) |
| C41 C42 | 123 sequential classes + telemetry, HDAP, HRNP (`pduDecoders`) | predicate `LocalAt` (`Local*.lean`): a reader depends on the bytes it consumes only. Classes that look at the end of the stream or read to the end are not in the list: for them the claim is false by design |
| C43 | all protocol classes | predicate `Lossless` (`Lossless*.lean`): the consumed bytes are a function of the object |
| C44–C46 | the tools | direct; prettyprint by induction on the object tree; debug tools by induction on the list of messages. C46: arguments that do not begin with `-` |
| C47 | schemas and classes | `Ksy/Conform/*.lean`: `Ksy.parse` of the schema is equal, as a function on streams, to the reader of the class. 11 nested types depend on attributes of the enclosing object; they are proved for every such context and used in the theorems of the classes that contain them |
| C48 | 148 classes; the other eight by counterexample | predicate `Shifts` (`Shift*.lean`, generated from the model by tools/mkshift.py): bytes in front of the stream make no difference. Loops: enough fuel is as good as more. HSTRP frames without telemetry are not covered by the positive part |
| C49 | 123 sequential classes | induction on the list of structures with `Local` and `Tidy` (no stale bits, `Tidy*.lean`) |
| C50 | 65 enumerations (names: `Model/EnumNames.lean`, generated from the Python source; schema: `Ksy/Schema.lean`) | the lists of members are permutations of each other, no value and no name twice; from that the statements for all numbers and texts |
| C51 | ETSI, Homebrew, MMDVM and RTP messages written by `Wire.pack` (`Spec/Pack.lean`, independent of the readers and of offsets) | `fields_pack` (`Pack.lean`): the bits at the offset of a field are the bits of the field, by induction on the list of fields; then the layout theorems of the classes |
| C52 | what a Hytera transmitter can say, writes and should be understood to say (`Spec/HyteraEncode.lean`, independent of the readers and of offsets) | as C51, then `LocalAt`/`relocate` for other positions, C15-C18 for the frames |
| C53 | the converse of C52, with what else is accepted: bare headers of messages of unknown kind, empty messages of unknown protocols (`Props/Decoders.lean`: `AnyFrame`, `Hrnp`, `Hstrp`); IPSC packets, heartbeats and RTP packets (`Spec/TransportEncode.lean`) | whatever is accepted has the fields of some message, by the layout of each class; that the octets are those of the message follows from losslessness (C43), or from writing the fields found again (`Props/DecodersTransport.lean`) |
| C54 | 156 classes, as the Python objects of `Model/Tools/PyView.lean`; `PyVal.amount` (`Spec/Amount.lean`) | `Fits` (`Amount.lean`): what a part holds is paid for by the bits it consumes, rule by rule; generated for every decoder (`AmountAll.lean`, tools/mkamount.py) |
| C55 | all 22 properties of 17 classes with their caches (`Model/Properties.lean`), any number of objects on one stream, any sequence of accesses; specification of each property at the head of `Props/Properties.lean` | per property: truthful caches give the specified value and stay truthful, the buffer is kept, a successful access restores the position (`Stable`); induction on the sequence; that decoding leaves truthful caches, per class (`Props/PropertiesDecoded.lean`) |
| C56 | the 126 classes of C41; a receiver that appends pieces and decodes from the front until EOFError (`Props/Receiving.lean`) | `Grows` (`Grow.lean`): with more bytes at the end a reader does the same unless it had run out of bytes; rule by rule, generated for every decoder (`GrowAll.lean`, tools/mkgrow.py); then feeding `v` and `w` is feeding `v ++ w` by induction on the number of messages; for the source (`Props/SourceReceiving.lean`) by C58 and C63 |
| C57 | what ETSI, Homebrew and Motorola transmitters can say, write and should be understood to say (`Spec/EtsiEncode.lean`, `Spec/HomebrewEncode.lean`, `Spec/MotorolaEncode.lean`, independent of the readers and of offsets) | one direction from C51, C29–C32 and C37–C39; the other: the fields found in accepted octets (`Unpack.lean`), written again, give the octets (`Props/DecodersEtsi*.lean`, `Props/DecodersHomebrew.lean`, `Props/DecodersMotorola.lean`) |
| C58 | the source files themselves, as syntax trees (`Verif/Py/Source`, generated by tools/mkpyast.py with Python's `ast`), and an interpreter for the part of Python they use (`Verif/Py/Semantics.lean`: objects with dictionaries in a heap, streams, calls, properties, loops, exceptions); `Verif/Py/Spec.lean` says what it means that a heap shows an object | for every class, by symbolic execution of the interpreter on its source, the run is the model's `read` (`Verif/Py/Conform`), for any heap and streams around it; collected in `Verif/Py/Table.lean`, complete by `rfl` |
| C59 | as C58; `Navigable` (`Verif/Py/Spec.lean`) is stated about the heap after the run | the heap is the layout (`Verif/Py/Place.lean`) of the object tree; `Navigable` by induction on trees (`Verif/Py/Regular.lean`) |
| C60 | the bodies of the properties in `Verif/Py/Source`, run by the same interpreter; `Verif/Py/PropertySpec.lean` says when an object in the heap is a model object with its caches (`Holds`), what running gives (`Outcome`) and what may change (`Unchanged`); the values are those of C55 | for every property, by symbolic execution, the run simulates its model (`Verif/Py/PropertyAttrs`, `PropertyStreams`, `PropertyData`: `DmrDataHeader.data` makes a stream and an object); then induction over the accesses with C55's invariant; after decoding, C58 and C59 give the hypotheses |
| C61 | the functions of `motorola_utils.py` and `tools/byteswap.py` as syntax trees (`Verif/Py/Script/Source.lean`, generated by tools/mkscript.py with Python's `ast`) and an interpreter for the part of Python these files use (`Verif/Py/Script/Semantics.lean`: values, bytearrays with identity, slices and slice assignment, calls, exceptions, what is written) | by symbolic execution the run is the model (`Script/Utils.lean`, `Script/Swap.lean`), loops by induction on lists; then C33–C36 and C44; the statements do not mention the models (`Props/Scripts.lean`) |
| C62 | `prettyprint.py`, `debug*.py` and `[project.scripts]` of pyproject.toml in the same form; the decoders they call are run by the interpreter of C58 on the source of C58, in the same memory | `prettyprint` by induction on how the memory shows the object (`Script/Pretty.lean`), no attribute being assigned under a name twice (`Py/Distinct.lean`: an invariant of everything the interpreter of C58 does); the derived attributes of IPSC packets by C60 (`Script/Ipsc.lean`); the loop of `_impl` by induction on the words (`Script/Tools.lean`, `Script/Impl.lean`), the commands by their entry points; then C45, C46 and C58 |
| C63 | as C58, with any heap and streams before the call (`Constructs` in `Verif/Py/Spec.lean`); `Py.new`, `Py.newAll` (`Props/SourceStreams.lean`) | the theorems of `Verif/Py/Conform` hold in any heap; the heap made is a function of the model object, so C41, C42, C48 and C49 carry over to it (`Grows`, `Shifts`, `Local`); that two runs look the same is independent of the model: `Shows.same` (`Py/Same.lean`) |
| C64 | as C58; `Gives` (`Props/SourceObjects.lean`) is stated about runs and heaps | the view of a model object as a Python object is injective (`Py/Injective.lean`, `Py/Shown.lean`, generated by tools/mkshown.py); a heap in which no object has two attributes of one name shows one tree only (`Py/Unique.lean`); C43 |
| C65 | as C64, with the messages of C53 and C57 (`Spec/*Encode.lean`) | C64 with C53 and C57 (`Props/SourceWire.lean`); for properties C60, and that a memory shows only one tree (`Props/SourceHeader.lean`) |
| C66 | as C58; what the objects of a memory hold is counted in `Py/Spec.lean` (`held`), and nothing but the tree of the model object is there | objects of every class counted (`Py/FewLibrary.lean`), C54 for what they hold (`Props/SourceMemory.lean`) |
| C67 | the source and its interpreter (C58), any memory; uses are accesses and constructor calls | the statements of every class checked (`library_regular`, `Py/Grow.lean`); induction over the interpreter for all programs that pass (`Props/SourceOnce.lean`) |
| C68 | the interpreter of C58 once more with a counter (`Py/Time.lean`); without it, it is that interpreter (`Py/TimeErase.lean`) | an analysis of the text of a program (`Py/TimeCost.lean`, `Py/TimeCalls.lean`) that gives a bound a + b·(unread bytes) and the number of bytes that are read at least, so that turns of a loop pay for themselves; proved correct for all programs by induction on statements and on the depth of calls; seeking is allowed where the position is restored (`Py/TimePeek.lean`) or where nothing depends on the number of bytes (`Py/TimeFlat.lean`); its result for the library checked in `Py/TimeLibrary.lean` (found by tools/mktime.py) |
| C69 | the interpreter of C58 once more as a tree of single accesses to the memory (`Py/Threads.lean`), so that threads can take turns in any order; a thread alone does what that interpreter says (`Py/ThreadsErase.lean`) | programs do not depend on addresses: two runs in memories that correspond address by address take corresponding steps, by induction on programs and depth of calls (`Py/ThreadsSim.lean`, `ThreadsEval`, `ThreadsExec`); invariant over schedules: each thread is where it would be alone after as many turns, in a part of the memory of its own (`Py/ThreadsRun.lean`); at most three accesses for each step of C68 (`Py/ThreadsTime.lean`), which bounds the turns that are needed |
| C70 | the threads of C69, but all of them use the same objects (`Props/SourceShared.lean`: `User`, `Users`) | rely-guarantee: a thread keeps its answer whatever values the others remember meanwhile, if these are the values calculated in the memory as it was (`Py/Shared.lean`: `Steady`, by induction on expressions); that each property of the source either is such a calculation or is in the list `streamed` is checked on the source (`library_shareable`); invariant over schedules; the race is a concrete schedule |
| C71 | clients of the library (`Py/Client.lean`: requests, what can be seen, one step of one client); the steps inside a request are those of C69 | invariant over schedules: a correspondence of addresses between the whole world and that of each team alone, which only grows (`Py/ThreadsSim.lean`, `Py/ClientProofs.lean`: `Teams`); a client alone makes its requests one after another (`talk`); for the values: C60 and C67 for one client, a refinement to the threads of C70 for sharing ones (`Working`) |
| C72 | the two models (`Model/Homebrew`), and their sources by C64; `newer` (`Props/HomebrewPair.lean`) says what a command of 2015 is in 2020 | C29–C32 command by command; texts by uniqueness of decoding |
| C73 | acceptance is a run of the source that returns (`Py.Accepts`, `Props/Telling.lean`) | for the pairs that are apart: the first octets (C13, C16, C17, C22, C29, C30); for all the others eleven packets, checked by the kernel |
| C74 | the nesting bound of `calls` (`Py/Semantics.lean`) is a limit on the functions that are active at once; levels of classes and properties (`Py/Depth.lean`) | induction on the level: what calls only lower levels does the same with every larger limit (mutual induction over expressions and statements); the levels of the 167 classes are checked by the kernel |
| C75 | `overwrite b off w` (`Props/Unverified.lean`, `Props/UnverifiedFrames.lean`); the readers of the model as in C53, C57, C26 | each accepted packet is what a transmitter writes (C53, C57, C28, C26); the same message with another checksum or length is the overwritten packet; counterexamples for the three lengths that are used; a lemma turns acceptance into rejection |
| C76 | `SamePosition` (`Props/SamePosition.lean`); the two readers of the model as in C57 | both packets are what a transmitter writes (C57); the seven octets are `pack` of the four fields, which is injective; the eight members of the two enumerations one by one |
| C77 | the interpreter by steps (`Py/Threads`), the source trees; the requests of a thread that runs alone (`asks`), and what clients that take turns (`Py/Client`) are about to ask (`Clients.asking`) | a check on the form of the source (`Py/Requests`): the argument of every `read_bytes` is a literal, an attribute that only ever holds what was read as one or two octets, the size of the stream, or such a number less something that is not negative; the check is decided for all classes, and proved sound (`Sure`, an invariant of threads that does not depend on the memory, by induction over expressions, statements and calls); all objects and streams keep what it needs (`Good`), for every schedule |
| C78 | the interpreter by steps (`Py/Threads`) once more, with streams whose `seek` also forgets the bits that were read ahead (`R.run11`, `Py/Version.lean`); the source trees; a program on its own (`session`) | a check on the form of the source (`fits`, `Py/VersionExec.lean`), decided for all classes: `seek` occurs only in the four statements pos, seek, `self.x = ` what is read there (one octet, two, or some), seek back, and in `data`. The reading begins with `align_to_byte` and leaves no bits, so that after it the memories are the same again (`same_peek`, with an invariant from memory to memory: `Open`, `Dirty`, `Clean`); all other statements by induction over expressions, statements and calls. `data` makes an object between the two `seek`s (`Py/VersionData.lean`): that this leaves the other stream alone is what C58 says of the eight classes; with a witness that the versions differ |
| C79 | `sys.modules`, packages, `import`, `from … import` and the statements of all 42 modules, taken from Python's `ast` by `tools/mkimports.py` (`Py/Imports`, `Py/ImportsSource`); names are numbers (`n!"…"`, the UTF-8 bytes), as the kernel compares strings too slowly | `Fits`: each module stands after those it imports, which have the names it takes (checked over the whole program by `decide +kernel`); from it, for any program that fits, an invariant of the memory during nested imports (`load_ok`, by recursion over the place of a module), hence any list of imports (`imports_ok`), equality of memories (`Inv.same`) and the lookups at run time (`Inv.later`); the old API by another invariant (`load_without`) |

`RepoTests.lean` checks the model against the 90 messages in the unit tests of the repository and the values asserted there (a check
of the model, not part of the proofs).

## Findings

Proved as theorems about the model (the claims that describe them are in properties.jsonl):

* `TelemetryProtocol.specific_service` and `LocationProtocol.opcode` seek to offset 0 of a stream that they share with the frame
  around them: inside HDAP, HRNP or HSTRP they look at the first bytes of the frame (C08, C09, C18_telemetry).
* The binary XML reader stops after one document (C37); `sintvar` and signed floats are wrong for positive numbers (C35, C36).
* Motorola text messages: `sequence_number` is not injective and fails for one-byte headers (C39); three bits are lost (C43).
* Full link control with a 5 bit checksum loses three bits (C43).
* `byteswap_bytes` drops the last byte (C44). Homebrew 2015 does not know `RPTO` (C29).
* No difference between a schema and its checked-in Python class was found (C47).

## Testing of the theorems

`tools/mutate.py` edits a definition of a scratch copy as a realistic bug would, rebuilds, replaces what fails by a stub and goes
on, so that all theorems that fail are reported, directly or through a lemma; `seeded/LOG.jsonl` has the results.

## Trusted base

* Lean 4.33.0 kernel. Axioms: every theorem of MANIFEST.json depends on a subset of `propext`, `Classical.choice`, `Quot.sound`
  (`#print axioms`: 181 of the first 194 on all three, the others on `propext` or `propext`, `Quot.sound`). No other axioms, no compiled code.
* The `kaitaistruct` runtime and CPython builtins are not in /repo; they are modelled from their documented behaviour
  (Runtime.lean, Text.lean). `read_bytes` of kaitaistruct 0.10 looks at the size of the
  stream first if it is asked for 8 MiB or more; this is not modelled, and by C77 it does not happen with shorter byte strings.
  `seek` is that of 0.10 (the bit buffer is kept); 0.11 clears it, which by C78 makes no difference. Other differences of 0.11 (the class of the
  exception of a negative `seek`, writing) are not modelled.
* The meaning of the Kaitai language in Ksy/Lang.lean (the compiler is not in /repo), and the reading of the YAML by ksy2lean.py.
* The reading of the Python source by mkpyast.py (a transcription of the trees of Python's `ast`; names are resolved to classes,
  enumerations, builtins and locals) and the interpreter `Py/Semantics.lean`. In it, what the decoders never do (other operators,
  methods, builtins) raises AttributeError, so C58 also says that they never do it; lists are values; a dictionary is looked up before
  the properties of a class (no attribute has the name of a property); a failed constructor leaves no objects behind; a `while` loop
  raises `diverge` after more rounds than the stream has bytes, and calls that nest deeper than `n` do too; C58 shows that neither happens
  from n = 13 on. With C58 and C60, the models of the decoders (py2lean.py, hand-written) are trusted neither for what `_read` does nor for
  the lazily evaluated properties.
* The same of mkscript.py and `Py/Script/Semantics.lean` for the other Python files (C61, C62): builtins (`len`, `int`, `bin`, `bytes`, `bytearray`,
  `list`, `map`, `isinstance`, `getattr`, `print`), `pprint` (what it is given, not how it is laid out), `sys.argv`, floats as correctly rounded
  rationals, and an `ArgumentParser` with one positional argument of one or more words. What the files never do is not modelled, and then the
  result is `stuck`; the theorems show that it is not. With C61 and C62, the models of `motorola_utils`, `byteswap`, `prettyprint` and
  `debug` are not trusted either.
* For C79, mkimports.py (statements, names looked up, members of classes) and `Py/Imports.lean`: how Python loads modules; that kaitaistruct, `enum`, `typing`,
  `argparse`, `pprint` and `sys` have the names listed in `Props/SourceImports.lean`, and Python those builtins.

## Not modelled

`pprint` line wrapping, the text of exception messages, memory beyond C54 and time, direct
construction of nested types with a foreign `_root`, `argparse` beyond what C46 states, the build scripts (`rebuild-all*.sh`,
`Makefile`, `setup.py`), `doc:` and `-webide` entries of the schemas.
