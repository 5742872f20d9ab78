# Formal model of openemv/emv-utils: design

Source modelled: `/repo` (`src/`, `tools/`, `viewer/`; section 3 lists the files).  The code is read as text,
never built or run.  The model and the proofs are in `lean/Verif/`, the properties in
`properties.jsonl`, their status in `MANIFEST.json`, the seeded bugs in `seeded/LOG.jsonl`.

## 1. How the model is built

* One Lean definition per C function (or per loop of a C function); each carries a
  comment citing file and lines, and names any simplification.
* A buffer `(ptr, len)` is a `List UInt8`; the C object is assumed to have exactly
  `len` bytes, so a read at index `>= len` is out of bounds.  An output buffer is given by
  its previous contents, a list of exactly the capacity the caller states.
* C undefined behaviour is an explicit outcome.  A function that may run into it has
  type `C α := Except UB α`; `UB` distinguishes out-of-bounds read/write,
  uninitialised read, use after free, arithmetic overflow and `nonTerm` (loop ran out of the
  fuel given to it, i.e. did not stop within the number of iterations the theorem claims).
  "Memory safe" theorems say: the result is `.ok _`, for all inputs.
* Integers: `size_t` is `Nat` with explicit wrap-around where the code can wrap
  (noted in the definition); `unsigned int`/`uint32_t` are `Nat` reduced `% 2^32`;
  `uint8_t` is `UInt8`; `int` results are `Int`.
* Loops are structural recursion on fuel; the theorems prove that the fuel the wrapper
  passes always suffices, hence loop termination is a theorem, not an assumption.
* The card/reader is an adversary: an arbitrary script of responses (a list consumed
  one per exchange).  `pending` (script exhausted while the code still wants to talk)
  is a distinct outcome, so unbounded exchanges are visible.
* The TLV and application lists are modelled as heap nodes with `next` pointers in
  `LinkedList.lean`; `C08_history` and `C35_history` prove that every history of calls refines
  operations on sequences, and the modules above use sequences.
* Tables of texts in `emv_strings.c` are a deep embedding: the sequence of tests and
  `emv_str_list_add` calls of the C function as data (`Bits.Item`), run by one interpreter.
  String literals are written `txt!"..."` (`Text.lean`).  The specification tables (`Row`) are
  written separately, in the byte/bit numbering of the EMV books.
* Specifications are written without the model's helpers: encoders for decoders
  (`BerSpec.lean`, `AtrSpec.lean`, ...), declarative predicates for decisions, functional
  reference descriptions for strings.  Property theorems are in `*Props.lean` files (and
  `TtlTrace.lean`, `BitsInj.lean`); beside each is an `example` meeting its hypotheses.

## 2. Trusted base

* Lean 4.33.0 kernel; axioms `propext`, `Classical.choice`, `Quot.sound` only.
  `AXIOMS.txt` lists the axioms of every theorem in `MANIFEST.json` (output of
  `Lean.collectAxioms`).  No own axioms, no `sorry`, no `native_decide`, no `bv_decide`.
  Mathlib is not used, only Lean's core library.
* The hand translation C -> Lean (not machine checked).  As a check of it, the models are run on
  the project's own tests (`RepoTestDecode.lean`, `RepoTestTtl.lean`, `RepoTestKernel.lean`,
  `RepoTestFields.lean`: 177 examples; tests, not proofs, and no claim rests on them).  They agree
  with every result the project expects, but for two tests of `emv-decode` where the model reports
  the write outside a buffer of `C50_overflow`.
* Data model: LP64 (64-bit `size_t`, 32-bit `int`/`unsigned int`), 8-bit bytes,
  buffers smaller than 2^31 bytes (several functions return byte counts as `int`).
* NULL-argument guards (`if (!ptr ...) return -1`) are not modelled: pointer arguments
  are non-NULL.
* libc: `memcpy/memset/memcmp/strncmp/strlen/snprintf` behave per ISO C; `malloc`
  success is an oracle where the code checks it.
* Card, reader and PC/SC service: adversaries, any sequence of answers.

## 3. Modules: what is modelled

| module | contents | cites |
|---|---|---|
| AgainProps | C150: nothing of an earlier transaction gets into the next one |  |
| AgreeProps | The viewer and `emv-decode` agree (C141) |  |
| Aid | Model of AID classification in `src/emv_fields.c` | emv_fields.c |
| AidProps | Properties of AID classification: C20 |  |
| Apdu | Model of `src/iso7816_apdu.h` | iso7816_apdu.h |
| ApduExactProps | What becomes of extended commands with data (C22) |  |
| ApduProps | Properties of APDU classification and status words: C22, C60 |  |
| App | Model of the application objects of `src/emv_app.c` (lines 38-316) | emv_app.c, emv_app.h, emv_tlv.c |
| AppAlt | Model of `emv_app_extract_display_name` (`src/emv_app.c:146-241`) with any variant of ISO 8859 | emv_app.c, iso8859.h, iso8859_boost.c, iso8859_iconv.c, iso8859_simple.c |
| AppAltProps | C130: the display name with the libraries of characters |  |
| AppProps | Properties of application objects: C36, C37 |  |
| ArcTable | Table of Authorisation Response Codes | emv_strings.c |
| Argp | Model of the words of a command line |  |
| ArgpProps | Words of a command line: specification, and that every command line has one reading |  |
| Atr | Model of ATR parsing: `iso7816_atr_parse` (src/iso7816.c) and `emv_atr_parse` (src/emv.c) | emv.c, iso7816.c |
| AtrEmvProps | EMV ATR acceptance: property C47 |  |
| AtrLemmas | Lemmas about ATR parsing |  |
| AtrParLemmas | Lemmas: acceptance and value of the ATR interface parameters |  |
| AtrProps | Properties of ATR parsing: C43, C44, C45, C46 and C66 |  |
| AtrRunLemmas | Lemmas: the part of ATR parsing after the interface bytes, and the whole parse |  |
| AtrSpec | Specification vocabulary for Answer-To-Reset bytes (ISO 7816-3:2006, 8.2) |  |
| AtrStr | Model of the ATR descriptions: `iso7816_atr_*_get_string` (src/iso7816.c:736-1186) | iso7816.c |
| AtrStrLemmas | Lemmas: output and parameters of the ATR descriptions |  |
| AtrStrProps | ATR descriptions |  |
| Base | Base: memory accesses with explicit undefined behaviour |  |
| BeNat | Facts about big-endian values |  |
| Ber | Model of `src/iso8825_ber.c` | iso8825_ber.c, iso8825_ber.h |
| BerExactProps | Exactly what is decoded (C02, C04) |  |
| BerInv | What successful tag and object decoding imply about the input |  |
| BerLemmas | Helper lemmas about the BER model |  |
| BerProps | Properties of the BER decoder: C01-C04, C07 |  |
| BerSpec | Specification of BER encodings (ISO 8825-1 / X.690), independent of the model |  |
| Bits | Model of the descriptions of bit fields | emv_fields.h, emv_strings.c |
| BitsInj | C71: different fields have different descriptions |  |
| BitsLemmas | Specification vocabulary for descriptions of bit fields, and lemmas |  |
| BitsProps | C70 and C72: descriptions of bit fields |  |
| BlockedProps | C157: a blocked card is left alone |  |
| Capdu | Model of the command descriptions | emv_strings.c, iso7816_strings.c |
| CapduExactProps | What exactly is said of commands: C140, and SELECT without Le (C67) |  |
| CapduProps | Properties of the command descriptions: C56, C67 |  |
| Codes | Model of `src/isocodes_lookup.cpp`, `src/mcc_lookup.cpp` and `emv_strings_init` | emv_strings.c, isocodes_lookup.c, mcc_lookup.c |
| CodesProps | C98: codes are looked up in the documents |  |
| CompactTlv | Model of `src/iso7816_compact_tlv.c` | iso7816_compact_tlv.c |
| CompactTlvProps | Properties of COMPACT-TLV: C48 |  |
| CompleteDirProps | C149: a proper card with a directory is read completely |  |
| CompleteProps | C149: a proper card is read completely |  |
| Debug | Model of `src/emv_debug.c`: initialisation, time and delivery of debug events | emv_debug.c, emv_debug.h |
| DebugProps | Times and delivery of debug events (C139) |  |
| Decode | Model of `main` of `tools/emv-decode.c` |  |
| DecodeArgs | Model of the command line of `tools/emv-decode.c` |  |
| DecodeArgsProps | C125, C126: the command line of `emv-decode` |  |
| DecodeArgsSpec | Specification of the command line of `emv-decode` |  |
| DecodeCodeProps | C100: codes, text, exit status and safety of the decoder |  |
| DecodeFieldProps | C99: the other fields the decoder shows |  |
| DecodeLemmas | Lemmas on the texts of bit fields |  |
| DecodeListProps | C99: codes and listings the decoder shows |  |
| DecodeProps | C99: what the decoder shows for a field |  |
| DecodeRunProps | C126: options, exit status and answers of `emv-decode` |  |
| DecodeSafeProps | C126, C127: options, exit status and memory of `emv-decode` |  |
| DeliverProps | C151: a proper card is read completely over a reader, at once or in parts |  |
| DirectoryProps | Which file is the directory, and what names are made of (C33, C37) |  |
| Dol | Model of `src/emv_dol.c` (and of `emv_tlv_is_terminal_format_n`) | emv_dol.c, emv_dol.h, emv_tlv.c |
| DolProps | Properties of Data Object Lists: C14, C15, C16 |  |
| Emv | Model of the EMV kernel functions of `src/emv.c` (lines 53-97, 334-806) | emv.c, emv.h, emv_app.c, emv_tlv.c |
| EmvGpoProps | Properties of the GET PROCESSING OPTIONS data (C17) |  |
| EmvHistoryProps | Properties of application initiation and of whole transactions (C41, C63, C64, C65) |  |
| EmvReadProps | Properties of reading application data (C40) |  |
| EmvSelectProps | Properties of candidate list building and application selection (C39, C42) |  |
| FailureProps | C154: a failure of the reader or of an exchange ends the transaction |  |
| Fields | Model of `src/emv_fields.c`: AFL, CVM List and IAD | emv_fields.c, emv_fields.h |
| FieldsProps | Properties of AFL, CVM List and IAD: C18, C19, C21 |  |
| Formats | Model of the EMV data format conversions (src/emv_tlv.c:302-525) | emv_tlv.c |
| FormatsProps | Properties of the EMV data format conversions: C09-C13 |  |
| Hex | Model of the input of `tools/emv-decode.c` |  |
| HexProps | C97: the input of the decoder is the bytes written |  |
| Iad | Model of the descriptions of Issuer Application Data and Issuer Authentication Data | emv_fields.h, emv_strings.c |
| IadLemmas | Specification vocabulary and lemmas for the descriptions with numbers in them |  |
| IadProps | C77 to C79: Issuer Application Data, Issuer Authentication Data, Authorisation Response Code |  |
| Iso8859 | Model of `src/iso8859_simple.c` (the build variant without iconv/boost) | iso8859_simple.c |
| Iso8859Alt | Model of `src/iso8859_iconv.c` and `src/iso8859_boost.cpp` | iso8859_boost.c, iso8859_iconv.c |
| Iso8859AltProps | C129: conversion to UTF-8 by a library |  |
| Iso8859Props | Properties of the ISO 8859 conversion: C58 |  |
| IsoStr | Model of the ISO 7816 descriptions | iso7816_strings.c, iso7816_strings.h |
| IsoStrProps | C85, C86: status words, life cycle, card service data and capabilities in words |  |
| LinkedList | Model of the intrusive singly linked lists of `src/emv_tlv.c` and `src/emv_app.c` | emv_app.c, emv_app.h, emv_tlv.c, emv_tlv.h |
| LinkedListHistory | Histories of list operations |  |
| LinkedListLemmas | Linked lists: what one heap-allocated list denotes, and each operation's effect |  |
| LinkedListProps | Properties of the EMV TLV list and the application list: C08, C34, C35, C38 |  |
| Lists | Model of the descriptions of repeated structures | emv_fields.h, emv_strings.c |
| ListsLemmas | Specification vocabulary and lemmas for the descriptions of repeated structures |  |
| ListsProps | C73 to C76: descriptions of repeated structures |  |
| MemoryProps | C156: lack of memory is reported, never hidden |  |
| MoreLemmas | # Flat lists |  |
| MoreProps | C146: more data at the end do not change what was read |  |
| Names | Model of the descriptions of single codes | emv_fields.h, emv_strings.c |
| NamesProps | C80 and C81: names of codes |  |
| Nest | Recursion on nested data with a stack of limited depth | emv_tlv.c, iso8825_ber.c, print_helpers.c |
| NestLemmas | Lemmas about recursion with a limited stack |  |
| NestProps | Stack needed for nested data: C143 |  |
| OthersProps | C153: an application that cannot be used does not keep the others from being used |  |
| Own | Model of the allocations of `src/emv_tlv.c`, `src/emv_app.c`, `src/emv_tal.c` and `src/emv.c` | emv.c, emv.h, emv_app.c, emv_app.h, emv_tal.c, emv_tlv.c, emv_tlv.h |
| OwnProps | C131: every block of memory has one owner |  |
| Pcsc | Model of the reader queries of the PC/SC wrapper | pcsc.c, pcsc.h, pcsc_compat.h |
| PcscConn | Model of connections and data exchange of the PC/SC wrapper | pcsc.c |
| PcscConnProps | Connections and data exchange (C105) |  |
| PcscInit | Model of the reader management of the PC/SC wrapper | pcsc.c, pcsc.h, pcsc_compat.h |
| PcscInitProps | Readers, their features, and waiting for cards (C102, C103, C104) |  |
| PcscProps | C59, C68, C69: queries to the card reader |  |
| Print | Model of the listings of `tools/print_helpers.c` | emv_strings.c, iso8825_ber.c, iso8825_ber.h, print_helpers.c |
| PrintCard | Model of the card listings of `tools/print_helpers.c` and of the events of `src/emv_debug.c` | emv_debug.c, emv_debug.h, iso7816.c, iso7816_compact_tlv.c, print_helpers.c |
| PrintCardLemmas | Lemmas for the listings of an ATR and of status words |  |
| PrintCardProps | Properties of the listings of an ATR: C94 and C95 |  |
| PrintCardSpec | Specification of the listings of an ATR and of status words |  |
| PrintEmvLemmas | Lemmas on the listing of EMV data |  |
| PrintEmvProps | Listing of EMV data: C92, C93 |  |
| PrintEmvSpec | Specification of the listings of EMV data |  |
| PrintEventProps | Properties of the listings of APDUs, applications and events: C96 |  |
| PrintLemmas | Lemmas on listings |  |
| PrintProps | Listing of BER data: C89, C90, C91 |  |
| PrintSpec | Specification of the listings of BER and EMV data |  |
| PrintUniqueProps | Documents and first faults are unique (C89, C90) |  |
| RepoTestDecode | The tests of `tools/CMakeLists.txt` on the model of emv-decode |  |
| RepoTestFields | The remaining tests of the project on the model |  |
| RepoTestKernel | The kernel tests of the project on the model |  |
| RepoTestTtl | The tests `emv_ttl_tpdu_test.c` and `emv_ttl_pcsc_test.c` on the model of the transport layer |  |
| SameLemmas | Lemmas: listings and windows do not depend on what was in memory |  |
| SameProps | Descriptions do not depend on what was in memory (C142) |  |
| Scarce | Application selection when memory may run out | emv.c, emv_app.c, emv_tal.c, emv_tlv.c |
| ScarceProps | C158: lack of memory while applications are found and selected |  |
| SearchProps | C147: the search by the list of AIDs against a card with applications |  |
| Stack | The application layer over the transport layer | emv_ttl.h |
| StackLemmas | Functions of the application layer use answers one after the other |  |
| StackProps | C113: the transaction and the bytes exchanged |  |
| Str | Model of the value conversions in `src/emv_strings.c` (1372-1906, 2843-2887) | emv_strings.c |
| StrList | Model of the string list builders | emv_strings.c, iso7816_strings.c |
| StrListProps | Properties of the string list builders: C49 |  |
| StrPackProps | Properties of packing decimal strings: C51, C52 |  |
| StrProps | Properties of the value strings: C50, C53, C54, C55 |  |
| SupportProps | C155: how the supported AIDs are listed does not matter |  |
| Tal | Model of the Terminal Application Layer, `src/emv_tal.c` | emv_fields.h, emv_tal.c, emv_ttl.c, iso8825_ber.c |
| TalGpoProps | Properties of GET PROCESSING OPTIONS: C31 |  |
| TalReadLemmas | Specification and lemmas for reading records |  |
| TalReadProps | Properties of reading records: C28, C29, C30 |  |
| TalSelectLemmas | Lemmas for application selection |  |
| TalSelectProps | Properties of application selection: C32, C33 |  |
| TellsLemmas | Runs with changed results (lemmas for C145) |  |
| TellsProps | C145: the card is told only what it asks for |  |
| Text | String literals of the C code |  |
| ThirdParty | Model of the description of Mastercard third party data | emv_strings.c |
| ThirdPartyProps | C57: description of Mastercard third party data |  |
| ThirdPartyTextProps | C101: what is shown for Mastercard third party data |  |
| TlvInfo | Model of the description of any TLV field | emv_fields.h, emv_strings.c, emv_strings.h |
| TlvInfoLemmas | Lemmas for the description of any TLV field |  |
| TlvInfoProps | C82 to C84: the description of any TLV field |  |
| TlvInfoSafe | C84: when the description of a field is safe |  |
| TlvInfoSame | Lemmas: descriptions do not depend on what was in memory | emv_strings.c |
| TlvInvProps | What successful decoding and parsing say about the input: C61, C62 |  |
| TlvParse | Model of `emv_tlv_parse` (src/emv_tlv.c:240-272) | emv_tlv.c |
| TlvParseProps | Properties of EMV TLV parsing: C05, C06 |  |
| ToolArgs | Model of the command line of `tools/emv-tool.c` |  |
| ToolArgsProps | C108: the command line of the tool |  |
| ToolChoiceProps | C111: the choice of the application |  |
| ToolFlowProps | C110, C111, C112: the transaction of the tool |  |
| ToolMain | Model of `main` of `tools/emv-tool.c` | emv_ttl.c |
| ToolMainProps | C114: the run of `emv-tool` |  |
| ToolReaders | Model of the reader listing of `tools/emv-tool.c` |  |
| ToolReadersProps | C106, C107: the reader listing of the tool |  |
| ToolRunProps | C114: what a run of `emv-tool` sends, shows and leaves behind |  |
| ToolTxn | Model of the transaction of `tools/emv-tool.c` | emv.c, emv.h, emv_app.c, emv_tlv.c |
| ToolTxnProps | C109, C111: the terminal data of the tool and the choice of the application |  |
| ToolWords | Model of the words of the command line of `tools/emv-tool.c` |  |
| ToolWordsProps | C128: the words of the command line of the tool |  |
| TpduProps | C152: a command has the same result over a reader in TPDU mode |  |
| Trace | Model of the debug events of `src/emv_ttl.c`, `src/emv_tal.c` and `src/emv.c` (lines 334-806) |  |
| TraceAtr | Model of the debug events of `emv_atr_parse` (`src/emv.c`, lines 108-332) | emv.c, emv_debug.h |
| TraceAtrProps | The reasons given for refusing an ATR: property C133 |  |
| TraceCause | Lemmas on the reasons reported by the Terminal Application Layer | emv_tal.h |
| TraceCauseProps | The reasons reported are the reasons (C134) |  |
| TraceChain | Lemmas on what precedes the commands and the data in a run with events |  |
| TraceErase | Lemmas: leaving out the events of a run gives the run without events |  |
| TraceExactProps | What is reported of directory records and of an initiated application (C137, C138) |  |
| TraceOdaProps | What is reported while the records of the AFL are read (C135) |  |
| TraceOut | What `emv-tool` prints of the debug events | emv_debug.c, emv_debug.h, print_helpers.c, tool.c |
| TraceOutProps | The debug output of a transaction (C136) |  |
| TraceProps | Properties of the debug events (C132) |  |
| TraceReason | Lemmas on the last event of a call of the kernel |  |
| TraceTtl | Lemmas on the events of an exchange |  |
| Ttl | Model of `src/emv_ttl.c`: the exchange loop and the command wrappers | emv_ttl.c, iso7816_apdu.h |
| TtlBoundProps | How long an exchange can last (C26) |  |
| TtlLemmas | Lemmas about the exchange loop |  |
| TtlProps | Properties of the Terminal Transport Layer: C23, C24, C25, C26, C27 |  |
| TtlSafe | Transport layer: reads, transmissions and termination (lemmas) |  |
| TtlTrace | C24 and C25: what follows what in an exchange |  |
| TwoWaysProps | C148: the directory and the list of AIDs lead to the same candidates, each of which can be selected |  |
| Viewer | Model of the tree view of `viewer/` | emvtreeitem.h, emvtreeview.h |
| ViewerHexLemmas | Lemmas about the text of the viewer: white space and digits |  |
| ViewerLemmas | Lemmas on the tree view |  |
| ViewerLookLemmas | Lemmas about the highlighting of the viewer |  |
| ViewerProps | The tree view: C115 to C118 |  |
| ViewerSpec | Specification of the tree view |  |
| ViewerText | Model of the text of the viewer: parsing and highlighting | emvhighlighter.h |
| ViewerTextLemmas | Lemmas on the texts of the tree view |  |
| ViewerTextProps | The text of the viewer: C119 and C120 |  |
| ViewerTextSpec | Specification of the text of the viewer |  |
| ViewerWindow | Model of the main window of the viewer |  |
| ViewerWindowLemmas | Lemmas for the window of the viewer |  |
| ViewerWindowProps | C121–C124: the window of the viewer |  |
| WarningProps | C151: warnings without data |  |
| Work | How often data are decoded | emv_tlv.c, iso8825_ber.c, print_helpers.c |
| WorkLemmas | Lemmas about the number of calls |  |
| WorkProps | How often data are decoded: C144 |  |

Not modelled: the clock and the conversions (`vsnprintf`) of `emv_debug.c`, debug events of level TRACE, the size of stack frames (their number is, in `Nest`), time other than the number of calls of `iso8825_ber_decode` (`Work`),
 the PC/SC service calls
themselves, argp of the C library (the reading of words in `Argp` follows its
documentation), json-c itself and `std::stoul` (parameters of `Codes`), of `viewer/` everything
but what is cited in the modules `Viewer*` (Qt itself, layout, colours), the libraries behind the iconv/boost variants of ISO 8859 (their pages of characters are a parameter), NULL guards, and the functions of
`emv_strings.c`, `iso7816_strings.c` and `tools/` that are not cited in any module.


## Seeded bugs no theorem catches

Eight edits in `seeded/LOG.jsonl` survive and are marked "not shown to be equivalent": no theorem of the claimed property
fails. They are gaps in the theorems until shown otherwise. They concern the state shown for an unreachable reader (C106),
the names of extended PUT DATA (C140) and of SELECT with P2 (C67), the two amount options exchanged (C128), three contents of
debug events (C132, C134, C135: PDOL, AIP and AFL, the reason for a record that cannot be parsed), and the data kept with the
blocks of the viewer (no claim). Earlier versions of the log called them equivalent by default; that was not checked.
## 4. Properties and status

Full statements in `properties.jsonl`.  "partial" always means that the claim is false of the
code or that a stated part is missing; the note says which.

| id | title | status | note |
|---|---|---|---|
| C01 | BER decode is memory safe and never over-consumes | proved |  |
| C02 | BER definite-form round trip | proved | C02_accepts and C02_refuses are the converse: what is decoded is encoded at the front of the buffer, anything else is refused. |
| C03 | BER iteration yields exactly the encoded sequence and always ends | proved |  |
| C04 | Indefinite-length contents end at their own end-of-contents marker | partial | False of the code: EOC is not consumed by iteration and the first nested EOC ends the outer object (witnesses C04_eoc_not_consumed, C04_nested_content_lost). Proved: with definite-form children the value is exactly the children. C04_exact_partial characterises exactly what is accepted and returned in every case. |
| C05 | EMV TLV parsing yields the primitive leaves in document order | proved |  |
| C06 | EMV TLV parsing of arbitrary input is safe, monotone and classifies errors | proved |  |
| C07 | Object identifier decoding never writes outside its result | partial | False of the code: more than 10 arcs overflow the result array (C07_oid_overflow). Proved for at most 10 arcs: in bounds and X.690 values. |
| C08 | EMV TLV list is a FIFO sequence under any history of operations | proved | Refinement of every operation history; appending a list to itself is excluded from the history and shown to lose data (C08_self_append_loses). |
| C09 | Format n encoding round trip | proved |  |
| C10 | Format n decoding returns the decimal number written in the field | partial | False of the code for values >= 2^32: the 32-bit accumulator wraps silently (C10_wraps). Proved: exact decode/refusal for values below 2^32. |
| C11 | Format b encoding round trip | proved |  |
| C12 | Character-set filters keep exactly the permitted characters in order | proved |  |
| C13 | Format b to hexadecimal string | proved |  |
| C14 | DOL decode/iterate round trip | proved |  |
| C15 | DOL data length equals the sum of requested lengths | proved |  |
| C16 | DOL data follows the EMV Book 3 5.4 placement rules | proved |  |
| C17 | Building PDOL data at the call site cannot fail | proved | For every PDOL (below 2^24 bytes), terminal data and buffer content. |
| C18 | AFL iteration accepts exactly well-formed AFLs | proved |  |
| C19 | CVM list parsing | proved |  |
| C20 | AID classification by registered provider and product prefix | partial | False of the code for JCB (C20_jcb_not_recognised). Proved for every other registered prefix and for unregistered AIDs. |
| C21 | IAD format recognition is a total deterministic classification | proved |  |
| C22 | APDU case classification follows ISO 7816-3 | partial | False of the code for extended length fields (C22_ext_unrecognised, C22_ext_misclassified). Proved for the short cases. C22_ext_exact_partial says exactly which extended commands with data are classified, and as what. |
| C23 | TTL never overflows the caller's response buffer | proved |  |
| C24 | TTL transmits only the caller's command bytes | partial | False of the code in TPDU mode: over-read after one data byte (C24_overread), command buffer leak after 61xx + ACK (C24_leak), wrong INS after single-byte requests (C24_wrong_ins), Le sent as data after a single-byte request (C24_le_sent), data re-sent as header on 6Cxx (C24_data_as_header). Proved: APDU mode, commands without data, cards without procedure bytes, the regular ACK exchange, order of data under arbitrary single-byte procedure bytes (C24_order_partial), and that every later command of four or more bytes is a GET RESPONSE/repeat with the Le the card named (C24_follow_up). |
| C25 | TTL exchange reports exactly the data and status the card sent | proved |  |
| C26 | TTL exchange termination | partial | False of the code: 61xx for ever (C26_endless). Proved: all answers other than 61xx/6Cxx without data are bounded by the sizes of command and response buffer (C26_bound_partial), and so every exchange ends with a card that does not keep sending those (C26_ends_partial). |
| C27 | TTL command wrappers build well-formed short APDUs | proved |  |
| C28 | Reading an SFI requests exactly the records of the range, in order, once each | partial | Order, once each, stop at first failure: proved for every range. Termination proved for ranges ending before 255; false for ranges ending at 255 because the 8-bit counter wraps (C28_endless). |
| C29 | An accepted record in SFI 1-10 is a single record template | proved | A card answering 9000 with no data makes the code read an uninitialised byte (C29_empty_record); that case is reported as undefined behaviour, not as success. |
| C30 | Reading all AFL records collects exactly the AFL's records in order | proved | C30_order (prefix property at any time) is for entries not ending at record 255; success and failure theorems are unrestricted. |
| C31 | GET PROCESSING OPTIONS result is format independent | partial | Success and format independence proved in full. 'On failure no AIP is reported' is false when the response has an AIP and no AFL: the AIP output is left pointing to a freed field (C31_dangling_aip). |
| C32 | Candidate applications always match a supported AID | partial | Directory (PSE): sound, complete and exact for every card. List of AIDs: the code compares only the length of the returned DF name, so it holds only when the card answers with a name that starts with the requested one (C32_find_unchecked is a counterexample); an empty FCI causes an uninitialised read. |
| C33 | PSE directory reading terminates | partial | Order proved. Termination is false for a card that never reports 'record not found' (C33_endless); proved for all others. |
| C34 | Candidate list priority sort | partial | Permutation and order proved; stability is false among priority-0 entries after the first (C34_zero_priority_unstable). |
| C35 | Removing a candidate by index removes exactly that one | proved |  |
| C36 | AID matching rule | proved |  |
| C37 | Application display name fits and is printable | proved |  |
| C38 | Cardholder selection requirement | proved |  |
| C39 | Application selection never selects something the card rejected | proved |  |
| C40 | Read application data accepts exactly complete non-redundant data | proved | Soundness, failure classification with unchanged context, and completeness (AFL entries with last record below 255). |
| C41 | Application initiation may be retried without dangling data | partial | Proved by induction over all call histories, except initiating the same selection again after success: that always reads the freed AID field (C41_again, reachable by C41_again_reachable). Hypothesis: no answer with status 9000/6283 and empty data (those cause uninitialised reads, see C29, C32). |
| C42 | Outcome mapping of candidate list building | proved |  |
| C43 | ATR interface bytes are parsed within bounds for every ATR | partial | C43_reports/C43_exists/C43_inside/C43_safe: every read is inside the 33-byte storage and the reported TAi..TDi are those of the chain of Y indicators, for every ATR. Partial because an announced TD4 is reported without checking that it lies inside the ATR (C43_td4_outside is the witness). |
| C44 | ATR historical bytes are parsed within bounds | partial | C44_unsafe: category byte 00 with fewer than three status bytes reads out of bounds (witness 3B 01 00). C44_safe_partial: no other ATR does. C44_range, C44_status00, C44_status80: what is reported for accepted ATRs without TD4. C44_inside: the reported range is inside the ATR for every ATR. C44_td4: with a TD4 it starts one byte early. |
| C45 | ATR checksum is enforced whenever required | partial | False of the code for ATRs with a TD4: the byte before TCK is taken for it (C45_td4), so an ATR announcing T=1 is accepted without any TCK (C45_td4_unchecked) and a valid one is refused (C45_td4_refused). Proved for all ATRs without TD4. |
| C46 | ATR timing parameters are computed exactly | partial | C46_values: Fi, Di, fmax, guard times and T=0 waiting time for every accepted ATR. C46_t1_partial: T=1 waiting times when no 32-bit wrap occurs and there is only one TB for T=1; C46_bwt_wraps and C46_last_used show both restrictions are needed. |
| C47 | EMV ATR acceptance | proved | C47_tb4_unchecked is an additional observation: a TB4 for T=1 overrides TB3 but is not checked. |
| C48 | COMPACT-TLV iteration | proved |  |
| C49 | String list builder never overflows and keeps whole entries | partial | emv_str_list_add does not terminate buffers of fewer than three bytes (C49_not_terminated) and drops an empty string that would fit exactly (C49_empty_string_skipped); everything else in the claim is proved for both builders and all sequences. |
| C50 | Date and time stringification is memory safe and exact | partial | False of the code: a valid date or time makes the library write index 7 of a 7 byte local array (C50_overflow, for every valid input). C50_exact_partial proves the claim for the same function with an array of 8 or more bytes; C50_refused covers the error cases of the code as it is. |
| C51 | Compressed numeric string conversions are inverse | proved |  |
| C52 | Numeric string packing round trip | proved |  |
| C53 | Integer to decimal string | partial | False of the code when the digits do not fit: the terminator is written one byte past the end (C53_overflow, exact condition). Proved whenever they fit, and for all values with 11 bytes (C53_eleven). |
| C54 | Track 2 stringification respects the output size | partial | False of the code when the string does not fit: output size is not checked (C54_overflow, exact condition). Proved whenever it fits. |
| C55 | Alphabetic/alphanumeric validation | proved |  |
| C56 | Command APDU description reads only the command | partial | False for some commands of 1 to 3 bytes: the code compares the size of the output buffer instead of that of the command with 4. C56_exact decides for every command whether it is read past its end. |
| C57 | Third party data description reads only the field | partial | Proved for every field and output except fields of exactly five bytes whose unique identifier has its top bit unset; for all of those C57_overread proves the read past the field, so the full claim is false. Also proved: the result is 0 exactly for conforming fields. |
| C58 | Simple ISO 8859 conversion is memory safe and preserves ASCII | partial | False of the code: when the output buffer is exactly filled the terminator is written one past its end (C58_overflow). Proved: the whole conversion when it fits, and the exact truncation behaviour otherwise. |
| C59 | Reader property lookup reads only the reader's property list | partial | The claim is false of the code: the pointer is advanced before the length used for the remaining size is read. C59_misparsed and C59_absent_overread prove the failure for all other well-formed lists; the theorems give the exact condition under which the lookup works (property first in the list, or value no longer than the first value plus what follows). Missing: safety for malformed lists, which does not hold either. |
| C60 | Status word predicates partition the status space | proved |  |
| C61 | Decoding a data object succeeds only on an encoded object | proved |  |
| C62 | Parsing fields succeeds only on a sequence of complete objects | proved |  |
| C63 | Application initiation sends what the PDOL asks for and reports why it failed | proved |  |
| C64 | The records read are those of the AFL in the GET PROCESSING OPTIONS answer | partial | False when the FCI contains a field 94: the planted AFL is read (C64_planted). Proved otherwise. |
| C65 | All ICC data comes from the card's answers | proved |  |
| C66 | ATR acceptance is exactly the grammar | proved | Exact acceptance condition for ATRs without TD4. OkHistorical includes the restriction that category 00/80 needs at least one COMPACT-TLV object (C66_empty_refused). |
| C67 | SELECT commands are described exactly | partial | Proved for every identifier that is printable or shorter than 255 bytes. For 255 byte unprintable identifiers the claim is false: C67_last_digit_lost proves that exactly the last hexadecimal digit is missing. A SELECT without Le has no description at all (C67_without_le). A SELECT without data is described only for the master file (C67_without_data). |
| C68 | Reader features come from the reader's feature list | proved | C68_refused_still_listed records that a list refused because of a wrong entry length keeps counting. |
| C69 | Card type is decided by ATR form and UID request, and the ATR is delivered for contact cards only | partial | The decision about the card type is proved for all inputs and states; the ATR part is proved for successful connections and disconnections. After a failed connection it is false, C69_stale_type is a witness. |
| C70 | Descriptions of flag fields show exactly the set bits | partial | Proved for every field value and output size, except that with no bit set the output is left as it was and so is not terminated although the result is 0; C70_no_lines is a witness for all six functions. |
| C71 | Different bit fields have different descriptions | proved | Reserved bits which share one line are the stated exceptions; for TTQ and Enhanced Contactless Reader Capabilities nothing is said about reserved bits. |
| C72 | Descriptions of capabilities, qualifiers and indicators follow their tables | proved | C72_lines and C72_ffi_lines: at least one line for every value of the capabilities, qualifiers and indicators. The line for absent output capabilities is labelled as input capability in the code; the table follows the code. |
| C73 | CVM List and CVM Results are described rule by rule | proved | Every list of 1 to 122 rules and every three byte result; the exact text is stated for outputs that are long enough, otherwise a terminated text is stated (Shows). |
| C74 | Application File Locator description | proved | C74_refused covers every input that is not the encoding of 1 to 63 well-formed entries. |
| C75 | Application Selection Registered Proprietary Data description | proved | For refused input the line of the broken entry may already be in the output (the code checks the length after adding the line). |
| C76 | Reference currency and language preference descriptions | proved | The tables are arbitrary functions that give NUL free names. Names are cut at 127 bytes. |
| C77 | Issuer Application Data is described by its format | partial | All formats and values except CCD data whose bits for the lower and upper cumulative offline amount limit differ: the code uses one constant for both (C77_ccd_upper_wrong). |
| C78 | Issuer Authentication Data description | partial | All values except a Card Status Update with offline counter action 01, whose line lacks its first letter (C78_csu_typo). Data of none of the kinds leaves the output untouched with code 0 (C78_undescribed). |
| C79 | Authorisation Response Code description | proved | The table is that of the code; C79_entries shows that its order does not matter. |
| C80 | One byte codes are named by their tables | proved |  |
| C81 | Application identifiers and looked up codes are named | partial | JCB is in the register, but an AID with its prefix is not recognised (C81_jcb). |
| C82 | Textual and numeric fields are shown as they are | partial | Numbers from 2^32 on are shown modulo 2^32 (C82_wraps), zeros in front are lost (C82_zeros_lost). |
| C83 | Field information names every declared field | partial | Application identifiers of 14 bytes are copied as text (C83_df_name_raw). |
| C84 | Field information is memory safe for every field | partial | The exceptions are undefined behaviour, each of them (C84_undefined): the two theorems together decide every case. |
| C85 | Every status word is put into words | proved | Words and kinds are written out independently of the code, which is compared with them for all 65536 words. |
| C86 | Life cycle status, card service data and card capabilities are put into words | partial | The one byte capabilities 00 are accepted without any output (C86_no_lines); every other value has a line (C86_lines). |
| C87 | ATR descriptions name the interface bytes that are present | partial | The category indicator is described for ATRs without a TD4; with one, TD4 is described in its place (C87_t1_td4). |
| C88 | ATR interface byte descriptions give the values of the interface bytes | partial | Exact texts for every accepted ATR are proved; they differ from what the bytes mean for the bit rate when Di does not divide Fi (C88_rate_wrong), for several sets of one protocol type (C88_shows_last) and when BWT wraps (C46_bwt_wraps). |
| C89 | BER data is listed object by object | partial | For documents whose object identifiers can be shown: an undecodable one breaks the line (C89_bad_oid), a first number of several octets is split into wrong numbers (C89_joint_arc). |
| C90 | The listing of malformed data shows where it goes wrong | partial | Object identifiers of more than ten numbers overflow the decoded array (C90_overflow); excluded from the safety theorem, as are undecodable ones from the exact text. |
| C91 | Padding after the objects is recognised | partial | Holds for padding shorter than the block; a whole block of padding and ISO 9797-1 method 2 are not recognised or taken for objects (C91_whole_block, C91_method2). |
| C92 | EMV data is listed field by field with names and meanings | partial | For fields with a defined description; the others make the listing undefined (C92_undefined with C84_undefined). |
| C93 | Data object lists and tag lists are listed entry by entry | partial | Undefined for an entry that asks for 14 bytes of tag 84 (C93_null); an incomplete entry at the end is dropped silently (C93_cut). |
| C94 | The listing of an ATR shows every byte with its meaning | partial | ATRs with TD4 are excluded: their historical bytes are misplaced (C43_td4_outside). False for the check byte: one is listed for every ATR without (C94_no_check). |
| C95 | The listing of historical bytes shows every object with its meaning | partial | Empty card service data are described by the next byte stored (C95_empty_service); for the capabilities 00 the array is printed although nothing was written to it (C95_no_lines). |
| C96 | Commands, responses, applications and events are listed completely | partial | Commands of C56 are read past their end, exactly (C96_command_partial). TLV events print the listing of C92. |
| C97 | The decoder's input is the bytes written | partial | Undefined for every text with a character from 80 on before the first foreign character (C97_undefined). White space after the last digit is refused as an odd number of digits (C97_trailing_space); parse_hex itself cuts silently when its buffer is small (C97_cut), the tool never gives it such a buffer (C97_argument). |
| C98 | Codes are looked up in the installed documents | partial | Exact for documents of the expected form, with what is known after each kind of failure. Undefined for an empty path (C98_empty_path) and for lookups after a second initialisation (C98_again); a country or currency number std::stoul refuses ends the program (C98_terminated). Of a refused document of merchant categories those before the element at fault stay known (C98_half). |
| C99 | The decoder shows a field's description, or says why not | partial | False of the code: a field of flags none of which is set prints an array that was never written (C99_uninitialised); Additional Terminal Capabilities of many bits are cut (C99_truncated), so are long CVM lists and Issuer Application Data; Terminal Type 00 is refused (C99_term_type_zero); Third Party Data of five bytes are read past their end (C99_third_overread). Proved: the exact output for everything else, up to the cases in which the listings themselves are undefined. |
| C100 | The decoder shows the names of codes and the text of code pages | partial | False of the code: text whose UTF-8 fills 2048 bytes exactly writes past the array (C100_text_overflow); the exit status is 0 also when nothing could be decoded (C100_status); text that begins with a control character is shown as an empty line (C100_text_partial). Proved: everything shown for codes, and for text that fits. |
| C101 | Third party data are described part by part | partial | Except fields of five bytes whose unique identifier has its top bit unset, which are read past their end (C57_overread). Conforming fields are shown by exactly their lines. |
| C102 | Initialisation finds every reader | proved | For services that fill in no more than the size they announced and readers that answer within the buffers they are given. |
| C103 | What a reader reports is known afterwards | partial | False of the code: a failed request for PIN or display properties keeps the later ones from being asked (C103_lost), and a reader that cannot be connected makes an uninitialised handle be disconnected (C103_foreign_handle). Feature lists with entries of another length are refused but stay listed (C68_refused_still_listed). |
| C104 | Waiting for a card gives a reader that has one | partial | False of the code: when no reader has a card the index becomes SIZE_MAX, which is not PCSC_READER_ANY, and waiting again watches no reader (C104_index_lost). Everything else is proved, for services that report nothing of ignored readers. |
| C105 | Data are sent only to a connected card | partial | False of the code for services that overwrite the handle when connecting fails (C105_stale_handle), and a card that does not answer the UID request stays connected (C105_left_connected). |
| C106 | The reader listing shows every reader with what it reports | partial | False of the code for property lists the library misreads (C106_omitted, from C59_misparsed) and readers that fail a request for a description they list (C103_lost); a reader without a display can be listed with both "No LCD" and "LCD" (C106_contradiction). C106_listing gives the exact text for whatever the library knows of each reader; C106_tool_partial goes from the answers of the service to the text. |
| C107 | The state of a reader is shown by its most important bit | proved |  |
| C108 | The command line sets the values it names | partial | False of the code and proved so: more than two decimal digits is accepted for the type (C108_type_loose) and more than digits for amounts (C108_amount_loose; C108_type, C108_amount and C108_amount_other state exactly what is accepted); the debug source ALL turns off the events of every source (C108_all; C108_events_partial is for the other names). |
| C109 | The terminal data are those of the command line and the clock | proved |  |
| C110 | A transaction tries each candidate at most once and ends | partial | False of the code: an answer of success without data makes the kernel read an uninitialised byte (C29_empty_record; the only way to undefined behaviour by C110_transaction), and when the cardholder must choose and standard input has ended the question is asked forever (C110_stuck). C110_transaction states how every run ends. |
| C111 | The cardholder chooses by number | partial | False of the code for lines of more than two characters, which are cut into several answers, and numbers followed by other characters or with a sign (C111_long). C111_line is for lines of at most two characters, C111_choice states the choice for every input. |
| C112 | Every code has its text | proved |  |
| C113 | A transaction is the bytes exchanged with the reader | partial | False of the code: a command answered with success and without data makes the kernel read an uninitialised byte (C29_empty_record); by C113_bytes this is the only way to undefined behaviour. |
| C114 | A run of the tool: what it says, what it sends and what it leaves | partial | False of the code: whenever the run gets to know the ATR of a card and does not end with the card deactivated, the card is still connected (C114_left_connected; C114_disconnected_partial is for the other runs), and the status is 0 after every failure at the service, reader or card (C114_status states it exactly). C114_safe_partial does not cover the inputs for which parts are already shown to be unsafe (C44_unsafe, C29_empty_record, property lists other than in C106_reader_partial). C114_course gives the output for readers described as in C106. |
| C115 | The tree of the viewer shows where each field is in the data | partial | The ways of reading (C115_every_input, C115_places) are for all data. The tree itself is for data whose fields can be described (C116_undefined, C116_dol_84 show that it fails on others) and below 2^31 bytes. |
| C116 | Items of the viewer show the name and value of their field | partial | False of the code: fields whose description is undefined (C84), such as an empty Transaction Type, make it read or write outside of arrays (C116_undefined), and a data object list that asks for 14 bytes of tag 84 makes it read from a null pointer (C116_dol_84). |
| C117 | Padding in the viewer | partial | False of the code: a whole block of padding is invalid data (C117_whole_block), method 2 is read as fields (C117_method2), and 15 bytes of AES padding are padding here but invalid data in emv-decode (C117_fifteen). |
| C118 | Switching decoding on and off | proved |  |
| C119 | The viewer reads the text as hexadecimal | partial | False of the code: a character above 255 as the first that is no digit is looked up outside of the table of isxdigit (C119_wide). C119_rows_partial is for data whose fields can be described (see C116). |
| C120 | How the characters of the text appear | partial | False of the code: white space in a line that is not valid to its end is marked like a character that is no digit (C120_white), and characters above 255 are looked up outside of a table (C120_wide). |
| C121 | The window of the viewer shows its text | partial | C121_history and C121_timer are for all events. C121_characters_partial is for characters below 256, not white (C120_white, C120_wide) and a selection inside of the data (C122_kept); C121_tree_partial for fields that can be described (C116). |
| C122 | Pressing an item of the viewer | partial | False of the code: what is marked stays marked when the text changes (C122_kept, C122_kept_marks), and an item pressed before the tree is updated marks other bytes (C122_stale). |
| C123 | How the viewer starts | proved |  |
| C124 | The viewer never does anything undefined | partial | False of the code for characters above 255 (C124_wide) and fields whose description is undefined (C116_undefined); C124_safe_partial is for all other texts. |
| C125 | What the command line of emv-decode asks for | proved |  |
| C126 | Options, exit status and answers of emv-decode | proved |  |
| C127 | emv-decode never does anything undefined | partial | False of the code: an empty path for the tables (C127_path), inputs with characters outside of ASCII (C127_letter) and flags none of which is set (C127_flags) are undefined; the other exceptions in Benign are those of C92 to C100. C127_safe_partial is for every other command line. |
| C128 | What the words of the command line of emv-tool do | partial | False of the code: an empty path for the tables is undefined (C128_path). C128_safe_partial takes over the conditions of C114_safe_partial, for inputs outside of them parts are shown to be unsafe. |
| C129 | Conversion to UTF-8 with a library of characters | partial | proved for boost but for texts that do not fit, which are cut inside of a character (C129_split); for iconv the text is only terminated if the array was cleared before and is larger than the text (C129_unterminated, C129_zeroed_partial). Characters a page does not have and control characters are treated differently by the builds (C129_differ). The libraries are modelled from their documentation, the characters of the pages are a parameter. |
| C130 | The display name with a library of characters | partial | proved for boost for all fields, in bytes; whole characters for names whose characters take at most two bytes (C130_whole). False for names of more than ten Thai letters: the last is cut with boost, and with iconv the name is not terminated (C130_thai). |
| C131 | Every block of memory has one owner | partial | proved for all sequences of calls in which processing of an application is not initiated again after it was initiated (it may be after it failed: C131_retry). False otherwise: the AID was released with the data of the card and is read again (C131_again). |
| C132 | The debug events show what happened | partial | proved for all exchanges and calls, except what is false: records of the directory are read without announcement (C132_directory), an application whose AID is longer than 16 bytes is passed over without any event (C132_silent), and one message shows uninitialised memory (C132_leak, C132_leaks). Events of level TRACE are not modelled; those of emv_atr_parse are C133. |
| C133 | The reason given for refusing an ATR is true | proved | One of the messages in the code can never be shown (C133_never). |
| C134 | The reasons reported are the reasons | proved | Arguments that are refused as invalid (result -2 of the terminal application layer) are refused without an event, and the result 14 (offline data authentication impossible) is not a failure; see C135. |
| C135 | Records for offline data authentication | partial | The code disregards how many records of an entry are for offline data authentication: the result 14 can come from a record that is not designated (C135_undesignated), a record that is not designated is reported as used (C135_used), and after an invalid record the records of the next entry are again reported as used (C135_again). Proved for every AFL and card: which records are read, and exactly what is reported and returned. |
| C136 | The debug output of a transaction | partial | False of answers with fields whose description is undefined (C84): the answer 9C 00 to a SELECT makes the output undefined with the settings of emv-tool without options (C136_undefined). Proved for the exchange of every command of at least four bytes (all those of the library), for the calls of the kernel at levels below INFO whatever the card answers, and at every level for answers whose fields can be described. Events of level TRACE and of the ATR are not included (for the ATR see C96). |
| C137 | The report of a directory | proved | The number shown for a record that is in another template is not the tag found but uninitialised memory (C132_leak); the specification leaves it open. A directory whose FCI is only partly encoded is read with the fields before the fault. What makes an entry valid and supported is C32, C36 and C37. |
| C138 | The report of a successful transaction | proved | The data sent are those of C17 and C63; which records are said to be used for offline data authentication is C135. |
| C139 | Debug events reach the application that asked for them | partial | False of the code: the time is kept in 32 bits of microseconds, so that a later event may have an earlier time (C139_wraps). Proved: the order while no multiple of 2^32 microseconds is between two events, and the time between them if less than 71 minutes. |
| C140 | Commands are described exactly | proved | C140_iso: every interindustry command except SELECT (for which C67) and extended commands with data (classified wrongly, C22): of these, PUT DATA is described by its name or not at all (C140_extended), other instructions than READ RECORD and SELECT as always (C140_name). The text "PUT DATA for current EF" is unreachable in the code. |
| C141 | The viewer and emv-decode show the same of the same data | partial | False of the code: fifteen bytes of AES padding are padding in the viewer and invalid data in emv-decode (C117_fifteen, used as a hypothesis here), and an object identifier that cannot be shown breaks the listing of BER data, not the tree (C141_oid). Proved for all other data; those with fields whose description is undefined (C92_undefined, C116_undefined) are excluded for EMV data. |
| C142 | What memory held before does not show | proved |  |
| C143 | Nested data need a bounded amount of stack | partial | False of the code: well-formed data of six bytes for each frame run out of any number of them (C143_unbounded), unfinished objects of indefinite length take one frame for every two bytes (C143_opened). Proved: what is enough for data of any length (C143_decode, C143_enough_partial, C143_marks_partial), exactly what is needed by well-formed data, and that 130 frames are enough for answers of a card (C143_card). |
| C144 | Reading nested data takes time in proportion to their length | proved | Contents of indefinite length are decoded twice (once to find their end), which is why the bound is not one call for each object. |
| C145 | A card is told only what it asks for, and all of that | proved | C145_initiate (one application), C145_shows (every difference in a requested field shows), C145_transaction (whole transaction of the tool, by induction over the rounds), C145_tool (options and clock). Answers below 16 MB as in C110; C145_shows and the fields loaded in C145_tool with enough memory. |
| C146 | More data at the end do not change what was read | proved | Objects, iterators (BER, data object lists, compact TLV), emv_tlv_parse and the viewer's tree. The trees are compared where both can be made (C115, C116 say when); C146_padding is the exception named in the statement. |
| C147 | Searching by AIDs finds exactly the supported applications of the card | partial | False of the code for cards on which one name begins another: an entry for the whole name misses the application behind one with a longer name (C147_hidden), an entry for the beginning misses those behind the one of exactly that name (C147_unasked). Proved for all other cards (C147_all_partial, C147_candidates_partial), and for all cards: that nothing else is found, that the search ends and the number of commands. A card that does not keep to ISO 7816-4 can be asked without end (C147_endless). |
| C148 | The directory and the list of AIDs lead to the same candidates, each of which can be selected | partial | Proved for cards on which no name begins another one. False for others: an entry of the list is not found (C147_hidden, C147_unasked) though the directory has it, and a candidate is refused when an application with a longer name comes before it (C148_refused). |
| C149 | A proper card is read completely | proved | Hypotheses are structure Good and the card of C147. That the file control information holds no AFL is needed: the code takes the first one among all ICC data (C64_planted). C149_card needs that no name on the card begins another one (C147_hidden). |
| C150 | Nothing of an earlier transaction gets into the next one | proved | session is the application that stops at the first failure; InOrder its order of calls. C150_order shows that the order is needed. |
| C151 | A proper card is read completely over a reader, at once or in parts | proved | APDU mode of the reader; TPDU mode is C152. C151_command leaves out a warning without data, which is C151_warning; the total data of a command is bounded by the 256 bytes of a response APDU. |
| C152 | A command has the same result in TPDU mode as in APDU mode | proved | The card is one that asks for all data at once; for cards that ask byte by byte, or want a command with data repeated by 6Cxx, the code does not follow the protocol (C24_wrong_ins, C24_le_sent, C24_data_as_header). emv-tool itself only uses APDU mode; the transaction in TPDU mode is that of an application making the same calls. |
| C153 | An application that cannot be used does not keep the others from being used | proved | 6A81 in answer to SELECT ends the transaction (card blocked), as does any other answer to GET PROCESSING OPTIONS than 9000 and 6985 (C110). |
| C154 | A failure of the reader ends the transaction | proved | An exchange fails when the command function returns a code other than 0: an error or empty response of the reader, a malformed response or one too long. C154_reader is for errors of the reader, in both modes. |
| C155 | How the supported AIDs are listed does not matter | partial | Directory: proved for all pairs of lists that permit the same AIDs and all cards. Search entry by entry: proved for the order of the entries, on cards on which no name begins another one (C155_search_partial). False for repeated entries, which give each application twice (C155_repeated). |
| C156 | Lack of memory is reported, never hidden | proved | Allocations while the list is built and an application is selected succeed here; see C158 for those. |
| C157 | A blocked card is left alone | proved | 6A81 in answer to SELECT of the next occurrence only ends the search for that AID, as the code says (EMV 4.4 Book 1, 12.3.3). |
| C158 | Lack of memory during application selection is reported | partial | The first sentence is false of the code: C158_never (no behaviour of the allocator makes these functions return -1), C158_lost (an application of the directory is missing and the outcome is success), C158_passed_over (the selected application is passed over). That nothing is made up is proved: C158_directory_partial, C158_search_partial, C158_selection_partial. For the search the commands may differ from those with unlimited memory, and only the origin of each candidate is stated. |

## 5. Disagreements between code and expected behaviour

Each is a theorem (negation with a witness, or the exact failing condition) unless marked
"(reading)", which means it was noticed while translating and is only recorded here.

BER, TLV, formats
* Indefinite form: the end-of-contents octets are not consumed by iteration and the first nested
  one ends the outer object (`C04_eoc_not_consumed`, `C04_nested_content_lost`).
  The time bound of C144 rests on this: contents of indefinite length never contain a complete object
  of indefinite length, so none is decoded more than three times.  If the octets were consumed, each
  object would be decoded once for every enclosing one of indefinite length.
* OIDs with more than 10 arcs overflow the result array (`C07_oid_overflow`).
* A list appended to itself loses its elements (`C08_self_append_loses`).
* Format n decoding wraps at 2^32 (`C10_wraps`).
* ISO 8859 conversion writes the terminator one past an exactly filled buffer (`C58_overflow`).

AIDs, APDUs, transport
* The JCB AID is not recognised (`C20_jcb_not_recognised`).
* Extended length commands are not recognised or misclassified (`C22_ext_*`).
* TPDU mode: over-read after a single data byte was requested (`C24_overread`), Le sent as data
  (`C24_le_sent`), bytes after the command sent after 61xx + ACK (`C24_leak`), INS compared with
  a data byte (`C24_wrong_ins`), data re-sent as a header on 6Cxx (`C24_data_as_header`).
* 61xx for ever keeps the loop going (`C26_endless`).

Application layer
* A record range ending at 255 never ends: the 8-bit counter wraps (`C28_endless`).
* 9000 with no data makes record and FCI parsing read an uninitialised byte (`C29_empty_record`).
* A GPO answer with AIP but no AFL leaves the AIP output pointing to a freed field
  (`C31_dangling_aip`).
* Partial selection compares only the length of the returned name (`C32_find_unchecked`).
* A card that always reports records keeps PSE reading going (`C33_endless`).
* Sorting is not stable among priority 0 entries (`C34_zero_priority_unstable`).
* Initiating the same selection again after success reads the freed AID (`C41_again`, `C131_again`).
* An AFL planted in the FCI is used for reading (`C64_planted`).
* `emv_initiate_application_processing` prints `ctx->selected_app` in the branch taken when
  `ctx` may be NULL (reading).

ATR
* Category 00 with fewer than three bytes reads out of bounds (`C44_unsafe`, witness 3B 01 00);
  a TD4 is not consumed (`C43_td4_outside`, `C44_td4`, `C45_td4`): a valid ATR with one is
  refused (`C45_td4_refused`), and one that announces T=1 is accepted without a check byte
  (`C45_td4_unchecked`, witness 3B 80 80 80 81 01); BWT wraps in 32 bits
  (`C46_bwt_wraps`); the last instead of the first TB for T=1 counts (`C46_last_used`); a TB4
  for T=1 is not checked (`C47_tb4_unchecked`); historical bytes with no COMPACT-TLV object are
  refused (`C66_empty_refused`).
* Trailing bytes are ignored; explicit status bytes are overridden by a status object (reading).

Strings
* Small buffers are left unterminated, an exactly fitting empty string is dropped
  (`C49_not_terminated`, `C49_empty_string_skipped`).
* Date and time write index 7 of `char[7]` (`C50_overflow`); `emv_uint_to_str` terminates one past
  the end (`C53_overflow`); track 2 ignores the output size (`C54_overflow`).
* Command descriptions check the output size instead of the command length
  (`C56_short_overread`, `C56_exact`); a 255 byte unprintable name loses its last digit (`C67_last_digit_lost`); a SELECT with data but without Le is not
  described at all (`C67_without_le`); "PUT DATA for current EF" asks for a command with a data field of
  length 0, which no command has (example beside `C140_iso`).
* Third party data of five bytes without country code flag reads byte 5 (`C57_overread`).
* Proprietary third party data of an unknown unique identifier that begin with a zero byte are said to be
  not used even when more bytes follow; a device type with a zero byte is cut (both as C101 states).
* Flag field descriptions leave the output untouched when no bit is set (`C70_no_lines`).
* CCD: the constants of the lower and the upper cumulative offline amount limit are equal
  (`C77_ccd_upper_wrong`).  Issuer Authentication Data of no known kind is a success without any
  output (`C78_undescribed`); a CSU line lacks its first letter (`C78_csu_typo`); the response code
  after a CSU can never be shown, as ten bytes with such a code are always taken for an 8 byte
  cryptogram (see `authLines`, which has no such line); the comment says 8 to 16 bytes, the code
  accepts up to 32; "No CDCVM" lacks the prefix of its neighbours (reading).
* The line for "no output capability" of Additional Terminal Capabilities is labelled as input
  capability; VSDC formats 2/4 show the same line for two
  different bits; the CVM list description ignores a failing iterator (reading).
* `emv_tlv_get_info` tests `strncmp` of the DF name the wrong way round, so that application
  identifiers of 14 bytes are copied as text (`C83_df_name_raw`); JCB is never recognised
  (`C81_jcb`, `C20_jcb_not_recognised`); it reads the first byte of empty fields and passes on the
  defects above (`C84_undefined`); numeric fields are shown modulo 2^32 and without
  their leading zeros (`C82_wraps`, `C82_zeros_lost`).

Reader
* Property lookup advances the pointer before it reads the length (`C59_misparsed`,
  `C59_absent_overread`); a refused feature list stays listed (`C68_refused_still_listed`); the
  card type of an earlier connection survives a failed one (`C69_stale_type`).

Card descriptions
* The capabilities `00` are a success without any output (`C86_no_lines`); the listing of an ATR
  then prints an uninitialised array, or the lines of the object before (`C95_no_lines`).  Card
  service data of length 0 are described by the next byte stored (`C95_empty_service`).
* The listing shows a check byte 00 for an ATR without check byte (`C94_no_check`), and a life cycle
  status 00 for a status indicator without one (`statusParts`).
* Listing a command of one to three bytes may read past its end (`C96_command_partial`).
* ATR descriptions: the bit rate is computed with a rounded number of cycles and comes out too
  high when Di does not divide Fi (`C88_rate_wrong`); with several sets of one protocol type each
  is described by the values of the last (`C88_shows_last`); a TD4 is described starting with the
  separator "; " (`C87_td4`), and again in place of the category indicator (`C87_t1_td4`).

Listings
* An object identifier that cannot be decoded leaves its line unfinished, prints an error without
  place, and the listing goes on (`C89_bad_oid`); one whose first number needs several octets is
  shown with wrong numbers (`C89_joint_arc`); one with more than ten numbers writes past the end of
  the array (`C90_overflow`).  The end-of-contents octets of the indefinite form are listed as an
  object (reading of `Doc`).
* A whole block of DES padding, 15 or 16 bytes of AES padding, and ISO 9797-1 method 2 are not taken
  for padding (`C91_whole_block`, `C91_method2`).
* Listing a field with an undefined description is undefined (`C92_undefined`); this includes every
  Transaction Date.  A data object list that asks for 14 bytes of tag 84 makes the listing read
  through a NULL pointer (`C93_null`); incomplete entries at the end are dropped silently
  (`C93_cut`); a tag list never names 9F66, 9F6D and 9F6E, as their names depend on the length.

Decoder input
* White space after the last digit is refused as an odd number of digits (`C97_trailing_space`).
* Characters from 80 on are passed to `isspace` as negative numbers (`C97_undefined`).

Code tables
* Initialising a second time replaces the storage of the lists while the maps keep references into
  the old one: every later lookup of a known country uses freed memory (`C98_again`).
* An empty path is undefined (`C98_empty_path`); a number that is not one ends the program through an
  exception in a `noexcept` function (`C98_terminated`).
* The errors 1 and -1 do not tell the file of countries from that of merchant categories
  (`C98_countries_refused`, `C98_categories_refused`; a concrete document: `C98_half`).  Only the type of the first member of an entry
  is checked; numbers of merchant categories beyond 32 bits are reduced (`Category`).

Decoder
* A field of flags none of which is set (`--tvr 0000000000`, `--tsi 0000`, `--ctq 0000`,
  `--9F1D 0000000000000000`) has an empty description, for which the array is left as it was: what
  was in memory is printed, possibly past the array (`C99_uninitialised`).
* `--addl-term-caps FFFFFFFFFF` is cut after 1023 bytes (`C99_truncated`), M/Chip Issuer Application
  Data with many bits after 2047 bytes (examples beside `C99_iad_partial`).
* Terminal Type 00 is refused though the terminal parameter is optional (`C99_term_type_zero`).
* The exit status is 0 also when decoding failed (`C100_status`).
* A code which no table has is read by `strtoul`, which takes white space and signs: `-1` is looked
  up as the number 4294967295 (`IsNumber`).
* The message for languages speaks of currencies (`C100_language`).
* ISO 8859 text that fills the array exactly is written past its end (`C100_text_overflow`); text
  that begins with a control character gives an empty line, other text with one a message
  (`C100_text_partial`).

Readers
* `PCSC_READER_ANY` is 0xFFFFFFFF, but when no reader has a card the index is set to -1, which as
  `size_t` is another number: a loop that waits again with the same variable ignores every reader
  (`C104_index_lost`).
* A reader that cannot be connected when its features are asked makes an uninitialised handle be
  disconnected (`C103_foreign_handle`).
* PIN properties of a wrong size keep display and TLV properties from being asked (`C103_lost`).
* A contactless card that does not answer the UID request stays connected though connecting fails
  (`C105_left_connected`); connecting again is then refused as the connection is exclusive, and the
  handle may be overwritten (`C105_stale_handle`).
* `emv-tool` lists a reader with LCD layout 0 x 0 and zero display properties as “No LCD, LCD”
  (`C106_contradiction`); a USB identification at the end of the property list is omitted when the
  first property has a value of one byte (`C106_omitted`).

Command line of `emv-tool`
* A transaction type is read as a hexadecimal number with `strtoul`, which takes signs and white
  space: `AB`, `-1` and ` 5` are accepted (`C108_type_loose`); likewise for amounts, where
  `-18446744073709551615` is 1 (`C108_amount_loose`).
* `--debug-source ALL` sets bit 4, which belongs to no source: nothing is shown (`C108_all`).

Transaction of `emv-tool`
* When a choice is required and standard input has ended, the question is asked forever (`C110_stuck`).
* An answer longer than two characters is cut: of 12 candidates, `0012` chooses the first and leaves
  `2` for the next question; `1st` and `+1` choose the first (`C111_long`).
* A terminal field for which memory is short is silently left out (`C109_load`).

Run of `emv-tool`
* Only a completed transaction disconnects the card: contactless cards, cards with a refused ATR and
  failing transactions are left connected when the program ends (`C114_left_connected`).
* `main` ends without `return`, so that the status is 0 after every failure from the service on
  (`C114_status`).
* An amount of zero is complained about but used (`C114_course`, `Preface`).

Tree view of the viewer
* Fields whose description is undefined (C84) make the viewer read or write outside of arrays
  (`C116_undefined`); data object lists asking for 14 bytes of tag 84 make it read from a null
  pointer (`C116_dol_84`).
* A whole block of padding is shown as invalid data, padding method 2 as fields (`C117_whole_block`,
  `C117_method2`). Fifteen bytes of AES padding are padding for the viewer and invalid data for
  `emv-decode`, whose comparison is with 15 instead of 16 (`C117_fifteen`). Apart from that, and from object identifiers
  that cannot be shown (`C141_oid`), both read data alike (C141).

Text of the viewer
* Characters are given to `isxdigit` as they are: one above 255, such as the euro sign, is looked up
  outside of its table (`C119_wide`); an em space is when tags are emphasised (`C120_wide`).
* White space between valid digits is marked as no digit when the line ends with something invalid
  (`C120_white`).

Window of the viewer
* `clearSelection` is never called: the digits of a pressed item stay marked at their places when the
  text is replaced (`C122_kept`, `C122_kept_marks`).
* The tree is updated 200 ms after the text; an item pressed before marks digits of the new text that
  belong to something else (`C122_stale`).

Command line of `emv-decode`
* `--isocodes-path=` with nothing after it is undefined behaviour (`C127_path`), and so is an input
  with a character outside of ASCII (`C127_letter`).
* `--tvr 0000000000`, like the other flags none of which is set, shows an array to which nothing was
  written (`C127_flags`).
* When the data cannot be decoded the exit status is 0 (`C126_status`).
* Without a decoding option the input is read and checked, and then only the help is shown
  (`C125_help`).
* With `POSIXLY_CORRECT` set, a code before its option is taken for data (`C125_posix`).

Command line of `emv-tool`
* `--isocodes-path=` with nothing after it is undefined behaviour (`C128_path`).

ISO 8859 with iconv and boost
* With iconv the text has no terminator of its own (`C129_unterminated`): the display name of an
  application with eleven Thai letters has none (`C130_thai`), and `emv-decode --iso8859-n` with a
  text of exactly 2048 bytes reads past its array.
* With boost, which is the default, a text that does not fit is cut inside of a character
  (`C129_split`); this happens to every preferred name of more than ten Thai letters (`C130_thai`).
* The builds differ in characters that are not in the page and in control characters
  (`C129_differ`).

Debug events
* Records of the directory are read without announcement (`C132_directory`).
* An application whose AID is longer than 16 bytes is passed over without any event
  (`C132_silent`).
* The message for a record of the directory without template 70 shows uninitialised memory
  instead of the tag (`C132_leak`, `C132_leaks`).
* `emv_atr_parse` has an error message for 2^CWI < N + 1 that can never be shown, because TC1 was
  checked before (`C133_never`).
* The number of records for offline data authentication in each entry of the AFL is disregarded:
  records not designated are reported as used (`C135_used`) or as making offline data
  authentication impossible (`C135_undesignated`), and after such a record those of the next entry
  are again reported as used (`C135_again`).
* With the default settings of emv-tool the debug output of an answer containing, for example, an
  empty Transaction Type is undefined (`C136_undefined`).
* The time of an event is kept in 32 bits of microseconds; every 71 minutes a later event has an
  earlier time (`C139_wraps`).
* The functions that take data apart call themselves for each level of nesting without a limit. Data of
  six bytes for each level make any stack overflow (`C143_unbounded`); the listing of EMV data has an
  array of 2048 bytes in each frame, so that some 25000 bytes are enough for a stack of 8 MiB.
* The search by the list of AIDs goes on to the next AID as soon as a card answers with an application
  whose name is longer than an AID that wants the whole name, or with one whose name is exactly an AID
  that permits its beginning. Applications behind these are not found (`C147_hidden`, `C147_unasked`).
  The code takes these steps deliberately (its comments cite EMV Book 1, 12.3.3). A card that answers
  SELECT NEXT with an application each time is asked without end (`C147_endless`).
* `emv_select_application` asks for the first application with the name of the candidate and refuses
  the answer if its name is longer; it does not ask for the next one. A candidate of the directory or
  of the search whose name begins the name of an earlier application cannot be selected
  (`C148_refused`).
* The search by the list of AIDs offers an application once for each entry that permits it: an entry
  that occurs twice, or one covered by another, gives the same candidate twice (`C155_repeated`). The
  directory gives it once.
* A lack of memory while the list of candidates is built or an application is selected is never
  reported as the internal error (`C158_never`): the constructors of applications return NULL for it as
  for invalid data. An application of the directory is then missing while the outcome is success
  (`C158_lost`), and one the card has selected is passed over (`C158_passed_over`).
