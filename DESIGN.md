# Formal model of pyiso8583 in Lean 4

pyiso8583 has three entry points: `encode` (dict to bytes), `decode` (bytes to dicts) and `pp`
(print a dict), all driven by a specification dict.  This directory holds a model of all three, the
two shipped specifications, the two exception classes, and proofs of the properties listed in
`properties.jsonl`.

## Layout

* `lean/Verif/Model/` – the model, function by function, each definition citing `/repo` lines.
  * `Py.lean` – the Python runtime operations used (dict, slices, `int()`, hex, codecs as a parameter).
  * `FieldSpec.lean` – specification and document types.
  * `Decoder.lean`, `Encoder.lean`, `Tools.lean` – `decoder.py`, `encoder.py`, `tools.py`.
  * `Exceptions.lean` – the exception objects, `__init__` and `__reduce__`.
  * `Format.lean` – the digit limit of int to text conversion, which can hit error messages.
  * `Specs.lean` – the two shipped specification tables, generated from the text of `specs.py`.
  * `Codecs.lean` – concrete ascii / latin-1 / cp500 / cp037 / utf-8 codecs and the concrete
    environment `cpython` used in examples.
* `lean/Verif/Spec/` – vocabulary of the statements, independent of the model's helper functions:
  what an entry says (`Basic`), what a value is written as (`Encode`), the message format as a
  grammar (`Grammar`), faults and their reports (`DecodeFault`, `Fails`, `EncodeFails`,
  `PrettyPrintFails`), canonical and normal forms (`Canonical`, `Normal`), printing
  (`PrettyPrint`), a reader of Python literals (`Literal`), Python's `int`, `str`, `fromhex` and slices
  as grammars (`Python`), JSON (`Json`), numbers an interpreter prints (`Format`), output streams (`Stream`),
  specifications with gaps (`Partial`), further input (`Incremental`), sizes (`Size`), laws of codecs (`Laws`).
* `lean/Verif/Source/` – the Python text (`Text.lean`), a lexer and a parser for it (`Lexer.lean`, `Parser.lean`), its
  syntax (`Syntax.lean`, `Code.lean`, `SpecsCode.lean`), what running it does (`Semantics.lean`) and the proofs that running it is the model.
* `lean/Verif/Lemmas/` – helper lemmas.
* `lean/Verif/Props/` – the theorems, with concrete examples meeting their hypotheses.
  `Props/Demo.lean` is a worked message that uses header, three bitmaps, all length encodings and
  nibbles; most examples refer to it.  `Props/Findings.lean` is described below.
* `seeded/LOG.jsonl` – wrong programs tried against the theorems.
* `tools/` – scripts that compare the model with the text of `/repo` and with the interpreter.

## How Python is modelled

* `str` is a list of code points, `bytes` and `bytearray` lists of bytes, `int` is `Int` or `Nat`.
* A dict is a list of pairs in insertion order.  Theorems about `encode` that need it assume that the
  caller's dict has no repeated keys (`Dict.NoDup`), which is true of every Python dict.
* Exceptions are values.  The caller's dict, the dicts under construction and the text written are
  mutable state that survives an exception (`PyM`), so the partial results carried by exceptions, the
  changes made to the caller's dict by a failing `encode` and the text written before `pp` fails are
  all part of the model.
* `PyEnv` is the part of the runtime that the code uses but does not define: the codec registry, the
  Unicode tables behind `str.isnumeric`, `int(str)` and `repr`, and the digit limit of `int(str)`.
  Every theorem holds for every environment, or for every environment that meets the laws stated in
  it (`SpecLaws`, `Codec.RoundTrips`, …).  C45 proves these laws for the usual codecs.
* The caller's values are `str`, `bytes`, any other object with a length, or any object without.
  Dict keys are `str` or any other object (represented by its `repr`).
* Python sets are lists in insertion order.  C23 proves that the only iteration over a set whose order
  could matter does not depend on it.

## From the text to the model

The definitions of `Model/` are transcriptions made by hand.  For `decoder.py`,
`encoder.py` and `tools.py` the transcription is itself proved right (C80, C81, C82; C83 adds `__reduce__`, and C84 states the two round
trips for the text).  C85 does the same for the tables of `specs.py`, C86 is about all four together, and C87 about specifications with
missing properties.  C88 says that results are new objects.  C90 is about any
sequence of calls (Props/SourceSession.lean), C91 about the values `encode` takes (Props/SourceValues.lean), C92
about the first argument of `decode` and `encode` (Props/SourceArgs.lean), C93 about calls by position and by name (Props/SourceCalls.lean).
C95 is about the way from the characters of the files to the syntax (Props/SourceText.lean).

* `Source/Text.lean` has the files as they are, a list of lines, each a list of characters.
* `Source/Lexer.lean` and `Source/Parser.lean` read the part of Python the files are written in: layout, strings, f-strings,
  operator precedence, statements, functions, classes.  What they do not know has no parse.  They drop doc strings,
  annotations and `from None`.
* `Source/Code.lean` and `Source/SpecsCode.lean` have every statement as a Lean term.  They are printed by `tools/gen_source.py`, and C95
  proves that they are what the parser reads in the text: every function, class and statement, in the order of the text.  The
  rest of the files is imports and assignments to names that no function refers to (`__all__` and type aliases).
  `gen_source.py --check` compares the committed files with `/repo` again.
* `Source/Semantics.lean` is an interpreter for this fragment of Python, written for the language and
  not for the program: values, a heap of dicts, sets, bytearrays and instances, local variables, names
  looked up in the function and then the module, evaluation order, `try`, `for`, comprehensions,
  f-strings, slices and indexing with bounds, and the methods and builtins the files use.
  Operations outside the fragment raise an exception of their own (`stuck`): among others comparing or
  using as keys values that are not plain, names of the module that are not in the files, and arguments
  that fail where the method called does not exist.  A theorem about a run says that it does not get
  stuck.  Generator expressions run where they are written, and `keys()` is a snapshot; the files use
  neither where that shows.
* The theorems say that running the text gives the result, the exception, the exception's attributes and
  the dicts that the model says, and changes no object that existed before, except that `encode` changes the
  dict it is given, to what the model says.  They assume that no module global shadows a builtin, that iterating over a set gives its members in some order, and `Sane`: the digit limit
  is off or at least 640 (CPython refuses less), and a codec reads 16 bytes as at most 10^100 characters (`encode`
  needs the first of these only).  Keys of a dict given to `encode` are strings, `None`, bools, ints of at most 200 digits, bytes, or objects of
  other classes without `isnumeric`.  Values are strings, bytes, numbers, `None`, or objects of other classes that
  have a `len` or have none.  In C86, C90 and C91 values may also be objects of the heap (bytearrays, sets, dicts, instances), as
  long as they are neither the dict itself nor parts of the specification.
  The bytes given to `decode` may be a bytearray in the heap.
* The specification is a value in C80 to C84.  C86 is about specifications in the heap.  It follows from a theorem about
  the interpreter (`Src.program_agree`, in `Source/Freeze*.lean`): replace objects of the heap by copies of their
  contents, or by a value of which only its place and its length or bytes are known; a function that does not get stuck then does the same with the
  objects, and leaves them as they were.
* The values of a dict given to `pp` are strings, bytes, entries, `None`, bools, ints of at most 200 digits, bytearrays
  nobody else holds, or objects of other classes.
* For `pp` a stream is an object whose `write` may do anything to the world outside the interpreter, but does not
  change the objects `pp` holds.

## What is modelled, and what is not

Modelled completely: `decode`, `encode`, `pp` and all their helpers, both exception classes, both
specification tables.

Left out or simplified:

* Specifications are well typed; `len_type` is a natural number.  A missing field and missing `desc`,
  `len_count`, `left_pad` and `right_pad` are modelled throughout.  Missing mandatory properties
  (`data_enc`, `len_enc`, `len_type`, `max_len`) are modelled in `Model/Partial.lean` only, a second
  transcription that C66 relates to the first and C87 to the source text; all other properties are
  about specifications that have them.
* In `Model/Tools.lean` the widths given to `pp` are ints and `stream.write` never fails.
  `Model/Stream.lean` is a second transcription for any `write` method, with `sys.stdout` as default
  and widths given as `int`, `str`, `float` (a multiple of a power of two, NaN or infinite) or an
  object `int()` refuses; C67 relates the two.  The entries of an encoded dict given to `pp` hold bytes.
* Codecs are functions: a failing codec raises `LookupError` when the encoding is unknown or not a text
  encoding (`hex`, `rot13`), and something else when the data is bad.  Encoding names that Python
  refuses to look up (with a NUL character or a surrogate) are not modelled.
* Error messages contain numbers, and CPython refuses to print numbers of more than 4300 digits
  (`sys.set_int_max_str_digits`).  `Model/Format.lean` adds this to `decode` and `encode`, and C79 says
  when it matters; all other properties are about `decode` and `encode` without it.
* Dict subclasses, non-`str` keys that have an `isnumeric` method, non-`str` values that have an
  `encode` method, and buffers whose `len` is not their number of bytes are not modelled.
* `DecodeError.s` is the same object the caller passed; the theorems about pickling speak about
  the constructor arguments, not about the pickle format.
* Memory, time and recursion limits are not modelled, nor is the limit of a machine word on the
  description width (`str.format` refuses a wider one with ValueError).
* The type annotations, `__init__.py` and the packaging files contain no behaviour to model.

## Determinacy

Three groups of theorems determine the entry points completely, in the vocabulary of `Spec/`:

* `decode_iff`, `decode_error_iff`, `decode_keyError_iff`, `decode_no_typeError` (C54, C58): the
  result of `decode` on every byte string.
* `encode_iff`, `encode_fails_iff` (C55, C59): the result of `encode` on every dict.
* `pp_ok_iff`, `pp_error_iff` (C36, C60): the output of `pp` and its exception on every dict.

A wrong program that gives another answer on any input in the scope of the model contradicts one of
them.  The wording of the error messages is spelled out twice, in the model (`DecMsg.text`,
`EncMsg.text`) and with its meaning in `Spec/Sentences.lean`; `decode_sentence` and `encode_sentence`
(C47, C48) show that the two agree, and `tools/check_tests.py` compares it with the project's tests.
The values in the specification tables are those of the text of `specs.py` (C85; `tools/check_specs.py`
compares them a second time).

## Properties and theorems

All theorems live in the namespace `Iso8583`.

| id | property | status | theorems |
|----|----------|--------|----------|
| C01 | encode then decode returns the message | proved | `encode_decode`, `specLaws_of_lawful` |
| C02 | decode then encode reproduces the bytes | proved | `decode_encode` |
| C03 | encoded bytes are the concatenation of the encoded dict | proved | `encode_wire` |
| C04 | decode accounts for every input byte | proved | `decode_wire` |
| C05 | a failed decode reports a truthful partial result | proved | `decode_error_result`, `decode_error_before` |
| C06 | decode error position | proved | `decode_error_pos` |
| C07 | messages are self-delimiting | proved | `decode_extended`, `decode_prefix_free` |
| C08 | truncated messages are always rejected | proved | `decode_truncated` |
| C09 | decoded fields are exactly the bits set | proved | `decode_fields_are_bits` |
| C10 | emitted bitmaps are exactly the fields present | proved | `encode_bitmaps` |
| C11 | secondary and tertiary bitmaps only when needed | proved | `encode_bitmaps_minimal` |
| C12 | stale bitmaps never leak | proved | `encode_ignores_stale_bitmaps` |
| C13 | encode is idempotent | proved | `encode_idempotent`, `encode_idempotent_many` |
| C14 | encode only touches bitmap keys of the caller's dict | proved | `encode_touches_only_bitmaps`, `encode_keeps_values` |
| C15 | field numbers outside 1-192 are rejected | proved | `encode_out_of_range`, `encode_ok_range` |
| C16 | message type is mandatory and has fixed width | proved | `encode_no_type`, `encode_bad_type`, `encode_needs_type`, `encode_type`, `decode_type` |
| C17 | header handling follows the specification | proved | `encode_no_header`, `encode_header_ignored`, `encode_header`, `decode_header` |
| C18 | max_len is enforced when encoding | proved | `encode_max_len` |
| C19 | emitted length prefix is exact | proved | `encode_prefix` |
| C20 | a length that does not fit is an error, never truncated | proved | `encode_len_does_not_fit`, `encode_prefix` |
| C21 | odd nibble counts are padded by exactly one nibble | proved | `encode_nibbles`, `encode_odd_nibbles` |
| C22 | decode enforces declared lengths | proved | `decode_lengths` |
| C23 | bitmap generation does not depend on set iteration order | proved | `encodeBitmap_perm` |
| C24 | decode raises only DecodeError when the specification is complete | proved | `decode_only_decodeError`, `decode_exceptions` |
| C25 | encode raises only EncodeError on documented input | proved | `encode_only_encodeError` |
| C26 | encode is injective up to hex case | proved | `encode_injective` |
| C27 | field encoding is local | proved | `encode_local` |
| C28 | descriptions play no role | proved | `desc_irrelevant` |
| C29 | len_enc does not affect fixed-length fields | proved | `lenEnc_irrelevant` |
| C30 | fields appear in ascending order | proved | `decode_keys`, `encode_keys` |
| C31 | decoded and encoded dicts agree | proved | `decode_entries`, `EntrySays.unique` |
| C32 | encode failure attribution | proved | `encode_error_result` |
| C33 | unrelated keys are ignored | proved | `encode_ignores_unrelated` |
| C34 | insertion order of the caller's dict is irrelevant | proved | `encode_order_irrelevant` |
| C35 | any editing history behaves like a plain map | proved | `encode_history` |
| C36 | pp prints fields in order, once each | proved | `pp_ok_iff`, `printed_once`, `pp_congr` |
| C37 | folding bytes loses nothing and fits | proved | `wrapBytesRepr_iff`, `wrapBytesRepr_fits` |
| C38 | folding text loses nothing | proved | `wrapStrRepr_iff`, `wrapStrRepr_fits` |
| C39 | pp lines fit the line width | proved | `pp_lines_fit` |
| C40 | shipped specifications are complete and consistent | proved | `default_wellFormed`, `defaultAscii_wellFormed`, `wellFormed_undefined` |
| C41 | shipped specifications never produce unreadable messages | proved | `shipped_prefix_fits`, `shipped_round_trip`, `encode_prefix_fits`, `wellFormed_laws` |
| C42 | exceptions survive pickling | proved | `decodeError_rebuild`, `decodeError_rebuild_any`, `encodeError_rebuild`, `encodeError_rebuild_any` |
| C43 | input types | proved | `decode_argument_types`, `encode_argument_types` |
| C44 | non-string keys are rejected | proved | `encode_invalid_keys`, `encode_needs_str_keys` |
| C45 | common codecs meet the round-trip assumptions | proved | `cpython_codecs_lawful`, `ascii_lawful`, `latin1_lawful`, `cp500_lawful`, `cp037_lawful`, `utf8_lawful` |
| C46 | BCD and binary length prefixes are canonical | proved | `prefix_injective`, `prefix_canonical`, `decode_bcd_decimal`, `bcd_rejected` |
| C47 | DecodeError messages are true | proved | `decode_error_truthful`, `dataShort_is_rest`, `decode_sentence` |
| C48 | EncodeError messages are true | proved | `encode_error_truthful`, `encode_sentence` |
| C49 | causes of raw encode exceptions | proved | `encode_raw_cause` |
| C50 | what of a specification matters | proved | `decode_spec_congr`, `encode_spec_congr` |
| C51 | every fault is reported as such | proved | `decode_fault` |
| C52 | pp raises only for three reasons and keeps complete output | proved | `pp_error` |
| C53 | pp prints what decode and encode return, in message order | proved | `pp_decoded`, `pp_encoded`, `shipped_pp`, `decode_keys_bounded` |
| C54 | decode accepts exactly the messages of the format | proved | `decode_iff`, `message_unique` |
| C55 | encode accepts exactly the dicts that can be written | proved | `encode_iff`, `encode_succeeds_iff` |
| C56 | what the shipped specifications encode | proved | `shipped_encode_iff` |
| C57 | specification entries of absent fields play no role | proved | `encode_spec_local`, `decode_spec_local` |
| C58 | decode does exactly what reading the message calls for, on every input | proved | `decode_total`, `decode_error_iff`, `decode_keyError_iff`, `decode_no_typeError` |
| C59 | encode does exactly what writing the message calls for, on every dict | proved | `encode_fails_iff`, `encode_total` |
| C60 | pp does exactly what printing calls for, on every dict | proved | `pp_error_iff`, `pp_total`, `ppFails_unique` |
| C61 | every accepted message can be sent on, in a normal form | proved | `reencode`, `shipped_reencode` |
| C62 | decode errors tell an incremental reader what to do | proved | `decode_final`, `decode_keyError_final`, `decode_negative`, `decode_still_short`, `decode_gets_further`, `decode_cut_short`, `pull_message` |
| C63 | concatenated messages can be taken apart, in one way only | proved | `messages_unique`, `decode_first`, `split_messages`, `split_sound` |
| C64 | messages have a maximum length that the specification determines | proved | `entry_size`, `message_size`, `encode_entry_size`, `encode_message_size`, `shipped_message_size`, `shipped_encode_size`, `shipped_size_attained`, `shipped_encode_size_plain` |
| C65 | changing one value changes one entry | proved | `edit_field`, `edit_bytes`, `edit_seen` |
| C66 | missing specification properties are never papered over | proved | `decode_missing`, `decode_missing_unused`, `decode_missing_iff`, `encode_missing`, `encode_missing_unused`, `encode_missing_iff`, `encode_missing_dict`, `pp_missing` |
| C67 | pp uses the stream for writing only, and passes on what it raises | proved | `pp_stream`, `pp_stdout`, `pp_bad_width`, `pp_stream_prefix`, `width_unique` |
| C68 | One field can be removed from or added to an encodable dict without touching the others | proved | `remove_field`, `add_field`, `remove_seen`, `add_seen` |
| C69 | extending a specification keeps every result | proved | `decode_extends`, `encode_extends` |
| C70 | messages can be translated between specifications without loss | proved | `gateway`, `gateway_back`, `default_to_ascii`, `decode_binary_upper` |
| C71 | what pp printed determines the dict | proved | `pp_reads_back`, `pp_decoded_unique`, `pp_encoded_unique` |
| C72 | the text of an exception determines message, field and offset | proved | `decode_error_field`, `encode_error_field`, `decode_text_unique`, `encode_text_unique`, `decode_text_numbers`, `encode_text_numbers` |
| C73 | a reply can be built from a decoded message | proved | `patch_succeeds_iff`, `patch_entries`, `reply` |
| C74 | what a failed decode has read can still be sent | proved | `salvage`, `salvage_none`, `shipped_salvage` |
| C75 | what pp prints for a value evaluates to the value | proved | `pp_evaluates`, `pp_dump_encoded`, `pp_dump_decoded` |
| C76 | values cannot disturb or forge pp output | proved | `pp_printable`, `pp_no_forged_line` |
| C77 | Python functions used in statements are described independently | proved | `pyInt_iff`, `declared_text_iff`, `natStr_iff`, `intStr_iff`, `zeroPad_iff`, `zeroPad_wide`, `fromHex_iff`, `slice_get` |
| C78 | decoded dicts survive JSON | proved | `json_roundtrip`, `decode_json`, `cpython_scalar`, `shipped_json` |
| C79 | the interpreter's digit limit and error messages | proved | `decode_valueError_iff`, `decode_printable`, `encode_printable`, `shipped_printable` |
| C80 | running decoder.py is the model | proved | `Src.decode_source`, `Src.decode_source_type` |
| C81 | running encoder.py is the model | proved | `Src.encode_source`, `Src.encode_source_type` |
| C82 | running tools.py is the model | proved | `Src.pp_source`, `Src.pp_source_defaults`, `Src.tools_import`, `Src.decode_pp_source`, `Src.hasDec_pp`, `Src.hasEnc_pp` |
| C83 | exceptions of the text survive pickling | proved | `Src.decode_error_obj`, `Src.encode_error_obj`, `Src.decode_error_rebuild`, `Src.encode_error_rebuild`, `Src.reduce_decodeError`, `Src.reduce_encodeError` |
| C84 | the round trips, of the text | proved | `Src.encode_decode_source`, `Src.decode_encode_source` |
| C85 | running specs.py makes the tables | proved | `Src.specs_source`, `Src.specs_specVal` |
| C86 | specifications as objects | proved | `Src.decode_heap`, `Src.encode_heap`, `Src.pp_heap`, `Src.specs_heap`, `Src.session_heap`, `Src.shipped_session`, `Src.program_agree` |
| C87 | the source text on specifications with missing properties | proved | `Src.decode_source_missing`, `Src.encode_source_missing`, `Src.pp_source_missing`, `Src.decode_source_gaps`, `Src.encode_source_gaps`, `Src.pp_source_gaps` |
| C88 | what decode and encode return is new | proved | `Src.decode_new`, `Src.encode_new`, `Src.decode_twice`, `Src.encode_twice` |
| C89 | hexadecimal, byte integers, isnumeric, sorting, sets and dicts are described independently | proved | `a2bHex_pairs`, `bytesHex_iff`, `bytesHex_upper_iff`, `fromBytes_value`, `toBytes_iff`, `isNumeric_iff`, `sortedBy_iff`, `sets`, `dict_get`, `dict_set`, `dict_pop` |
| C90 | any sequence of calls: history plays no part | proved | `Src.session`, `Src.session_final`, `Src.result_stays`, `Src.package_ready`, `Src.step_answered` |
| C91 | which values encode takes | proved | `Src.encode_took`, `Src.encode_refuses`, `Src.encode_heap`, `encode_takes` |
| C92 | the first argument | proved | `Src.decode_type_error`, `Src.encode_type_error` |
| C93 | arguments by position and by name | proved | `Src.decode_forms`, `Src.encode_forms`, `Src.pp_forms`, `Src.Passes.unique` |
| C94 | what decode builds is bounded by its input | proved | `decode_value_size`, `decode_error_size`, `cpython_boundedTexts` |
| C95 | the syntax is that of the text | proved | `Src.decoder_text`, `Src.encoder_text`, `Src.tools_text`, `Src.specs_text`, `Src.init_text`, `Src.text_program`, `Src.decode_text`, `Src.encode_text`, `Src.pp_text`, `Src.specs_module_text`, `Src.spellings_one_to_one`, `Src.identOf_spelled` |
| C96 | how long a field can be, and the documented table of length types | proved | `length_fits_iff`, `documented_table` |
| C97 | one field of a received message can be overwritten in place | proved | `overwrite_field`, `overwrite_data`, `overwrite_binary`, `overwrite_at`, `overwrite_type` |

How they are proved: every step of `decode` and `encode` is first characterised by a relation on its
inputs and outputs (`Lemmas/DecodeField`, `DecodeBitmap`, `EncodeField`, `EncodeRun`, …); the loops
over fields become statements about lists of parts (`Lemmas/DecodeMsg`, `EncodeMsg`, `Grammar`); the
bitmaps are characterised bit by bit (`Lemmas/Bits`); most properties then follow from the
relations without looking at the program again.

## Behaviour worth knowing

`Props/Findings.lean` contains inputs, run by the kernel, that show why some properties carry the
hypotheses they carry.  Among them:

* `decode` reads text length prefixes with `int()`: signs, blanks and underscores are accepted, and
  minus one nibble is accepted as an empty field.
* Blanks in a text bitmap are skipped, which shortens the bitmap; a multi-byte codec can make it longer.
* An unknown encoding goes unnoticed as long as the field is empty.
* A text field counted in nibbles accepts an odd count and ignores the last nibble.
* `encode` parses numeric keys with `int()`: `"065"` makes it send an empty secondary and tertiary
  bitmap, `"02"` raises `KeyError`, `"²"` raises `ValueError`.
* The message type is measured in bytes, not characters.
* A lower-case pad is accepted by `encode` and refused by `decode`.
* A failed `encode` leaves the caller's dict changed (bitmap keys only, C14).
* A codec that writes wide characters can make messages that `encode` emits unreadable.
* A binary length prefix of 1786 bytes or more can make `decode` raise `ValueError` (C79).

## Checks outside Lean

* `tools/gen_source.py --check` – `Source/Text.lean` is the text of `decoder.py`, `encoder.py`, `tools.py`, `specs.py` and `__init__.py`, and
  Python's own `ast.parse` reads in it what is in `Source/Code.lean` and `Source/SpecsCode.lean`.
* `tools/check_specs.py` – the tables in `Model/Specs.lean` are those of `specs.py` (parsed, not imported).
* `tools/check_runtime.py` – the primitives of `Py.lean` (`int()`, `isnumeric`, `repr`, hex, codec
  tables) and the readers in `Spec/Literal.lean` and `Spec/Json.lean` agree with the CPython at hand.
* `tools/check_semantics.py [count] [seed]` – random programs of the fragment, made up by the script and
  unrelated to the project, have the same result or exception when lexed, parsed and run by `Lexer.lean`,
  `Parser.lean` and `Semantics.lean` (`tools/programs.lean.txt`) and when run by CPython, unless the interpreter is stuck.
* `tools/check_tests.py` – the project's own tests, read as text, give the expected results when
  `encode`, `decode` and `pp` are the model's (`tools/replay.lean.txt`).
* `tools/check_docs.py` – so do the interactive examples in README, docs and docstrings, except one:
  the last example of `docs/howto.rst` shows a length prefix `\x15` where the code, and the model,
  write `\x0f` (`len_enc` is `b`; the output shown belongs to `bcd`).
* Wrong programs: edits of the model were rebuilt against all theorems, and the statements were also
  evaluated on random specifications, dicts and messages to see which claims an edit really makes
  false.  `seeded/LOG.jsonl` lists edits, broken claims and failing theorems.

No script imports or executes code from `/repo`; they parse its text.  One departure during the work:
an ad-hoc comparison of the two tables once executed the text of `specs.py` (assignments of literals).
It was repeated by parsing, with the same result, and nothing in this directory depends on it.

## Trusted base

* Lean's kernel.
* The axioms `propext`, `Classical.choice` and `Quot.sound`.  Every theorem of the table depends on a
  subset of these and on nothing else; the four `…_rebuild…` theorems of C42 depend on none,
  `specLaws_of_lawful`, `Src.hasDec_pp`, `Src.identOf_spelled` and the five `Src.…_text` theorems about files on `propext` alone, and `encodeBitmap_perm`, `EntrySays.unique`, `printed_once`,
  `pp_congr`, `pp_stream`, `pp_stdout`, `pp_bad_width`,
  `pp_stream_prefix`, `decode_argument_types`, `encode_argument_types`, `latin1_lawful`, `cp500_lawful`,
  `cp037_lawful`, `dataShort_is_rest`, `Src.decode_source_type`, `Src.encode_source_type`, `Src.tools_import`, `Src.reduce_decodeError`, `Src.reduce_encodeError`, `Src.program_agree`, `Src.spellings_one_to_one`, `Src.text_program` do without `Classical.choice`.  (`#print axioms` on each name.)
* The reading of the Python source recorded in the comments of `Model/`; for `decoder.py`,
  `encoder.py` and `tools.py` only `Source/Text.lean` (that it is the text),
  `Source/Lexer.lean`, `Source/Parser.lean` and `Source/Semantics.lean` (C80, C81, C82, C95).  The description of the
  CPython primitives in `Py.lean`; for C75 and C78 also the description of Python literals and of the
  `json` module in `Spec/Literal.lean` and `Spec/Json.lean`.
* No compiler trust: neither `native_decide` nor `bv_decide` is used; concrete evaluations
  are `decide` in the kernel.
