{"claims": [
 {"property": "C01", "status": "proved", "theorems": ["Iso8583.encode_decode", "Iso8583.specLaws_of_lawful"], "note": "pad characters must be upper-case hex digits; lower_pad_unreadable shows the claim is false without that"},
 {"property": "C02", "status": "proved", "theorems": ["Iso8583.decode_encode"], "note": "Canonical form is spelled out in Spec/Canonical.lean; examples beside the theorem show that dropping any one condition gives other bytes. Assumes isnumeric accepts exactly the digits among ASCII characters, and that int accepts three digits."},
 {"property": "C03", "status": "proved", "theorems": ["Iso8583.encode_wire"], "note": ""},
 {"property": "C04", "status": "proved", "theorems": ["Iso8583.decode_wire"], "note": ""},
 {"property": "C05", "status": "proved", "theorems": ["Iso8583.decode_error_result", "Iso8583.decode_error_before"], "note": ""},
 {"property": "C06", "status": "proved", "theorems": ["Iso8583.decode_error_pos"], "note": ""},
 {"property": "C07", "status": "proved", "theorems": ["Iso8583.decode_extended", "Iso8583.decode_prefix_free"], "note": ""},
 {"property": "C08", "status": "proved", "theorems": ["Iso8583.decode_truncated"], "note": ""},
 {"property": "C09", "status": "proved", "theorems": ["Iso8583.decode_fields_are_bits"], "note": "text bitmap codecs are assumed to read hex digits one byte each (proved for the usual codecs, C45)"},
 {"property": "C10", "status": "proved", "theorems": ["Iso8583.encode_bitmaps"], "note": ""},
 {"property": "C11", "status": "proved", "theorems": ["Iso8583.encode_bitmaps_minimal"], "note": ""},
 {"property": "C12", "status": "proved", "theorems": ["Iso8583.encode_ignores_stale_bitmaps"], "note": "str.isnumeric is assumed to hold of ASCII digit strings and of no other ASCII text"},
 {"property": "C13", "status": "proved", "theorems": ["Iso8583.encode_idempotent", "Iso8583.encode_idempotent_many"], "note": "str.isnumeric is assumed to hold of ASCII digit strings and of no other ASCII text"},
 {"property": "C14", "status": "proved", "theorems": ["Iso8583.encode_touches_only_bitmaps", "Iso8583.encode_keeps_values"], "note": ""},
 {"property": "C15", "status": "proved", "theorems": ["Iso8583.encode_out_of_range", "Iso8583.encode_ok_range"], "note": "Any key denoting a number outside 1-192 makes encode raise EncodeError listing exactly those numbers in ascending order; success implies every numeric key is in range."},
 {"property": "C16", "status": "proved", "theorems": ["Iso8583.encode_no_type", "Iso8583.encode_bad_type", "Iso8583.encode_needs_type", "Iso8583.encode_type", "Iso8583.decode_type"], "note": "Missing or ill-sized type raises EncodeError naming 't'; on success the type has exactly 2 or 4 bytes."},
 {"property": "C17", "status": "proved", "theorems": ["Iso8583.encode_no_header", "Iso8583.encode_header_ignored", "Iso8583.encode_header", "Iso8583.decode_header"], "note": "Header required exactly when the specification's max_len is positive; otherwise a header entry is ignored."},
 {"property": "C18", "status": "proved", "theorems": ["Iso8583.encode_max_len"], "note": ""},
 {"property": "C19", "status": "proved", "theorems": ["Iso8583.encode_prefix"], "note": ""},
 {"property": "C20", "status": "proved", "theorems": ["Iso8583.encode_len_does_not_fit", "Iso8583.encode_prefix"], "note": "A length that does not fit its prefix raises EncodeError; on success the prefix has exactly len_type bytes and says the length."},
 {"property": "C21", "status": "proved", "theorems": ["Iso8583.encode_nibbles", "Iso8583.encode_odd_nibbles"], "note": "Padding of odd nibble counts; no pad and odd count raises EncodeError."},
 {"property": "C22", "status": "proved", "theorems": ["Iso8583.decode_lengths"], "note": ""},
 {"property": "C23", "status": "proved", "theorems": ["Iso8583.encodeBitmap_perm"], "note": ""},
 {"property": "C24", "status": "proved", "theorems": ["Iso8583.decode_only_decodeError", "Iso8583.decode_exceptions"], "note": ""},
 {"property": "C25", "status": "proved", "theorems": ["Iso8583.encode_only_encodeError"], "note": "Corollary of encode_raw_cause. Side condition beyond the English: numeric keys no longer than the interpreter's int digit limit (otherwise int raises ValueError)."},
 {"property": "C26", "status": "proved", "theorems": ["Iso8583.encode_injective"], "note": "uses the codec round trip laws of the specification (SpecLaws), as C01 does"},
 {"property": "C27", "status": "proved", "theorems": ["Iso8583.encode_local"], "note": ""},
 {"property": "C28", "status": "proved", "theorems": ["Iso8583.desc_irrelevant"], "note": "Any rewriting of the descriptions leaves decode and encode unchanged."},
 {"property": "C29", "status": "proved", "theorems": ["Iso8583.lenEnc_irrelevant"], "note": "Any rewriting of len_enc on entries with len_type 0 leaves decode and encode unchanged."},
 {"property": "C30", "status": "proved", "theorems": ["Iso8583.decode_keys", "Iso8583.encode_keys"], "note": ""},
 {"property": "C31", "status": "proved", "theorems": ["Iso8583.decode_entries", "Iso8583.EntrySays.unique"], "note": ""},
 {"property": "C32", "status": "proved", "theorems": ["Iso8583.encode_error_result"], "note": "Partial encoded dict = complete entries of exactly the preceding fields ++ at most the failing field's entry."},
 {"property": "C33", "status": "proved", "theorems": ["Iso8583.encode_ignores_unrelated"], "note": "str.isnumeric is assumed to hold of ASCII digit strings"},
 {"property": "C34", "status": "proved", "theorems": ["Iso8583.encode_order_irrelevant"], "note": "needs KeysParse: which offending key an exception names depends on dict order; counterexample beside the theorem"},
 {"property": "C35", "status": "proved", "theorems": ["Iso8583.encode_history"], "note": "str.isnumeric is assumed to hold of ASCII digit strings and of no other ASCII text"},
 {"property": "C36", "status": "proved", "theorems": ["Iso8583.pp_ok_iff", "Iso8583.printed_once", "Iso8583.pp_congr"], "note": "Exact characterisation of a normal return and of the text written; order of equal numeric values is dict order."},
 {"property": "C37", "status": "proved", "theorems": ["Iso8583.wrapBytesRepr_iff", "Iso8583.wrapBytesRepr_fits"], "note": "The pieces are the unique greedy folding."},
 {"property": "C38", "status": "proved", "theorems": ["Iso8583.wrapStrRepr_iff", "Iso8583.wrapStrRepr_fits"], "note": "The pieces are the unique folding into slices of width-2; an example shows escapes may exceed the width."},
 {"property": "C39", "status": "proved", "theorems": ["Iso8583.pp_lines_fit"], "note": "Every newline-free stretch of the output is at most line_width, also for output written before an exception."},
 {"property": "C40", "status": "proved", "theorems": ["Iso8583.default_wellFormed", "Iso8583.defaultAscii_wellFormed", "Iso8583.wellFormed_undefined"], "note": "WellFormed lists exactly the keys, encodings, prefix widths, bitmap sizes; the tables in Model/Specs.lean are transcribed from specs.py."},
 {"property": "C41", "status": "proved", "theorems": ["Iso8583.shipped_prefix_fits", "Iso8583.shipped_round_trip", "Iso8583.encode_prefix_fits", "Iso8583.wellFormed_laws"], "note": "Assumes the codec named ascii is the ASCII codec and int() accepts at least 8 digits. encode_prefix_fits is the general statement for any specification."},
 {"property": "C42", "status": "proved", "theorems": ["Iso8583.decodeError_rebuild", "Iso8583.decodeError_rebuild_any", "Iso8583.encodeError_rebuild", "Iso8583.encodeError_rebuild_any"], "note": ""},
 {"property": "C43", "status": "proved", "theorems": ["Iso8583.decode_argument_types", "Iso8583.encode_argument_types"], "note": ""},
 {"property": "C44", "status": "proved", "theorems": ["Iso8583.encode_invalid_keys", "Iso8583.encode_needs_str_keys"], "note": "Keys that are not strings make encode raise EncodeError listing their reprs."},
 {"property": "C45", "status": "proved", "theorems": ["Iso8583.cpython_codecs_lawful", "Iso8583.ascii_lawful", "Iso8583.latin1_lawful", "Iso8583.cp500_lawful", "Iso8583.cp037_lawful", "Iso8583.utf8_lawful"], "note": "ascii, latin-1, cp500, cp037 and utf-8 modelled after CPython's codecs"},
 {"property": "C46", "status": "proved", "theorems": ["Iso8583.prefix_injective", "Iso8583.prefix_canonical", "Iso8583.decode_bcd_decimal", "Iso8583.bcd_rejected"], "note": ""},
 {"property": "C47", "status": "proved", "theorems": ["Iso8583.decode_error_truthful", "Iso8583.dataShort_is_rest", "Iso8583.decode_sentence"], "note": "DecEntryFault (Spec/DecodeFault.lean) says what each message claims."},
 {"property": "C48", "status": "proved", "theorems": ["Iso8583.encode_error_truthful", "Iso8583.encode_sentence"], "note": "Each message implies its exact cause (MessageTrue); for non-text values the cause is stated as the value not being text."},
 {"property": "C49", "status": "proved", "theorems": ["Iso8583.encode_raw_cause"], "note": "RawCause lists the causes; examples beside the theorem show each raw exception occurring."},
 {"property": "C50", "status": "proved", "theorems": ["Iso8583.decode_spec_congr", "Iso8583.encode_spec_congr"], "note": "SpecSim lists the properties that matter, per key."},
 {"property": "C51", "status": "proved", "theorems": ["Iso8583.decode_fault"], "note": "Stated for faults of the header, type, primary or secondary bitmap, or a field."},
 {"property": "C52", "status": "proved", "theorems": ["Iso8583.pp_error"], "note": ""},
 {"property": "C53", "status": "proved", "theorems": ["Iso8583.pp_decoded", "Iso8583.pp_encoded", "Iso8583.shipped_pp", "Iso8583.decode_keys_bounded"], "note": ""},
 {"property": "C54", "status": "proved", "theorems": ["Iso8583.decode_iff", "Iso8583.message_unique"], "note": "Exact characterisation: success iff the input is the concatenation of the parts of a Message (Spec/Grammar.lean)."},
 {"property": "C55", "status": "proved", "theorems": ["Iso8583.encode_iff", "Iso8583.encode_succeeds_iff"], "note": "For dicts with distinct keys, as every Python dict has."},
 {"property": "C56", "status": "proved", "theorems": ["Iso8583.shipped_encode_iff"], "note": "For a runtime whose 'ascii' codec is the ASCII codec; numeric keys other than '1' and '65' are those isnumeric accepts."},
 {"property": "C57", "status": "proved", "theorems": ["Iso8583.encode_spec_local", "Iso8583.decode_spec_local"], "note": ""},
 {"property": "C58", "status": "proved", "theorems": ["Iso8583.decode_total", "Iso8583.decode_error_iff", "Iso8583.decode_keyError_iff", "Iso8583.decode_no_typeError"], "note": "With C54 this determines decode on every input: success, each DecodeError with all its attributes, and KeyError."},
 {"property": "C59", "status": "proved", "theorems": ["Iso8583.encode_fails_iff", "Iso8583.encode_total"], "note": "With C55 this determines encode on every dict: result, every exception with its attributes, and the state the caller's dict is left in."},
 {"property": "C60", "status": "proved", "theorems": ["Iso8583.pp_error_iff", "Iso8583.pp_total", "Iso8583.ppFails_unique"], "note": "With pp_ok_iff (C36) this determines pp on every dict: what it writes, and every exception with what has been written by then."},
 {"property": "C61", "status": "proved", "theorems": ["Iso8583.reencode", "Iso8583.shipped_reencode"], "note": "Normal form of accepted messages; an example shows why text counted in nibbles is excluded."},
 {"property": "C62", "status": "proved", "theorems": ["Iso8583.decode_final", "Iso8583.decode_keyError_final", "Iso8583.decode_negative", "Iso8583.decode_still_short", "Iso8583.decode_gets_further", "Iso8583.decode_cut_short", "Iso8583.pull_message"], "note": "missing is read off the message text; pull is a reader written on top of decode"},
 {"property": "C63", "status": "proved", "theorems": ["Iso8583.messages_unique", "Iso8583.decode_first", "Iso8583.split_messages", "Iso8583.split_sound"], "note": "splitStream is a reader written on top of decode"},
 {"property": "C64", "status": "proved", "theorems": ["Iso8583.entry_size", "Iso8583.message_size", "Iso8583.encode_entry_size", "Iso8583.encode_message_size", "Iso8583.shipped_message_size", "Iso8583.shipped_encode_size", "Iso8583.shipped_size_attained", "Iso8583.shipped_encode_size_plain"], "note": "Bounds on the length of every accepted and every encoded message; for the shipped specifications the bounds are attained."},
 {"property": "C65", "status": "proved", "theorems": ["Iso8583.edit_field", "Iso8583.edit_bytes", "Iso8583.edit_seen"], "note": "Exact effect of exchanging one value of an encodable dict; edit_seen needs the round trip laws of the specification (SpecLaws)."},
 {"property": "C66", "status": "proved", "theorems": ["Iso8583.decode_missing", "Iso8583.decode_missing_unused", "Iso8583.decode_missing_iff", "Iso8583.encode_missing", "Iso8583.encode_missing_unused", "Iso8583.encode_missing_iff", "Iso8583.encode_missing_dict", "Iso8583.pp_missing"], "note": "which of several missing properties is reported first is not part of the claim; the model fixes it. The two iff theorems assume that some encoding name is unknown to the environment; encode_missing_iff also that no codec encodes a non-empty text as no bytes. It is about results and EncodeError only: a ValueError or KeyError raised later by encode does not show what was written before"},
 {"property": "C67", "status": "proved", "theorems": ["Iso8583.pp_stream", "Iso8583.pp_stdout", "Iso8583.pp_bad_width", "Iso8583.pp_stream_prefix", "Iso8583.width_unique"], "note": "the return value of write is ignored by tools.py and is not modelled"},
 {"property": "C68", "status": "proved", "theorems": ["Iso8583.remove_field", "Iso8583.add_field", "Iso8583.remove_seen", "Iso8583.add_seen"], "note": "keys must be canonical numbers (no leading zeros) so that one key is one field; remove_seen and add_seen use the codec assumptions of C01"},
 {"property": "C69", "status": "proved", "theorems": ["Iso8583.decode_extends", "Iso8583.encode_extends"], "note": "introducing a header or changing the size of a fixed field is not an extension"},
 {"property": "C70", "status": "proved", "theorems": ["Iso8583.gateway", "Iso8583.gateway_back", "Iso8583.default_to_ascii", "Iso8583.decode_binary_upper"], "note": "bitmap texts (keys p and 1) are outside the comparison: each specification writes its own"},
 {"property": "C71", "status": "proved", "theorems": ["Iso8583.pp_reads_back", "Iso8583.pp_decoded_unique", "Iso8583.pp_encoded_unique"], "note": "texts are sequences of code points; values of other types (printed through their own repr) are excluded; ASCII characters other than digits are not numeric in the environment"},
 {"property": "C72", "status": "proved", "theorems": ["Iso8583.decode_error_field", "Iso8583.encode_error_field", "Iso8583.decode_text_unique", "Iso8583.encode_text_unique", "Iso8583.decode_text_numbers", "Iso8583.encode_text_numbers"], "note": "the dict given to encode has no duplicate keys, as every dict; the messages are the rendered ones, in which the text of an exception raised by a codec is left out; for encode the last sentence is about dicts of texts, and leaves out the message that lists invalid keys"},
 {"property": "C73", "status": "proved", "theorems": ["Iso8583.patch_succeeds_iff", "Iso8583.patch_entries", "Iso8583.reply"], "note": "keys of the new dict are strings and field numbers are written canonically; the runtime's limit on digits of an int is absent or at least 3"},
 {"property": "C74", "status": "proved", "theorems": ["Iso8583.salvage", "Iso8583.salvage_none", "Iso8583.shipped_salvage"], "note": "salvaged is docDec without the failing field; the specification must be normal (as for C61)"},
 {"property": "C75", "status": "proved", "theorems": ["Iso8583.pp_evaluates", "Iso8583.pp_dump_encoded", "Iso8583.pp_dump_decoded"], "note": "evaluation is a reader of Python string and bytes literals written from the language reference (Spec/Literal.lean); texts are sequences of code points below 0x110000"},
 {"property": "C76", "status": "proved", "theorems": ["Iso8583.pp_printable", "Iso8583.pp_no_forged_line"], "note": "printable is str.isprintable of the runtime beyond ASCII; pp_printable is about pp returning normally"},
 {"property": "C77", "status": "proved", "theorems": ["Iso8583.pyInt_iff", "Iso8583.declared_text_iff", "Iso8583.natStr_iff", "Iso8583.intStr_iff", "Iso8583.zeroPad_iff", "Iso8583.zeroPad_wide", "Iso8583.fromHex_iff", "Iso8583.slice_get"], "note": "the runtime's decimal digit values are assumed to be below ten"},
 {"property": "C78", "status": "proved", "theorems": ["Iso8583.json_roundtrip", "Iso8583.decode_json", "Iso8583.cpython_scalar", "Iso8583.shipped_json"], "note": "json.dumps and json.loads are described in Spec/Json.lean, for objects whose members are strings; they belong to the standard library, not to the repository"},
 {"property": "C79", "status": "proved", "theorems": ["Iso8583.decode_valueError_iff", "Iso8583.decode_printable", "Iso8583.encode_printable", "Iso8583.shipped_printable"], "note": "about decodeLim and encodeLim (Model/Format.lean), which add the limit to decode and encode; the Unicode database is assumed to give decimal digits values below ten"},
 {"property": "C80", "status": "proved", "theorems": ["Iso8583.Src.decode_source", "Iso8583.Src.decode_source_type"], "note": "Source/Code.lean is generated from the text of decoder.py by tools/gen_source.py and proved to be its parse (C95); Source/Semantics.lean is the interpreter. DecodeError.__reduce__ is C42."},
 {"property": "C81", "status": "proved", "theorems": ["Iso8583.Src.encode_source", "Iso8583.Src.encode_source_type"], "note": "Source/Code.lean is generated from the text of encoder.py by tools/gen_source.py and proved to be its parse (C95); Source/Semantics.lean is the interpreter. EncodeError.__reduce__ is C42."},
 {"property": "C82", "status": "proved", "theorems": ["Iso8583.Src.pp_source", "Iso8583.Src.pp_source_defaults", "Iso8583.Src.tools_import", "Iso8583.Src.decode_pp_source", "Iso8583.Src.hasDec_pp", "Iso8583.Src.hasEnc_pp"], "note": "Source/Code.lean is generated from the text of tools.py by tools/gen_source.py and proved to be its parse (C95); Source/Semantics.lean is the interpreter. The model here is ppStream, which C67 relates to pp."},
 {"property": "C83", "status": "proved", "theorems": ["Iso8583.Src.decode_error_obj", "Iso8583.Src.encode_error_obj", "Iso8583.Src.decode_error_rebuild", "Iso8583.Src.encode_error_rebuild", "Iso8583.Src.reduce_decodeError", "Iso8583.Src.reduce_encodeError"], "note": "encode_error_obj leaves out the one message that quotes a codec's own text."},
 {"property": "C84", "status": "proved", "theorems": ["Iso8583.Src.encode_decode_source", "Iso8583.Src.decode_encode_source"], "note": "The bytes are given to decode as bytes or as a bytearray that is not changed meanwhile."},
 {"property": "C85", "status": "proved", "theorems": ["Iso8583.Src.specs_source", "Iso8583.Src.specs_specVal"], "note": "Source/SpecsCode.lean is generated from the text of specs.py by tools/gen_source.py and proved to be its parse (C95)."},
 {"property": "C86", "status": "proved", "theorems": ["Iso8583.Src.decode_heap", "Iso8583.Src.encode_heap", "Iso8583.Src.pp_heap", "Iso8583.Src.specs_heap", "Iso8583.Src.session_heap", "Iso8583.Src.shipped_session", "Iso8583.Src.program_agree"], "note": "The documents given to pp have values without references or dicts of such values."},
 {"property": "C87", "status": "proved", "theorems": ["Iso8583.Src.decode_source_missing", "Iso8583.Src.encode_source_missing", "Iso8583.Src.pp_source_missing", "Iso8583.Src.decode_source_gaps", "Iso8583.Src.encode_source_gaps", "Iso8583.Src.pp_source_gaps"], "note": "Properties that are there are well typed; len_type is a natural number."},
 {"property": "C88", "status": "proved", "theorems": ["Iso8583.Src.decode_new", "Iso8583.Src.encode_new", "Iso8583.Src.decode_twice", "Iso8583.Src.encode_twice"], "note": "Immutable values (str, bytes, int) are not objects of the heap; CPython may share those. Values of the dict given to encode are not heap objects."},
 {"property": "C89", "status": "proved", "theorems": ["Iso8583.a2bHex_pairs", "Iso8583.bytesHex_iff", "Iso8583.bytesHex_upper_iff", "Iso8583.fromBytes_value", "Iso8583.toBytes_iff", "Iso8583.isNumeric_iff", "Iso8583.sortedBy_iff", "Iso8583.sets", "Iso8583.dict_get", "Iso8583.dict_set", "Iso8583.dict_pop"], "note": "Characterisations of the Python functions of Model/Py.lean that C77 leaves out; strings are sequences of code points"},
 {"property": "C90", "status": "proved", "theorems": ["Iso8583.Src.session", "Iso8583.Src.session_final", "Iso8583.Src.result_stays", "Iso8583.Src.package_ready", "Iso8583.Src.step_answered"], "note": "Calls do not overlap in time; the dicts given to pp have values without references or dicts of such values, as in C86"},
 {"property": "C91", "status": "proved", "theorems": ["Iso8583.Src.encode_took", "Iso8583.Src.encode_refuses", "Iso8583.Src.encode_heap", "Iso8583.encode_takes"], "note": "Values are neither the dict itself nor parts of the specification, and have no encode method of their own unless they are str"},
 {"property": "C92", "status": "proved", "theorems": ["Iso8583.Src.decode_type_error", "Iso8583.Src.encode_type_error"], "note": "Lists and ranges are one kind of value in the interpreter and are left out"},
 {"property": "C93", "status": "proved", "theorems": ["Iso8583.Src.decode_forms", "Iso8583.Src.encode_forms", "Iso8583.Src.pp_forms", "Iso8583.Src.Passes.unique"], "note": "Argument unpacking (* and **) makes such lists before the call"},
 {"property": "C94", "status": "proved", "theorems": ["Iso8583.decode_value_size", "Iso8583.decode_error_size", "Iso8583.cpython_boundedTexts"], "note": ""},
 {"property": "C95", "status": "proved", "theorems": ["Iso8583.Src.decoder_text", "Iso8583.Src.encoder_text", "Iso8583.Src.tools_text", "Iso8583.Src.specs_text", "Iso8583.Src.init_text", "Iso8583.Src.text_program", "Iso8583.Src.decode_text", "Iso8583.Src.encode_text", "Iso8583.Src.pp_text", "Iso8583.Src.specs_module_text", "Iso8583.Src.spellings_one_to_one", "Iso8583.Src.identOf_spelled"], "note": "Source/Text.lean is written by tools/gen_source.py; Source/Lexer.lean and Source/Parser.lean are the reading of Python's grammar."},
 {"property": "C96", "status": "proved", "theorems": ["Iso8583.length_fits_iff", "Iso8583.documented_table"], "note": ""},
 {"property": "C97", "status": "proved", "theorems": ["Iso8583.overwrite_field", "Iso8583.overwrite_data", "Iso8583.overwrite_binary", "Iso8583.overwrite_at", "Iso8583.overwrite_type"], "note": ""}
]}
