{"id": "C01", "title": "encode then decode returns the message", "statement": "If encode(doc, spec) succeeds with bytes s and encoded dict enc, then decode(s, spec) succeeds, returns exactly the same encoded dict, and returns a decoded dict with the keys of enc in the same order in which every field has the value the caller's dict has after encode (hex digits of binary fields in upper case).", "quantifier": "every dict, every specification whose text codecs round-trip and whose pad characters are upper-case hex digits, every runtime", "why_tests_cant": "the message space is a product of 192 optional fields, unbounded values, length types and encodings; tests sample a handful of single-field messages", "anchors": ["iso8583/encoder.py:encode", "iso8583/decoder.py:decode"]}
{"id": "C02", "title": "decode then encode reproduces the bytes", "statement": "If decode(s, spec) succeeds on a message written in canonical form (minimal bitmaps; upper-case hex bitmaps; canonical length prefixes; data in the image of its codec), then encode(decoded, spec) succeeds and returns exactly s and the same encoded dict.", "quantifier": "every byte string, every specification", "why_tests_cant": "needs all byte strings and all specifications at once", "anchors": ["iso8583/decoder.py:decode", "iso8583/encoder.py:encode"]}
{"id": "C03", "title": "encoded bytes are the concatenation of the encoded dict", "statement": "When encode succeeds, the returned bytes are exactly the concatenation, in dict order, of len+data of every entry of the returned encoded dict.", "quantifier": "every dict and specification for which encode succeeds", "why_tests_cant": "an offset or duplication error may appear only for a particular combination of header, bitmaps and fields", "anchors": ["iso8583/encoder.py:encode", "iso8583/encoder.py:_encode_field", "iso8583/encoder.py:_encode_bitmap"]}
{"id": "C04", "title": "decode accounts for every input byte", "statement": "When decode succeeds, concatenating len+data of every entry of the returned encoded dict, in dict order, gives back exactly the input bytes: nothing skipped, nothing read twice, nothing left over.", "quantifier": "every byte string and specification for which decode succeeds", "why_tests_cant": "index arithmetic must be right for every sequence of field layouts", "anchors": ["iso8583/decoder.py:decode", "iso8583/decoder.py:_decode_field", "iso8583/decoder.py:_decode_bitmap", "iso8583/decoder.py:_decode_type"]}
{"id": "C05", "title": "a failed decode reports a truthful partial result", "statement": "When decode raises DecodeError, the concatenation of the partial encoded dict is a prefix of the input, the partial decoded and encoded dicts have the same keys, and the reported field is the last key of both.", "quantifier": "every byte string and specification", "why_tests_cant": "there are failure points in every branch at every position of every message", "anchors": ["iso8583/decoder.py:DecodeError", "iso8583/decoder.py:_decode_field"]}
{"id": "C06", "title": "decode error position", "statement": "When decode raises DecodeError, pos lies within the input and is the offset at which the length or the data of the reported field starts (or, for extra data, the number of bytes consumed): it equals the total size of the entries before the reported field, plus the size of its length prefix when the data is at fault, plus the secondary bitmap already read when the tertiary bitmap is at fault.", "quantifier": "every byte string and specification", "why_tests_cant": "the position must be right for every preceding layout", "anchors": ["iso8583/decoder.py:DecodeError"]}
{"id": "C07", "title": "messages are self-delimiting", "statement": "If decode accepts s then decode of s followed by any non-empty bytes raises DecodeError 'Extra data after last field' with pos = len(s): no accepted message is a proper prefix of another accepted message.", "quantifier": "every pair of byte strings, every specification", "why_tests_cant": "quantifies over all continuations", "anchors": ["iso8583/decoder.py:decode"]}
{"id": "C08", "title": "truncated messages are always rejected", "statement": "If decode accepts s, then decode of every proper prefix of s raises DecodeError (never succeeds, never any other exception).", "quantifier": "every accepted message and every truncation point", "why_tests_cant": "every cut point of every message", "anchors": ["iso8583/decoder.py:decode", "iso8583/decoder.py:_decode_field", "iso8583/decoder.py:_decode_bitmap", "iso8583/decoder.py:_decode_type"]}
{"id": "C09", "title": "decoded fields are exactly the bits set", "statement": "When decode succeeds and bitmaps are binary (or hex text without white space), field i (2..192, i != 65) is a key of the decoded dict iff bit i of the received bitmaps is set; key '1' is present iff bit 1 is set; no other numeric key is present.", "quantifier": "every byte string and specification for which decode succeeds", "why_tests_cant": "2^192 bitmaps", "anchors": ["iso8583/decoder.py:_decode_bitmap", "iso8583/decoder.py:decode"]}
{"id": "C10", "title": "emitted bitmaps are exactly the fields present", "statement": "When encode succeeds on a dict with canonical keys, bit i of the emitted bitmaps is set iff key str(i) is in the dict (2 <= i <= 192, i != 65), bit 1 is set iff some field above 64 is present, bit 65 iff some field above 128 is present, and 'p' / '1' in the caller's dict hold the upper-case hex of these bitmaps.", "quantifier": "every dict and specification for which encode succeeds", "why_tests_cant": "2^192 field sets", "anchors": ["iso8583/encoder.py:_encode_bitmap", "iso8583/encoder.py:encode"]}
{"id": "C11", "title": "secondary and tertiary bitmaps only when needed", "statement": "When encode succeeds on a dict with canonical keys, key '1' is in the caller's dict and in the encoded dict afterwards iff some field from 66 to 192 is present (65 is the place of the tertiary bitmap; what the dict holds there is dropped); its hex value has 16 digits, or 32 iff some field above 128 is present; key '65' is never present afterwards and never emitted.", "quantifier": "every dict and specification for which encode succeeds", "why_tests_cant": "all field sets", "anchors": ["iso8583/encoder.py:encode"]}
{"id": "C12", "title": "stale bitmaps never leak", "statement": "The outcome of encode (bytes and encoded dict, or exception) does not depend on what the dict holds under 'p', '1' and '65': removing or overwriting them beforehand changes nothing.", "quantifier": "every dict, specification and stale value", "why_tests_cant": "all stale values and all messages", "anchors": ["iso8583/encoder.py:encode"]}
{"id": "C13", "title": "encode is idempotent", "statement": "If encode succeeds, encoding the resulting dict again succeeds with the same bytes and encoded dict and leaves the dict unchanged.", "quantifier": "every dict and specification; every number of repetitions", "why_tests_cant": "all messages, any number of repetitions", "anchors": ["iso8583/encoder.py:encode"]}
{"id": "C14", "title": "encode only touches bitmap keys of the caller's dict", "statement": "Whether encode succeeds or raises, every key of the caller's dict other than 'p', '1' and '65' keeps its value, and no other key appears or disappears.", "quantifier": "every dict and specification, every outcome including all failure points", "why_tests_cant": "every failure point of every message", "anchors": ["iso8583/encoder.py:encode", "iso8583/encoder.py:_encode_bitmap"]}
{"id": "C15", "title": "field numbers outside 1-192 are rejected", "statement": "If the dict has header and type in order, int() reads every numeric key, and one of them denotes a number outside 1..192, encode raises EncodeError for field 'p' whose message lists exactly the offending numbers in ascending order. When encode succeeds, every key is a string and every number a key denotes lies in 1..192.", "quantifier": "every dict and specification", "why_tests_cant": "unbounded key space", "anchors": ["iso8583/encoder.py:encode"]}
{"id": "C16", "title": "message type is mandatory and has fixed width", "statement": "encode raises EncodeError for field 't' when 't' is absent (and the header, which is written first, is in order); when encode succeeds the emitted type is exactly 2 bytes (binary) or 4 bytes (text); decode consumes exactly that many.", "quantifier": "every dict, byte string and specification", "why_tests_cant": "all inputs", "anchors": ["iso8583/encoder.py:_encode_type", "iso8583/decoder.py:_decode_type"]}
{"id": "C17", "title": "header handling follows the specification", "statement": "With max_len <= 0 for 'h' neither encode nor decode emits, reads or stores a header and a supplied 'h' is ignored; with max_len > 0 encode raises EncodeError for 'h' if it is missing and otherwise emits it first; decode reads it first.", "quantifier": "every dict, byte string and specification", "why_tests_cant": "all inputs", "anchors": ["iso8583/encoder.py:_encode_header", "iso8583/decoder.py:_decode_header"]}
{"id": "C18", "title": "max_len is enforced when encoding", "statement": "When encode succeeds, every fixed-length field has exactly max_len units and every variable-length field at most max_len units, where a unit is a byte of encoded data, or a nibble when len_count is 'nibbles' (an added pad nibble not counted).", "quantifier": "every dict and specification for which encode succeeds", "why_tests_cant": "all values of all lengths", "anchors": ["iso8583/encoder.py:_encode_field"]}
{"id": "C19", "title": "emitted length prefix is exact", "statement": "When encode succeeds, every fixed-length field has an empty length prefix; every variable-length field has a prefix of exactly len_type bytes which, read back as a big-endian integer, BCD digits or text digits according to len_enc, is the number of units of the field.", "quantifier": "every dict and specification (text len_enc: codec writes digits one byte each) for which encode succeeds", "why_tests_cant": "all lengths and encodings", "anchors": ["iso8583/encoder.py:_encode_field"]}
{"id": "C20", "title": "a length that does not fit is an error, never truncated", "statement": "If a variable-length field's unit count within max_len does not fit in len_type bytes under len_enc, encode does not succeed, and it raises EncodeError for that field if nothing else is wrong (the dict encodes with another value for the field); the emitted prefix never wraps or is cut.", "quantifier": "every dict and specification; a text length prefix must write digits as one byte each", "why_tests_cant": "all lengths, widths", "anchors": ["iso8583/encoder.py:_encode_field"]}
{"id": "C21", "title": "odd nibble counts are padded by exactly one nibble", "statement": "For a binary field counted in nibbles, an n-nibble value occupies ceil(n/2) bytes; for odd n the extra nibble is the first character of left_pad placed in front, else of right_pad placed behind; without a pad encode does not succeed, and it raises EncodeError for that field if nothing else is wrong (the dict encodes with another value for the field); even n is never padded.", "quantifier": "every value, pad and specification", "why_tests_cant": "all values and pads", "anchors": ["iso8583/encoder.py:_add_pad_field", "iso8583/encoder.py:_encode_bindary_field"]}
{"id": "C22", "title": "decode enforces declared lengths", "statement": "When decode succeeds, every variable-length field's prefix is exactly len_type bytes and its declared count is at most max_len, and the data is exactly the declared number of bytes (rounded up for nibbles); for binary and BCD prefixes the count is non-negative.", "quantifier": "every byte string and specification for which decode succeeds", "why_tests_cant": "all byte strings", "anchors": ["iso8583/decoder.py:_decode_field"]}
{"id": "C23", "title": "bitmap generation does not depend on set iteration order", "statement": "The bitmap emitted for a set of fields is the same for every iteration order of the set.", "quantifier": "every set and every permutation of it", "why_tests_cant": "n! orders; CPython only ever exhibits one", "anchors": ["iso8583/encoder.py:_encode_bitmap"]}
{"id": "C24", "title": "decode raises only DecodeError when the specification is complete", "statement": "If the specification defines h, t, p, 1 and every field 2..192 but 65, and text bitmap codecs never yield more characters than bytes, decode on any bytes either succeeds or raises DecodeError; without these assumptions the only other exception possible is KeyError for a key the specification lacks.", "quantifier": "every byte string, every specification and runtime", "why_tests_cant": "all byte strings", "anchors": ["iso8583/decoder.py:decode"]}
{"id": "C25", "title": "encode raises only EncodeError on documented input", "statement": "On a dict of str keys and str values whose numeric keys are plain decimals (no longer than the digit limit of int()), with a specification that defines every field involved, encode either succeeds or raises EncodeError.", "quantifier": "every such dict and specification", "why_tests_cant": "all inputs; failure branches include latent KeyError/TypeError/IndexError/UnboundLocalError", "anchors": ["iso8583/encoder.py:encode", "iso8583/encoder.py:_encode_bindary_field"]}
{"id": "C26", "title": "encode is injective up to hex case", "statement": "If two dicts encode to the same bytes under one specification then they have the same encoded dict and the same field values up to case of hex digits.", "quantifier": "every pair of dicts; every specification whose codecs round trip (as for C01)", "why_tests_cant": "quantifies over pairs", "anchors": ["iso8583/encoder.py:encode"]}
{"id": "C27", "title": "field encoding is local", "statement": "The entry of a field in the encoded dict depends only on the field's own specification and value: two successful encodes that agree on a field's specification and value produce the same entry for it, whatever else the messages contain.", "quantifier": "every pair of dicts and specifications", "why_tests_cant": "quantifies over pairs of messages", "anchors": ["iso8583/encoder.py:_encode_field"]}
{"id": "C28", "title": "descriptions play no role", "statement": "Changing or removing 'desc' in a specification changes nothing about encode or decode, on success or failure.", "quantifier": "every dict, byte string and specification", "why_tests_cant": "all inputs", "anchors": ["iso8583/specs.py:desc", "iso8583/encoder.py:encode", "iso8583/decoder.py:decode"]}
{"id": "C29", "title": "len_enc does not affect fixed-length fields", "statement": "Changing len_enc of fixed-length fields (len_type 0) changes nothing about encode or decode.", "quantifier": "every dict, byte string and specification", "why_tests_cant": "all inputs", "anchors": ["iso8583/specs.py:len_enc", "iso8583/encoder.py:_encode_field", "iso8583/decoder.py:_decode_field"]}
{"id": "C30", "title": "fields appear in ascending order", "statement": "In the encoded dict returned by encode or decode, and in the decoded dict returned by decode, the keys are: h (if the specification has a header), t, p, 1 (if present), then the fields in strictly ascending numeric order.", "quantifier": "every dict, byte string and specification", "why_tests_cant": "all field sets", "anchors": ["iso8583/encoder.py:encode", "iso8583/decoder.py:decode"]}
{"id": "C31", "title": "decoded and encoded dicts agree", "statement": "When decode succeeds, the decoded and encoded dicts have the same keys and each decoded value is determined by its own encoded entry and field specification alone: binary data is its upper-case hex (minus one pad nibble when the count is odd), text data is the codec's decoding, an empty field is ''.", "quantifier": "every byte string and specification for which decode succeeds", "why_tests_cant": "all byte strings", "anchors": ["iso8583/decoder.py:decode", "iso8583/decoder.py:_decode_field"]}
{"id": "C32", "title": "encode failure attribution", "statement": "When encode raises EncodeError for a field, the exception carries the caller's dict as left by encode; every field encoded before it is present and complete in the partial encoded dict, and no field after it is.", "quantifier": "every dict and specification", "why_tests_cant": "every failure point", "anchors": ["iso8583/encoder.py:EncodeError", "iso8583/encoder.py:encode"]}
{"id": "C33", "title": "unrelated keys are ignored", "statement": "Adding or removing str keys that are not numeric and not h, t, p changes neither bytes, encoded dict nor exception of encode (and the added keys stay in the dict).", "quantifier": "every dict, specification and set of extra keys", "why_tests_cant": "all extra keys", "anchors": ["iso8583/encoder.py:encode"]}
{"id": "C34", "title": "insertion order of the caller's dict is irrelevant", "statement": "Two dicts with the same items in different insertion order encode to the same bytes and the same encoded dict.", "quantifier": "every dict and every permutation of its items", "why_tests_cant": "n! orders", "anchors": ["iso8583/encoder.py:encode"]}
{"id": "C35", "title": "any editing history behaves like a plain map", "statement": "After any sequence of setting fields, removing fields and encoding, the result of encode is the same as encoding a fresh dict built from the surviving assignments: earlier encodes leave no trace in later ones.", "quantifier": "every finite history of set/remove/encode operations", "why_tests_cant": "unbounded histories", "anchors": ["iso8583/encoder.py:encode"]}
{"id": "C36", "title": "pp prints fields in order, once each", "statement": "When pp returns normally it has written one line group per key: h (if the specification has a header), t, p, then numeric keys by numeric value, each starting with the key; keys that are not numeric and not h, t, p are not printed.", "quantifier": "every dict, specification, description width and line width", "why_tests_cant": "all dicts", "anchors": ["iso8583/tools.py:pp"]}
{"id": "C37", "title": "folding bytes loses nothing and fits", "statement": "The pieces pp folds a bytes value into concatenate to the value, none is empty, and the repr of each fits the requested width unless the piece is a single byte.", "quantifier": "every byte string and width", "why_tests_cant": "all values and widths", "anchors": ["iso8583/tools.py:_wrap_bytes_repr"]}
{"id": "C38", "title": "folding text loses nothing", "statement": "The pieces pp folds a str value into concatenate to the value, none is empty, all but the last have the same length, and each repr fits the width when the text needs no escaping and the width is at least 3.", "quantifier": "every text and width", "why_tests_cant": "all values and widths", "anchors": ["iso8583/tools.py:_wrap_str_repr"]}
{"id": "C39", "title": "pp lines fit the line width", "statement": "When the description, the length prefix and a key of at most three characters leave room for a one-byte repr, no line pp writes for a bytes or encoded field is longer than line_width; likewise for text that needs no escaping.", "quantifier": "every dict, specification, widths", "why_tests_cant": "all values and widths", "anchors": ["iso8583/tools.py:_pp_field"]}
{"id": "C40", "title": "shipped specifications are complete and consistent", "statement": "Both shipped specifications define h, t, p, 1..128; every variable-length field's max_len fits its len_type; bitmaps are 8 bytes or 16 hex digits; headers are off; fields 129-192 are not defined.", "quantifier": "every entry of both tables", "why_tests_cant": "finite table, but its consequence below is universal", "anchors": ["iso8583/specs.py:default", "iso8583/specs.py:default_ascii"]}
{"id": "C41", "title": "shipped specifications never produce unreadable messages", "statement": "With the shipped specifications encode never fails because a length does not fit, and every successful encode is decoded back (property C01 without side conditions).", "quantifier": "every dict", "why_tests_cant": "all dicts", "anchors": ["iso8583/specs.py:default", "iso8583/specs.py:default_ascii", "iso8583/encoder.py:encode", "iso8583/decoder.py:decode"]}
{"id": "C42", "title": "exceptions survive pickling", "statement": "Rebuilding a DecodeError or EncodeError from what __reduce__ returns yields an exception with the same attributes and the same text.", "quantifier": "every exception value", "why_tests_cant": "all attribute values", "anchors": ["iso8583/decoder.py:DecodeError.__reduce__", "iso8583/encoder.py:EncodeError.__reduce__"]}
{"id": "C43", "title": "input types", "statement": "decode treats bytes and bytearray alike and raises TypeError naming the class for anything else before touching the data; encode raises TypeError for anything but a dict.", "quantifier": "every input", "why_tests_cant": "all inputs", "anchors": ["iso8583/decoder.py:decode", "iso8583/encoder.py:encode"]}
{"id": "C44", "title": "non-string keys are rejected", "statement": "If the dict contains a key that is not a string, encode never succeeds; if no numeric-looking string key is rejected by int first, the exception is EncodeError for 'p' listing exactly the non-string keys in dict order.", "quantifier": "every dict and specification with header and type in order", "why_tests_cant": "all dicts", "anchors": ["iso8583/encoder.py:encode"]}
{"id": "C45", "title": "common codecs meet the round-trip assumptions", "statement": "ascii, latin-1, cp500, cp037 and utf-8 decode what they encode, encode only the empty string to no bytes, and write decimal and hex digits as one byte each.", "quantifier": "every text", "why_tests_cant": "all texts", "anchors": ["iso8583/specs.py:data_enc", "iso8583/specs.py:len_enc"]}
{"id": "C46", "title": "BCD and binary length prefixes are canonical", "statement": "For binary and BCD length encodings, distinct length prefixes of the same width never denote the same length, every prefix decode accepts is the one encode emits for that length, and BCD prefixes containing a non-decimal nibble are rejected.", "quantifier": "every prefix of every width", "why_tests_cant": "256^n prefixes", "anchors": ["iso8583/decoder.py:_decode_field", "iso8583/encoder.py:_encode_field"]}
{"id": "C48", "title": "EncodeError messages are true", "statement": "When encode raises EncodeError, what the message says (missing field, list of out-of-range numbers, list of non-string keys, actual and expected lengths and their unit, unknown encoding, odd or non-hex data, length does not fit) is true of the field the exception names, and of no looser condition. This holds of the text itself: the sentence in str(e) is one of a fixed list, used only when its condition holds, with the actual and allowed numbers in their places, followed by the field.", "quantifier": "every dict and specification", "why_tests_cant": "every failure branch for every value", "anchors": ["iso8583/encoder.py:encode", "iso8583/encoder.py:_encode_field", "iso8583/encoder.py:_encode_type", "iso8583/encoder.py:_encode_bindary_field"]}
{"id": "C49", "title": "causes of raw encode exceptions", "statement": "When encode raises something other than EncodeError it is KeyError (the specification lacks a needed entry, or a numeric key is not in plain decimal form), ValueError (a numeric key that int cannot convert), or TypeError/UnboundLocalError (a value without len, or an odd-length non-text value with a pad, in a binary field); IndexError never escapes.", "quantifier": "every dict and specification", "why_tests_cant": "every input that is not documented input", "anchors": ["iso8583/encoder.py:encode", "iso8583/encoder.py:_encode_bindary_field", "iso8583/encoder.py:_encode_bitmap"]}
{"id": "C50", "title": "what of a specification matters", "statement": "encode and decode depend on a specification only through, for the type and the bitmaps, data_enc, and for every other field data_enc, len_enc when there is a length prefix, len_type, max_len, len_count (absent counting as bytes), and the first character of each pad: two specifications that agree on those give identical results, exceptions and mutated dicts for every input.", "quantifier": "every pair of specifications agreeing on those properties; every input", "why_tests_cant": "every pair of specifications and every input", "anchors": ["iso8583/decoder.py:decode", "iso8583/encoder.py:encode"]}
{"id": "C47", "title": "DecodeError messages are true", "statement": "When decode raises DecodeError, what the message says is true of the entry of the field it names: the prefix or data really is that short and holds all that is left, the prefix really is not BCD, not decodable or not a number, the declared length really exceeds the maximum, neither pad matches, the encoding is unknown, or the bytes cannot be decoded; and extra data means the consumed bytes alone decode to the reported dicts. This holds of the text itself: the sentence in str(e) is one of a fixed list, used only when its condition holds, with the actual and expected numbers in their places, followed by the field and the offset.", "quantifier": "every byte string and specification", "why_tests_cant": "every failure branch for every input", "anchors": ["iso8583/decoder.py:_decode_field", "iso8583/decoder.py:_decode_type", "iso8583/decoder.py:_decode_bitmap", "iso8583/decoder.py:_remove_pad_field", "iso8583/decoder.py:_decode_text_data"]}
{"id": "C51", "title": "every fault is reported as such", "statement": "Take any accepted message and replace everything from the start of one of its entries on: if what follows meets the condition of one of the messages, decode raises DecodeError with exactly that message, that field, the position where the entry (or its data) starts, and the dicts of the entries before it plus the faulty entry.", "quantifier": "every accepted message, entry and replacement (faults of a tertiary bitmap excepted)", "why_tests_cant": "every corruption of every message", "anchors": ["iso8583/decoder.py:decode", "iso8583/decoder.py:_decode_field", "iso8583/decoder.py:_decode_type", "iso8583/decoder.py:_decode_bitmap"]}
{"id": "C52", "title": "pp raises only for three reasons and keeps complete output", "statement": "pp raises KeyError for the header entry missing from the specification, KeyError for a printed key without specification entry or description (only with descriptions on), or ValueError for a numeric key int does not read; in each case the keys before the fault have been printed completely.", "quantifier": "every dict, specification, description width and line width", "why_tests_cant": "all dicts and specifications", "anchors": ["iso8583/tools.py:pp", "iso8583/tools.py:_pp_field"]}
{"id": "C53", "title": "pp prints what decode and encode return, in message order", "statement": "For every dict pair returned by decode, and every encoded dict returned by encode, pp returns normally (descriptions off or present) and prints exactly the keys of the dict, each once, in the order they have on the wire.", "quantifier": "every message, dict, specification with bounded bitmap codecs, and widths", "why_tests_cant": "all messages and dicts; relates three modules", "anchors": ["iso8583/tools.py:pp", "iso8583/decoder.py:decode", "iso8583/encoder.py:encode"]}
{"id": "C54", "title": "decode accepts exactly the messages of the format", "statement": "decode succeeds on a byte string exactly when it is a header (if specified), type, bitmaps and the announced fields in ascending order, each of declared size and readable, and then returns exactly these parts; the format is unambiguous and self-delimiting.", "quantifier": "every specification and byte string, both directions", "why_tests_cant": "all byte strings, accepted and rejected", "anchors": ["iso8583/decoder.py:decode", "iso8583/decoder.py:_decode_field", "iso8583/decoder.py:_decode_type", "iso8583/decoder.py:_decode_bitmap"]}
{"id": "C55", "title": "encode accepts exactly the dicts that can be written", "statement": "encode succeeds exactly when header, type, bitmaps and every numbered field can be written, keys are usable and numbers lie in 1-192, and then returns exactly that message, its entries and the updated dict.", "quantifier": "every specification and dict without repeated keys, both directions", "why_tests_cant": "all dicts, accepted and rejected", "anchors": ["iso8583/encoder.py:encode", "iso8583/encoder.py:_encode_field", "iso8583/encoder.py:_encode_type", "iso8583/encoder.py:_encode_bitmap"]}
{"id": "C56", "title": "what the shipped specifications encode", "statement": "With a shipped specification encode succeeds exactly when the type is four ASCII characters, numeric keys denote 1-128, and each such field is present and is ASCII text (or hex digits in pairs) of exactly or at most max_len bytes.", "quantifier": "every dict without repeated keys", "why_tests_cant": "all dicts, all 128 fields", "anchors": ["iso8583/specs.py:default", "iso8583/specs.py:default_ascii", "iso8583/encoder.py:encode"]}
{"id": "C57", "title": "specification entries of absent fields play no role", "statement": "encode's whole outcome depends on the specification only through header, type, primary bitmap, a needed secondary bitmap and the numbered fields; a decoded message decodes the same under every specification agreeing on the header and the keys of the result.", "quantifier": "every pair of specifications, dict and message", "why_tests_cant": "all pairs of specifications", "anchors": ["iso8583/encoder.py:encode", "iso8583/decoder.py:decode"]}
{"id": "C58", "title": "decode does exactly what reading the message calls for, on every input", "statement": "decode raises a DecodeError with given message, position, field and partial results exactly when the input starts with the parts the format expects before that field and the message is true there (or a complete message is followed by more data); it raises KeyError exactly when the input gets to an entry the specification lacks; otherwise it succeeds. Nothing else leaves decode.", "quantifier": "every byte string, every specification", "why_tests_cant": "it fixes the outcome, including every attribute of the exception, for all inputs and specifications", "anchors": ["iso8583/decoder.py:decode"]}
{"id": "C59", "title": "encode does exactly what writing the message calls for, on every dict", "statement": "For every dictionary and specification encode either writes the message or raises one determined exception: each EncodeError with its message, field and both dictionaries, each KeyError, ValueError, TypeError and UnboundLocalError is raised exactly when writing the parts in order meets that obstacle first, and the caller's dictionary is left with exactly the bitmaps computed up to then.", "quantifier": "every dictionary (any keys and values), every specification", "why_tests_cant": "it fixes the outcome, every attribute of the exception and the side effect on the caller's dictionary for all inputs", "anchors": ["iso8583/encoder.py:encode", "iso8583/encoder.py:_encode_field", "iso8583/encoder.py:_encode_type", "iso8583/encoder.py:_encode_bitmap"]}
{"id": "C60", "title": "pp does exactly what printing calls for, on every dict", "statement": "For every dictionary, specification and pair of widths, pp either prints every group of the message or raises one determined exception after writing one determined text: KeyError 'h' when the dictionary has a header the specification does not mention, ValueError when a numeric key is not a number to int, KeyError naming the key or 'desc' when descriptions are on and one is missing.", "quantifier": "every dictionary with distinct keys, every specification, every description and line width", "why_tests_cant": "it fixes the outcome and the partial output for all inputs", "anchors": ["iso8583/tools.py:pp", "iso8583/tools.py:_pp_field"]}
{"id": "C61", "title": "every accepted message can be sent on, in a normal form", "statement": "Under a specification whose codecs write back what they read, whose text fields are counted in bytes and whose nibble pads are hex digits (in particular under both shipped specifications), whatever decode accepts encode writes again; decode reads the new message as the same values under every key except the bitmaps p and 1, and writing those once more yields the same bytes.", "quantifier": "every byte string decode accepts, every such specification and environment", "why_tests_cant": "decode accepts unboundedly many spellings of a message (white space, signs and underscores in prefixes, lower-case bitmaps, superfluous bitmaps, either pad)", "anchors": ["iso8583/decoder.py:decode", "iso8583/encoder.py:encode"]}
{"id": "C62", "title": "decode errors tell an incremental reader what to do", "statement": "A DecodeError that does not complain about missing bytes (and a KeyError) is final: decode of the same bytes followed by any others raises it again with the same message, position, field and partial results (for a negative length, at least the same field, position and declared length). A DecodeError that does complain states exactly how many bytes the named entry lacks: with fewer more bytes the same field is reported at the same position and correspondingly fewer are missing; with at least that many, decode does not complain about missing bytes at that position again: if it still complains, then at a later one. Every proper prefix of an accepted message raises an error of the second kind that never asks for more than was cut off, so a reader that fetches what is missing and retries obtains exactly the first message of a stream.", "quantifier": "every byte string, every extension, every specification and environment", "why_tests_cant": "it relates decode of every input to decode of all its extensions", "anchors": ["iso8583/decoder.py:decode", "iso8583/decoder.py:_decode_field", "iso8583/decoder.py:_decode_bitmap", "iso8583/decoder.py:_decode_type"]}
{"id": "C63", "title": "concatenated messages can be taken apart, in one way only", "statement": "Two sequences of accepted messages with the same concatenation are equal; decode of an accepted message followed by anything raises 'Extra data after last field' with the dicts of that message and the position at which the rest starts; cutting there and going on recovers exactly the messages, and succeeds only on sequences of messages.", "quantifier": "every sequence of accepted messages, every specification and environment", "why_tests_cant": "unbounded sequences of messages under every specification", "anchors": ["iso8583/decoder.py:decode"]}
{"id": "C64", "title": "messages have a maximum length that the specification determines", "statement": "Every entry of an accepted or encoded message takes at most the bytes its specification allows: the message type width, one bitmap for 'p', two bitmaps for '1', and for any other field len_type plus the bytes of max_len units. Hence no message is longer than the limits of its entries add up to, and none is longer than the limits of the whole specification (without '65'); for the two shipped specifications that is at most 35806 and 36117 bytes, and there are dicts for which encode writes, and decode accepts, messages of exactly that length. Unless a key such as '065' denotes 65, encode stays within 35798 and 36101 bytes.", "quantifier": "every byte string and every dict, every specification whose bitmap codecs do not decode bytes to more characters than bytes (decode) and write hex digits as one byte each (encode)", "why_tests_cant": "a bound over all messages; the largest message has 36117 bytes and every field can contribute to an overflow", "anchors": ["iso8583/decoder.py:decode", "iso8583/decoder.py:_decode_field", "iso8583/encoder.py:encode", "iso8583/specs.py:default", "iso8583/specs.py:default_ascii"]}
{"id": "C65", "title": "changing one value changes one entry", "statement": "In a dict that can be encoded, giving a field that is sent (or the header) another value changes only that field: encode succeeds exactly if the new value can be written under the field's specification, and then the encoded dict, the message and the dict left behind are the old ones with that one entry, those bytes and that value exchanged; every other byte, in particular the bitmaps, stays. A receiver that decodes both messages sees only that field change, to the new value (upper case and padding for binary fields).", "quantifier": "every encodable dict, every field it sends except the type and the bitmaps, every new value, every specification and environment", "why_tests_cant": "it compares two runs of encode for every dict, field and value", "anchors": ["iso8583/encoder.py:encode", "iso8583/encoder.py:_encode_field", "iso8583/encoder.py:_encode_bitmap"]}
{"id": "C66", "title": "missing specification properties are never papered over", "statement": "When a field specification lacks mandatory properties, decode and encode either do exactly what they do with the gaps filled in by any values whatever, or they raise KeyError naming a property that is missing from the header or from a field the run gets to, and that this kind of field needs: data_enc; for the header and numbered fields also len_type, max_len and, unless the length is fixed, len_enc. They do no checking beyond that: decode gives an answer other than KeyError exactly when every way of filling the gaps leads to that same answer, and encode returns a message or raises EncodeError exactly when every way of filling the gaps leads to that same outcome and the same caller's dict; so KeyError means that the missing property makes a difference. So gaps in unused fields, len_enc of fixed-length fields and the length properties of type and bitmaps are never noticed. encode still touches only the bitmap keys of the caller's dict. pp needs none of these properties except the header's max_len, and only for a dict with a header; it then fails before writing anything.", "quantifier": "every specification lacking any set of missing properties, every completion of it, every byte string and dict", "why_tests_cant": "every combination of missing properties, and a comparison with every completion", "anchors": ["iso8583/decoder.py:decode", "iso8583/decoder.py:_decode_field", "iso8583/encoder.py:encode", "iso8583/encoder.py:_encode_field", "iso8583/tools.py:pp"]}
{"id": "C67", "title": "pp uses the stream for writing only, and passes on what it raises", "statement": "The texts pp hands to stream.write are a fixed sequence that depends on the dict, the specification and the widths but not on the stream, and joined they are the output of pp. When write raises, pp makes no further call and the same exception reaches the caller, so what the stream got is a prefix of the full output; when write never raises, pp returns or raises as usual. Without a stream everything goes to sys.stdout. Widths are converted by int() first, the description width before the line width; an int stays as it is, text is read as a number, a float is cut towards zero, and text that is no number, NaN, infinity and other objects are refused. If that fails nothing is written.", "quantifier": "every stream (arbitrary write method over arbitrary state, failing at any call), dict, specification and widths", "why_tests_cant": "every stream behaviour and every point of failure", "anchors": ["iso8583/tools.py:pp", "iso8583/tools.py:_pp_field", "iso8583/tools.py:_pprint_str", "iso8583/tools.py:_pprint_bytes"]}
{"id": "C68", "title": "One field can be removed from or added to an encodable dict without touching the others", "statement": "If a dict encodes, then without any one of its numbered fields it still encodes, and header, type and the remaining fields get the same bytes. With one field 2..192 (not 65) added or given another value it encodes exactly when the specification has that field, the value can be written under it and, above 64, the secondary bitmap can be written; the other fields get the same bytes. Whoever decodes the two messages sees the same texts everywhere except at that field, which is gone, or reads as the new value (upper case if binary). Only the bitmaps follow.", "quantifier": "every dict with canonical field numbers that encodes, every specification whose bitmaps can be written, every field and value", "why_tests_cant": "every pair of dict and edited field, including edits that make a secondary or tertiary bitmap appear or disappear", "anchors": ["iso8583/encoder.py:encode", "iso8583/encoder.py:_encode_bitmap", "iso8583/decoder.py:decode"]}
{"id": "C69", "title": "extending a specification keeps every result", "statement": "If a specification is extended by adding fields and by raising max_len of fields with a length prefix (no header being introduced), then the old specification decodes exactly those messages that the new one decodes, to the same dicts, whose keys the old one knows and whose length prefixes keep its limits; and it encodes exactly those dicts that the new one encodes, to the same bytes and with the same effect on the caller's dict, whose fields it knows and whose values keep its limits. In particular nothing that worked changes.", "quantifier": "every pair of specifications of which one extends the other, every byte string, every dict", "why_tests_cant": "all specifications, messages and dicts at once", "anchors": ["iso8583/decoder.py:decode", "iso8583/encoder.py:encode", "iso8583/decoder.py:_decode_field", "iso8583/encoder.py:_encode_field"]}
{"id": "C70", "title": "messages can be translated between specifications without loss", "statement": "If one specification decodes a message and another encodes the resulting dict, then the other one decodes its message to the same fields; only texts that become binary data change, to upper case, and the header is dropped if the other specification has none. If the header is kept and no letter changes case, the first specification encodes the dict read by the second exactly as the original dict. Every message accepted by the shipped default specification can be translated to default_ascii and back in this way.", "quantifier": "every message, every first specification, every second specification whose codecs round trip", "why_tests_cant": "all pairs of specifications and all messages", "anchors": ["iso8583/decoder.py:decode", "iso8583/encoder.py:encode", "iso8583/specs.py:default", "iso8583/specs.py:default_ascii"]}
{"id": "C71", "title": "what pp printed determines the dict", "statement": "If pp writes the same text for two dicts of texts, bytes and encoded entries, with one specification and one description width (the line widths may differ), then it printed the same keys in the same order and every printed key has in both dicts a value that is shown alike: the same text, the same bytes, or encoded entries with the same length and data. In particular two decoded messages that are printed alike were decoded to the same dict, and two encoded dicts that are printed alike stand for the same message.", "quantifier": "every pair of dicts, every specification, every description width, every two line widths", "why_tests_cant": "no two different contents may collide, for all pairs of dicts, with values that contain quotes, line breaks, colons or digits and are cut into lines anywhere", "anchors": ["iso8583/tools.py:pp", "iso8583/tools.py:_pp_field", "iso8583/tools.py:_pprint_str", "iso8583/tools.py:_pprint_bytes"]}
{"id": "C72", "title": "the text of an exception determines message, field and offset", "statement": "The field a DecodeError or EncodeError names is h, t, p or the decimal number of a field (not 0 or 65, and at most 192 when encoding). The text str(e) of a DecodeError that left decode determines its message, its field and its offset, whatever runtime, specification and message the two runs had; the text of an EncodeError that left encode determines its message and its field. If no unit in the specifications contains a comma, the message determines every number and unit in it.", "quantifier": "every two runs of decode, respectively encode, with any specifications and inputs", "why_tests_cant": "every pair of failing inputs", "anchors": ["iso8583/decoder.py:DecodeError", "iso8583/encoder.py:EncodeError"]}
{"id": "C73", "title": "a reply can be built from a decoded message", "statement": "If a dict encodes, then any other dict encodes exactly when the parts in which it differs can be written: a different header, a different type, the fields that are new or have another value, and the secondary bitmap if it was not needed before; parts with the same value get the same bytes. Under a specification that writes back what it reads this holds with a decoded dict as the first one, even if the message was spelled unusually: whoever decodes the reply sees the request's texts wherever the reply kept them, the new values elsewhere, and no fields but those of the reply.", "quantifier": "every encodable dict or decodable message, every other dict with canonical field numbers, every specification whose bitmaps can be written", "why_tests_cant": "all pairs of messages and replies", "anchors": ["iso8583/encoder.py:encode", "iso8583/decoder.py:decode", "iso8583/encoder.py:_encode_bitmap"]}
{"id": "C74", "title": "what a failed decode has read can still be sent", "statement": "When decode fails, the values it has read before the failing field (all values if there were only bytes too many) can be written with the same specification, provided header and type were read, the specification writes back what it reads and the primary bitmap has a known encoding. The message written is read as exactly those values under every key except the bitmaps, which no longer announce the failing field or the fields behind it. A decode that failed at the header or the type leaves nothing encode accepts. Under the two shipped specifications every failure after the message type leaves such a message, and no other does.", "quantifier": "every input on which decode raises DecodeError, every specification that writes back what it reads", "why_tests_cant": "every failing input and every place where it can fail", "anchors": ["iso8583/decoder.py:decode", "iso8583/decoder.py:DecodeError", "iso8583/encoder.py:encode"]}
{"id": "C75", "title": "what pp prints for a value evaluates to the value", "statement": "For every printed key, the text pp writes between the colon and the end of its group, in parentheses, is a Python expression whose value is the value printed: the text, the bytes, or for an encoded field the bytes sent for it, length prefix included. Hence the dump of an encoded message can be turned back into the message: the values of its groups, one after the other, are the message bytes. The dump of a decoded message gives the decoded texts.", "quantifier": "every dict of texts, bytes and encoded entries pp prints, every message encode or decode accepts, every description and line width, every specification", "why_tests_cant": "values with any mix of quotes, escapes and folding points", "anchors": ["iso8583/tools.py:_pp_field", "iso8583/tools.py:_pprint_str", "iso8583/tools.py:_pprint_bytes", "iso8583/tools.py:_wrap_str_repr", "iso8583/tools.py:_wrap_bytes_repr"]}
{"id": "C76", "title": "values cannot disturb or forge pp output", "statement": "Whatever texts and bytes a dict holds, pp writes newlines and printable characters only, provided the descriptions shown, the numeric characters of keys and the repr of objects of other types are printable. The lines that do not begin with a space are one for each printed key, in order, and begin with that key, provided descriptions and the repr of other objects hold no newline: no received value can make pp show a field that is not there.", "quantifier": "every dict pp prints, every description and line width, every specification", "why_tests_cant": "values are chosen by whoever sends the message", "anchors": ["iso8583/tools.py:pp", "iso8583/tools.py:_pp_field", "iso8583/tools.py:_pprint_str", "iso8583/tools.py:_pprint_bytes"]}
{"id": "C77", "title": "Python functions used in statements are described independently", "statement": "The model of int() accepts exactly the texts of white space, optional sign, digits with single underscores between them and white space, within the interpreter's digit limit, and returns the number the digits denote; a length prefix in a text encoding therefore declares n units exactly when it decodes to such a text. str(n) is the shortest decimal numeral of n; a zero-padded number is the only numeral of its width, or the shortest one if it is wider. bytes.fromhex accepts exactly pairs of hex digits with ASCII white space around them. s[i:j] holds the bytes from i up to j, a negative j counting from the end.", "quantifier": "every text, every number, every byte string, every runtime whose decimal digits are worth less than ten", "why_tests_cant": "the functions are used on received text of any kind", "anchors": ["iso8583/decoder.py:_decode_field", "iso8583/decoder.py:_decode_bitmap", "iso8583/encoder.py:_encode_field", "iso8583/tools.py:pp"]}
{"id": "C78", "title": "decoded dicts survive JSON", "statement": "A dict of texts written with json.dumps and read with json.loads is the same dict, in the same order, provided no text has a high surrogate directly before a low one. Every dict decode returns meets this if the codecs of its specification yield Unicode characters, as ascii, latin-1, cp500, cp037 and utf-8 do: a decoded message comes back from JSON unchanged. With a shipped specification the loaded dict encodes, and the message is read as the stored dict, bitmaps apart.", "quantifier": "every dict of texts; every message, every specification whose codecs yield Unicode characters", "why_tests_cant": "received text may hold quotes, control characters and anything else JSON has to escape", "anchors": ["iso8583/decoder.py:decode", "iso8583/encoder.py:encode"]}
{"id": "C79", "title": "the interpreter's digit limit and error messages", "statement": "CPython refuses to print an int with more digits than a limit, with ValueError. For a specification whose numbers are within the limit, decode raises this ValueError in place of a DecodeError exactly when it stops at a field whose complete binary length prefix holds a number beyond the limit. If no binary prefix is wide enough for that, as in the shipped specifications, decode raises what it is documented to raise; encode always does, whatever numbers the keys denote.", "quantifier": "every message and every dict whose sizes are numbers within the limit, every specification whose max_len and len_type are, every limit", "why_tests_cant": "it takes a prefix of 1786 bytes to see the default limit", "anchors": ["iso8583/decoder.py:_decode_field", "iso8583/decoder.py:DecodeError", "iso8583/encoder.py:encode"]}
{"id": "C80", "title": "running decoder.py is the model", "statement": "The functions of decoder.py, taken statement by statement from the text and run by an interpreter of the Python they use, do what the model says. decode(s, spec) returns two new dicts with the model's contents, or raises the model's exception: a DecodeError whose msg, s, doc_dec, doc_enc, field, pos and text are the model's, a KeyError, a ValueError (digit limit), or TypeError for anything that is not bytes or bytearray. No object that existed before the call is changed.", "quantifier": "every byte string given as bytes or bytearray, every well-typed specification, every state of the interpreter, every set iteration order, every codec registry that reads 16 bytes as at most 10^100 characters", "why_tests_cant": "a hand-made model can differ from the program on inputs nobody compares", "anchors": ["iso8583/decoder.py:decode", "iso8583/decoder.py:_decode_header", "iso8583/decoder.py:_decode_type", "iso8583/decoder.py:_decode_bitmap", "iso8583/decoder.py:_decode_field", "iso8583/decoder.py:_remove_pad_field", "iso8583/decoder.py:_decode_text_data", "iso8583/decoder.py:DecodeError"]}
{"id": "C81", "title": "running encoder.py is the model", "statement": "The functions of encoder.py, taken statement by statement from the text and run by an interpreter of the Python they use, do what the model says. encode(doc_dec, spec) returns a new bytearray and a new dict with the model's contents, or raises the model's exception: an EncodeError whose msg, doc_dec (the caller's dict itself), doc_enc, field and text are the model's, a KeyError, ValueError, TypeError, UnboundLocalError or IndexError, or TypeError naming the class of anything that is not a dict. The caller's dict is left as the model says, with only \"p\", \"1\" and \"65\" changed; no other object that existed before the call is changed.", "quantifier": "every dict of strings or other objects to strings, bytes or other objects, every well-typed specification, every state of the interpreter, every set iteration order, every codec registry", "why_tests_cant": "a hand-made model can differ from the program on inputs nobody compares", "anchors": ["iso8583/encoder.py:encode", "iso8583/encoder.py:_encode_header", "iso8583/encoder.py:_encode_type", "iso8583/encoder.py:_encode_bitmap", "iso8583/encoder.py:_encode_field", "iso8583/encoder.py:_encode_bindary_field", "iso8583/encoder.py:_add_pad_field", "iso8583/encoder.py:_encode_text_field", "iso8583/encoder.py:EncodeError"]}
{"id": "C82", "title": "running tools.py is the model", "statement": "The functions of tools.py, taken statement by statement from the text and run by an interpreter of the Python they use, do what the model says. pp(doc, spec, desc_width, stream, line_width) makes the model's calls of write, on the caller's stream or on sys.stdout when none is given, and returns None or raises the model's exception (one of write, or KeyError, TypeError, ValueError or OverflowError); arguments left out are 30, None and 80. Importing the module makes the table of printers that the functions look up. No object that existed before is changed. The dict decode returned in the same interpreter, printed by pp, gives the text of its contents.", "quantifier": "every dict of strings or other objects to strings, bytes, entries, None, bools, ints of at most 200 digits, bytearrays or other objects, every well-typed specification, every width that is an int, str, float or other object, every write method, every state of the interpreter", "why_tests_cant": "a hand-made model can differ from the program on inputs nobody compares", "anchors": ["iso8583/tools.py:pp", "iso8583/tools.py:_pp_field", "iso8583/tools.py:_pprint_str", "iso8583/tools.py:_pprint_bytes", "iso8583/tools.py:_wrap_str_repr", "iso8583/tools.py:_wrap_bytes_repr"]}
{"id": "C83", "title": "exceptions of the text survive pickling", "statement": "The DecodeError that decoder.py raises and the EncodeError that encoder.py raises are the objects of the model: class, text, attributes. Asking one for __reduce__() and calling the class it names with the arguments it gives, which is what pickle and copy do, makes a new object of the same class with the same text and the same attributes and changes nothing else. All of it is the text of the files, run by the interpreter.", "quantifier": "every message, dict, well-typed specification and state of the interpreter for which the exception is raised", "why_tests_cant": "a hand-made model of the classes can differ from the program; all attribute values", "anchors": ["iso8583/decoder.py:DecodeError", "iso8583/decoder.py:DecodeError.__reduce__", "iso8583/encoder.py:EncodeError", "iso8583/encoder.py:EncodeError.__reduce__"]}
{"id": "C84", "title": "the round trips, of the text", "statement": "The text of encoder.py and decoder.py, run one after the other in one interpreter. When encode(doc, spec) returns, decode of the returned bytearray, or of its bytes, returns an encoded dict with the same contents and a decoded dict with its keys, in the same order, and the values the caller's dict has now (hex digits of binary fields in upper case). When decode(s, spec) returns and the message was spelled the way encode spells it, encode of the decoded dict returns a bytearray with the same bytes and an encoded dict with the same contents, and leaves the items of the decoded dict as they were.", "quantifier": "every dict, byte string, state of the interpreter and specification whose text codecs round-trip (first part), every specification (second part)", "why_tests_cant": "the message space is a product of 192 optional fields, unbounded values, length types and encodings; the model could differ from the program", "anchors": ["iso8583/encoder.py:encode", "iso8583/decoder.py:decode"]}
{"id": "C85", "title": "running specs.py makes the tables", "statement": "The text of specs.py, run by the interpreter, sets default and default_ascii to two different new dicts and changes no object that existed before. Copied with everything they refer to, the two are the specifications of the model: the same fields in the same order, with the same properties, descriptions included.", "quantifier": "every state of the interpreter", "why_tests_cant": "no test looks at all 262 fields and their properties; the tables of the model could differ from the program's", "anchors": ["iso8583/specs.py:default", "iso8583/specs.py:default_ascii"]}
{"id": "C86", "title": "specifications as objects", "statement": "The text of decoder.py, encoder.py and tools.py, run with a specification that is an object: a dict whose values are dicts, in the same heap as everything else, possibly with fields that share one property dict. decode, encode and pp return, raise and write what C80, C81 and C82 say, and change no object that existed before, the specification included, except the dict given to encode. Importing specs.py makes two such specifications out of new objects. So after importing specs.py, encode with default or default_ascii returns a bytearray, decode takes this very object and returns the round trip's dicts, and pp prints both, all with the specification object specs.py made. A function of the text that does not get stuck when objects are replaced by copies of their contents does the same with the objects, and does not change them.", "quantifier": "every state of the interpreter, specification, dict and byte string; the specification must not contain the dict given to encode, nor the dict of tools.py", "why_tests_cant": "a mutation of a shared specification shows only in a later call, and only in the program that shares it", "anchors": ["iso8583/decoder.py:decode", "iso8583/encoder.py:encode", "iso8583/tools.py:pp", "iso8583/specs.py:default", "iso8583/specs.py:default_ascii"]}
{"id": "C87", "title": "the source text on specifications with missing properties", "statement": "The text of decoder.py, encoder.py and tools.py, run with a specification any property of which may be missing from any field, does what the model of such specifications says, which property a KeyError names included. Together with C66: decode, encode and pp end as they end when the gaps are filled in with any values, or they raise KeyError naming a missing property; for decode and encode it belongs to the header or to a field the run got to, and is one this field cannot do without; for pp it is the header's max_len, the dict has a header, and nothing was written. decode changes no object that existed before; encode only its dict, of which a run that ends with KeyError changes only the bitmap entries.", "quantifier": "every state of the interpreter, every specification lacking any set of properties, every completion of it, every byte string and dict", "why_tests_cant": "the order in which properties are read, and whether they are read at all, shows only for specifications with just the right gap", "anchors": ["iso8583/decoder.py:decode", "iso8583/encoder.py:encode", "iso8583/tools.py:pp"]}
{"id": "C88", "title": "what decode and encode return is new", "statement": "Running the text of decoder.py or encoder.py hands the caller no object that existed before the call. Every object reachable from what decode or encode returns (the two dicts, the entries, the bytearray) was made during the call. The same holds for the attributes of DecodeError except s, and of EncodeError except doc_dec, which are the arguments themselves. The dict given to encode leads to no object of the result. The results of two calls of decode share no object, nor do those of two calls of encode on one dict, and the second call changes nothing reachable from the first result.", "quantifier": "every state of the interpreter, every specification (properties missing or not), every byte string or bytearray object, every dict", "why_tests_cant": "aliasing shows only when a result is changed and something else is then looked at; a test compares values, which are equal whether or not they are shared", "anchors": ["iso8583/decoder.py:decode", "iso8583/decoder.py:DecodeError", "iso8583/encoder.py:encode", "iso8583/encoder.py:EncodeError"]}
{"id": "C89", "title": "hexadecimal, byte integers, isnumeric, sorting, sets and dicts are described independently", "statement": "binascii.a2b_hex accepts exactly an even number of hex digits and returns the bytes the pairs denote; data.hex() and data.hex().upper() are the only such spellings without upper-case and without lower-case letters. int.from_bytes is the base-256 value of the bytes; n.to_bytes(w) returns the only w bytes of that value and fails when there are none. isnumeric() holds of texts with at least one character, all numeric. sorted() with a key returns the only ascending arrangement in which items of equal key keep their order. Set operations have exactly the elements they should. Assigning d[k] keeps the key's place or adds it at the end and changes nothing else; pop removes that item only.", "quantifier": "every text, byte string, number, list, set and dict", "why_tests_cant": "these functions carry every other statement; an error in them on rare inputs would silently change what the statements mean", "anchors": ["iso8583/encoder.py:_encode_field", "iso8583/encoder.py:encode", "iso8583/decoder.py:decode", "iso8583/tools.py:pp"]}
{"id": "C90", "title": "any sequence of calls: history plays no part", "statement": "A program that makes and changes objects of its own and calls decode, encode and pp of the text in any order, any number of times, with results of earlier calls among the arguments, gets from every call what the model says about the contents the arguments have at that time, as long as it leaves the specifications it uses and the table of tools.py alone. After every step the specifications are in place, and every object that was neither given to encode nor changed by the program is as it was; in particular a dict decode returned keeps its contents whatever is called later. Importing tools.py and specs.py puts the two shipped specifications in place in any interpreter, so such a program can start there.", "quantifier": "every sequence of steps, every state of the interpreter, every set of specifications in the heap, every argument of the right kind", "why_tests_cant": "state that leaks from one call to another shows only in particular sequences; there are infinitely many", "anchors": ["iso8583/decoder.py:decode", "iso8583/encoder.py:encode", "iso8583/tools.py:pp", "iso8583/specs.py:default"]}
{"id": "C91", "title": "which values encode takes", "statement": "The values of the dict given to encode may be any Python objects: texts, numbers, None, bytes, or objects of the heap such as bytearrays, sets and dicts. When running the text of encoder.py returns, the value of the type, of the header if the specification has one, and of every numbered field 2 to 192 except 65 was a text, or bytes or a bytearray for a field of hex digits. With any other value for one of these fields encode raises a Python exception. Either way every value of the dict except those under p, 1 and 65 is the same object as before, and every object other than the dict has the contents it had.", "quantifier": "every state of the interpreter, every specification in the heap, every dict, every value", "why_tests_cant": "tests try a few wrong types for a few fields; here every kind of value meets every specification", "anchors": ["iso8583/encoder.py:encode", "iso8583/encoder.py:_encode_field", "iso8583/encoder.py:_encode_bindary_field", "iso8583/encoder.py:_encode_text_field"]}
{"id": "C92", "title": "the first argument", "statement": "Called with anything but bytes or a bytearray, running the text of decoder.py's decode raises TypeError 'Encoded ISO8583 data must be bytes or bytearray, not ' followed by the name of the argument's class. Called with anything but a dict, encode raises TypeError 'Decoded ISO8583 data must be dict, not ' followed by that name. Whatever the specification argument is, it is not looked at, and no object is created or changed.", "quantifier": "every state of the interpreter, every first argument that is None, a bool, int, float, str, bytes, bytearray, tuple, dict, set, a DecodeError, an EncodeError or an object of another class, every second argument", "why_tests_cant": "tests pass one or two wrong types", "anchors": ["iso8583/decoder.py:decode", "iso8583/encoder.py:encode"]}
{"id": "C93", "title": "arguments by position and by name", "statement": "decode(s, spec), encode(doc_dec, spec) and pp(doc, spec, desc_width=30, stream=None, line_width=80) may be called with the first arguments by position and others by name in any order, and pp with its last three left out. Running the text with such a call does exactly what it does with all arguments by position in the order of the parameters, left-out ones at their defaults; the positional arguments are determined by the call. Any other call (too many or too few arguments, an unknown name, a parameter given twice) raises TypeError and changes nothing.", "quantifier": "every state of the interpreter, every list of positional and of keyword arguments", "why_tests_cant": "tests call the functions in one or two ways", "anchors": ["iso8583/decoder.py:decode", "iso8583/encoder.py:encode", "iso8583/tools.py:pp"]}
{"id": "C94", "title": "what decode builds is bounded by its input", "statement": "Every value in the dict decode returns is at most twice as long as the data of its field in the encoded dict, and all values together are at most twice as long as the input, whatever lengths the message declares. The same holds of the dicts of a DecodeError, including the entry of the field at fault.", "quantifier": "every byte string, every specification whose text codecs yield no more characters than bytes (every specification when the codecs are ascii, latin-1, cp500, cp037 and utf-8)", "why_tests_cant": "a hostile message may declare any length; tests try a few", "anchors": ["iso8583/decoder.py:decode", "iso8583/decoder.py:_decode_field"]}
{"id": "C95", "title": "the syntax is that of the text", "statement": "The files decoder.py, encoder.py, tools.py, specs.py and __init__.py, taken character by character, parse, and what they parse to is exactly the functions, classes and statements that C80 to C93 are about: none is left out, none added, none changed. Everything else in them is imports and assignments to names that no function refers to. Calling decode, encode or pp of the parsed text, and importing the parsed tools.py and specs.py, therefore does what the model says.", "quantifier": "every character of the five files; every argument, state of the interpreter and environment of C80, C81, C82 and C85", "why_tests_cant": "a test runs one interpreter's reading of the text; it does not show that the program reasoned about is the text", "anchors": ["iso8583/decoder.py", "iso8583/encoder.py", "iso8583/tools.py", "iso8583/specs.py", "iso8583/__init__.py"]}
{"id": "C96", "title": "how long a field can be, and the documented table of length types", "statement": "In a dict that can be encoded, a variable-length field may be given a text of n units exactly if n is at most max_len and below 256^len_type (binary), 100^len_type (BCD) or 10^len_type (text). The table of length types in the documentation (LVAR, LLVAR, LLLVAR, LLLLVAR for the three kinds of len_enc) is right and cannot be improved: a field with max_len 9, 99, 999 or 9999 takes every value of these lengths exactly if its len_type is at least the number in the table.", "quantifier": "every encodable dict, every variable-length field it sends, every value; a text len_enc must write digits as one byte each, and for the table the data encoding must write digits as one byte each or be binary, counted in bytes", "why_tests_cant": "tests try single lengths around a boundary for some encodings; the table is about all lengths and values", "anchors": ["iso8583/specs.py", "iso8583/encoder.py:_encode_field", "iso8583/encoder.py:_encode_text_field", "iso8583/encoder.py:_encode_bindary_field"]}
{"id": "C97", "title": "one field of a received message can be overwritten in place", "statement": "In a message that decodes, the bytes of one field (or of the header) can be exchanged for other bytes that read as this field; the result decodes to the same two dicts with that one entry exchanged. If only data bytes are overwritten, by as many others, decode either succeeds so, exactly if the new data can be read for the field, or raises DecodeError naming this field and the position of its data, with everything before it decoded as before. Binary data in whole bytes can be overwritten with anything. The message type can be overwritten in the same way, with everything else staying as it was.", "quantifier": "every specification, message, field number, header or message type present, and replacement bytes", "why_tests_cant": "masking or filling in a code by position relies on all other fields of all messages being unaffected; tests decode a few fixed messages", "anchors": ["iso8583/decoder.py:decode", "iso8583/decoder.py:_decode_field", "iso8583/decoder.py:_decode_type"]}
