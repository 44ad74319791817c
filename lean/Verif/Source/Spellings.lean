import Verif.Source.Syntax
/-!
# How the identifiers are spelled

Written by `tools/gen_source.py` from the text of `/repo/iso8583`; do not edit.
-/

namespace Iso8583.Src

/-- The spelling of every identifier. -/
def spellings : List (Str × Ident) := [
  (py"AttributeError", .AttributeError),
  (py"DecodeError", .DecodeError),
  (py"EncodeError", .EncodeError),
  (py"Exception", .Exception),
  (py"IndexError", .IndexError),
  (py"KeyError", .KeyError),
  (py"LookupError", .LookupError),
  (py"OverflowError", .OverflowError),
  (py"TypeError", .TypeError),
  (py"UnboundLocalError", .UnboundLocalError),
  (py"UnicodeError", .UnicodeError),
  (py"ValueError", .ValueError),
  (py"__class__", .__class__),
  (py"__init__", .__init__),
  (py"__name__", .__name__),
  (py"__reduce__", .__reduce__),
  (py"__repr__", .__repr__),
  (py"_add_pad_field", ._add_pad_field),
  (py"_decode_bitmap", ._decode_bitmap),
  (py"_decode_field", ._decode_field),
  (py"_decode_header", ._decode_header),
  (py"_decode_text_data", ._decode_text_data),
  (py"_decode_type", ._decode_type),
  (py"_dispatch", ._dispatch),
  (py"_encode_bindary_field", ._encode_bindary_field),
  (py"_encode_bitmap", ._encode_bitmap),
  (py"_encode_field", ._encode_field),
  (py"_encode_header", ._encode_header),
  (py"_encode_text_field", ._encode_text_field),
  (py"_encode_type", ._encode_type),
  (py"_pp_field", ._pp_field),
  (py"_pprint_bytes", ._pprint_bytes),
  (py"_pprint_str", ._pprint_str),
  (py"_remove_pad_field", ._remove_pad_field),
  (py"_sys", ._sys),
  (py"_wrap_bytes_repr", ._wrap_bytes_repr),
  (py"_wrap_str_repr", ._wrap_str_repr),
  (py"a2b_hex", .a2b_hex),
  (py"actual_field_len", .actual_field_len),
  (py"add", .add),
  (py"bcd_field_len", .bcd_field_len),
  (py"binascii", .binascii),
  (py"bit", .bit),
  (py"bitmap", .bitmap),
  (py"byte", .byte),
  (py"byte_field_len", .byte_field_len),
  (py"byte_idx", .byte_idx),
  (py"bytearray", .bytearray),
  (py"bytes", .bytes),
  (py"candidate", .candidate),
  (py"current", .current),
  (py"data", .data),
  (py"data_to_encode", .data_to_encode),
  (py"decode", .decode),
  (py"decoded_field_data", .decoded_field_data),
  (py"decoded_length", .decoded_length),
  (py"default", .default),
  (py"default_ascii", .default_ascii),
  (py"delim", .delim),
  (py"desc", .desc),
  (py"desc_width", .desc_width),
  (py"dict", .dict),
  (py"difference", .difference),
  (py"doc", .doc),
  (py"doc_dec", .doc_dec),
  (py"doc_enc", .doc_enc),
  (py"doc_field", .doc_field),
  (py"e", .e),
  (py"enc_field_len", .enc_field_len),
  (py"encode", .encode),
  (py"encoded_data", .encoded_data),
  (py"encoded_field_data", .encoded_field_data),
  (py"enumerate", .enumerate),
  (py"errmsg", .errmsg),
  (py"expected_field_len", .expected_field_len),
  (py"field", .field),
  (py"field_data", .field_data),
  (py"field_key", .field_key),
  (py"field_length", .field_length),
  (py"field_offset", .field_offset),
  (py"field_spec", .field_spec),
  (py"fields", .fields),
  (py"format", .format),
  (py"from_bytes", .from_bytes),
  (py"fromhex", .fromhex),
  (py"get", .get),
  (py"hex", .hex),
  (py"hex_bitmap", .hex_bitmap),
  (py"i", .i),
  (py"idx", .idx),
  (py"indent", .indent),
  (py"index", .index),
  (py"int", .int),
  (py"intersection", .intersection),
  (py"is_extended", .is_extended),
  (py"isinstance", .isinstance),
  (py"isnumeric", .isnumeric),
  (py"issubset", .issubset),
  (py"k", .k),
  (py"key", .key),
  (py"keys", .keys),
  (py"len", .len),
  (py"len_count", .len_count),
  (py"len_type", .len_type),
  (py"line_width", .line_width),
  (py"msg", .msg),
  (py"obj", .obj),
  (py"p", .p),
  (py"pad", .pad),
  (py"part", .part),
  (py"pop", .pop),
  (py"pos", .pos),
  (py"pp", .pp),
  (py"range", .range),
  (py"remove", .remove),
  (py"rep", .rep),
  (py"repr", .repr),
  (py"s", .s),
  (py"secondary_fields", .secondary_fields),
  (py"self", .self),
  (py"set", .set),
  (py"signed", .signed),
  (py"sorted", .sorted),
  (py"spec", .spec),
  (py"stdout", .stdout),
  (py"str", .str),
  (py"stream", .stream),
  (py"tertiary_fields", .tertiary_fields),
  (py"to_bytes", .to_bytes),
  (py"type", .type),
  (py"_", .underscore),
  (py"update", .update),
  (py"upper", .upper),
  (py"width", .width),
  (py"write", .write)]

end Iso8583.Src
