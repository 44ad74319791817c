/-!
# Identifiers of the source

Written by `tools/gen_source.py` from the text of `/repo/iso8583`; do not edit.
-/

namespace Iso8583.Src

/-- Every identifier in the functions of decoder.py, encoder.py and tools.py, and in specs.py. -/
inductive Ident
  | AttributeError | DecodeError | EncodeError | Exception | IndexError | KeyError | LookupError
  | OverflowError | TypeError | UnboundLocalError | UnicodeError | ValueError | __class__
  | __init__ | __name__ | __reduce__ | __repr__ | _add_pad_field | _decode_bitmap | _decode_field
  | _decode_header | _decode_text_data | _decode_type | _dispatch | _encode_bindary_field
  | _encode_bitmap | _encode_field | _encode_header | _encode_text_field | _encode_type
  | _pp_field | _pprint_bytes | _pprint_str | _remove_pad_field | _sys | _wrap_bytes_repr
  | _wrap_str_repr | a2b_hex | actual_field_len | add | bcd_field_len | binascii | bit | bitmap
  | byte | byte_field_len | byte_idx | bytearray | bytes | candidate | current | data
  | data_to_encode | decode | decoded_field_data | decoded_length | default | default_ascii
  | delim | desc | desc_width | dict | difference | doc | doc_dec | doc_enc | doc_field | e
  | enc_field_len | encode | encoded_data | encoded_field_data | enumerate | errmsg
  | expected_field_len | field | field_data | field_key | field_length | field_offset | field_spec
  | fields | format | from_bytes | fromhex | get | hex | hex_bitmap | i | idx | indent | index
  | int | intersection | is_extended | isinstance | isnumeric | issubset | k | key | keys | len
  | len_count | len_type | line_width | msg | obj | p | pad | part | pop | pos | pp | range
  | remove | rep | repr | s | secondary_fields | self | set | signed | sorted | spec | stdout
  | str | stream | tertiary_fields | to_bytes | type | underscore | update | upper | width | write
deriving DecidableEq, Repr

end Iso8583.Src
