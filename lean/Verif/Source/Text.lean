import Verif.Model.Py
/-!
# The text of the sources

Written by `tools/gen_source.py`: the lines of `/repo/iso8583`, as they are; do not edit.
-/

namespace Iso8583.Src

/-- decoder.py, lines 1 to 50. -/
def decoderText1 : List Str := [
  py"from typing import Any, Dict, Literal, Mapping, Set, Tuple, Type, Union",
  py"",
  py"__all__ = [\"decode\", \"DecodeError\"]",
  py"",
  py"DecodedDict = Dict[str, str]",
  py"EncodedDict = Dict[str, Dict[str, bytes]]",
  py"SpecDict = Mapping[str, Mapping[str, Any]]",
  py"",
  py"",
  py"class DecodeError(ValueError):",
  py"    r\"\"\"Subclass of ValueError that describes ISO8583 decoding error.",
  py"",
  py"    Attributes",
  py"    ----------",
  py"    msg : str",
  py"        The unformatted error message",
  py"    s : bytes or bytearray",
  py"        The ISO8583 bytes instance being parsed",
  py"    doc_dec : dict",
  py"        Dict containing partially decoded ISO8583 data",
  py"    doc_enc : dict",
  py"        Dict containing partially encoded ISO8583 data",
  py"    pos : int",
  py"        The start index where ISO8583 bytes data failed parsing",
  py"    field : str",
  py"        The ISO8583 field where parsing failed",
  py"    \"\"\"",
  py"",
  py"    def __init__(",
  py"        self,",
  py"        msg: str,",
  py"        s: Union[bytes, bytearray],",
  py"        doc_dec: DecodedDict,",
  py"        doc_enc: EncodedDict,",
  py"        pos: int,",
  py"        field: str,",
  py"    ):",
  py"        errmsg = f\"{msg}: field {field} pos {pos}\"",
  py"        ValueError.__init__(self, errmsg)",
  py"        self.msg = msg",
  py"        self.s = s",
  py"        self.doc_dec = doc_dec",
  py"        self.doc_enc = doc_enc",
  py"        self.field = field",
  py"        self.pos = pos",
  py"",
  py"    def __reduce__(",
  py"        self,",
  py"    ) -> Tuple[",
  py"        Type[\"DecodeError\"],"]

/-- decoder.py, lines 51 to 100. -/
def decoderText2 : List Str := [
  py"        Tuple[str, Union[bytes, bytearray], DecodedDict, EncodedDict, int, str],",
  py"    ]:",
  py"        return (",
  py"            self.__class__,",
  py"            (self.msg, self.s, self.doc_dec, self.doc_enc, self.pos, self.field),",
  py"        )",
  py"",
  py"",
  py"def decode(",
  py"    s: Union[bytes, bytearray], spec: SpecDict",
  py") -> Tuple[DecodedDict, EncodedDict]:",
  py"    r\"\"\"Deserialize a bytes or bytearray instance containing",
  py"    ISO8583 data to a Python dict.",
  py"",
  py"    Parameters",
  py"    ----------",
  py"    s : bytes or bytearray",
  py"        Encoded ISO8583 data",
  py"    spec : dict",
  py"        A Python dict defining ISO8583 specification.",
  py"        See :mod:`iso8583.specs` module for examples.",
  py"",
  py"    Returns",
  py"    -------",
  py"    doc_dec : dict",
  py"        Dict containing decoded ISO8583 data",
  py"    doc_enc : dict",
  py"        Dict containing encoded ISO8583 data",
  py"",
  py"    Raises",
  py"    ------",
  py"    DecodeError",
  py"        An error decoding ISO8583 bytearray",
  py"    TypeError",
  py"        `s` must be a bytes or bytearray instance",
  py"",
  py"    Examples",
  py"    --------",
  py"    >>> import pprint",
  py"    >>> import iso8583",
  py"    >>> from iso8583.specs import default_ascii as spec",
  py"    >>> s = b\"02004010100000000000161234567890123456123456111\"",
  py"    >>> doc_dec, doc_enc = iso8583.decode(s, spec)",
  py"    >>> pprint.pprint(doc_dec)",
  py"    {'12': '123456',",
  py"     '2': '1234567890123456',",
  py"     '20': '111',",
  py"     'p': '4010100000000000',",
  py"     't': '0200'}",
  py"    \"\"\""]

/-- decoder.py, lines 101 to 150. -/
def decoderText3 : List Str := [
  py"",
  py"    if not isinstance(s, (bytes, bytearray)):",
  py"        raise TypeError(",
  py"            f\"Encoded ISO8583 data must be bytes or bytearray, not {s.__class__.__name__}\"",
  py"        )",
  py"",
  py"    doc_dec: DecodedDict = {}",
  py"    doc_enc: EncodedDict = {}",
  py"    fields: Set[int] = set()",
  py"    idx = 0",
  py"",
  py"    idx = _decode_header(s, doc_dec, doc_enc, idx, spec)",
  py"    idx = _decode_type(s, doc_dec, doc_enc, idx, spec)",
  py"    field = \"p\"",
  py"    idx = _decode_bitmap(",
  py"        s,",
  py"        doc_dec,",
  py"        doc_enc,",
  py"        idx,",
  py"        field,",
  py"        spec[field],",
  py"        0,",
  py"        False,",
  py"        fields,",
  py"    )",
  py"",
  py"    if 1 in fields:",
  py"        field = \"1\"",
  py"        idx = _decode_bitmap(",
  py"            s,",
  py"            doc_dec,",
  py"            doc_enc,",
  py"            idx,",
  py"            field,",
  py"            spec[field],",
  py"            64,",
  py"            False,",
  py"            fields,",
  py"        )",
  py"        fields.remove(1)",
  py"",
  py"    if 65 in fields:",
  py"        # Secondary bitmap is extended to contain tertiary fields",
  py"        idx = _decode_bitmap(",
  py"            s,",
  py"            doc_dec,",
  py"            doc_enc,",
  py"            idx,",
  py"            field,",
  py"            spec[field],"]

/-- decoder.py, lines 151 to 200. -/
def decoderText4 : List Str := [
  py"            128,",
  py"            True,",
  py"            fields,",
  py"        )",
  py"        fields.remove(65)",
  py"",
  py"    for field in [str(i) for i in sorted(fields)]:",
  py"        idx = _decode_field(s, doc_dec, doc_enc, idx, field, spec[field])",
  py"",
  py"    if idx != len(s):",
  py"        raise DecodeError(",
  py"            \"Extra data after last field\", s, doc_dec, doc_enc, idx, field",
  py"        )",
  py"",
  py"    return doc_dec, doc_enc",
  py"",
  py"",
  py"#",
  py"# Private interface",
  py"#",
  py"",
  py"_FieldSpecDict = Mapping[str, Any]",
  py"",
  py"",
  py"def _decode_header(",
  py"    s: Union[bytes, bytearray],",
  py"    doc_dec: DecodedDict,",
  py"    doc_enc: EncodedDict,",
  py"    idx: int,",
  py"    spec: SpecDict,",
  py") -> int:",
  py"    r\"\"\"Decode ISO8583 header data if present.",
  py"",
  py"    Parameters",
  py"    ----------",
  py"    s : bytes or bytearray",
  py"        Encoded ISO8583 data",
  py"    doc_dec : dict",
  py"        Dict containing decoded ISO8583 data",
  py"    doc_enc : dict",
  py"        Dict containing encoded ISO8583 data",
  py"    idx : int",
  py"        Current index in ISO8583 byte array",
  py"    spec : dict",
  py"        A Python dict defining ISO8583 specification.",
  py"        See :mod:`iso8583.specs` module for examples.",
  py"",
  py"    Returns",
  py"    -------",
  py"    int"]

/-- decoder.py, lines 201 to 250. -/
def decoderText5 : List Str := [
  py"        Index in ISO8583 byte array where parsing of the header ended",
  py"",
  py"    Raises",
  py"    ------",
  py"    DecodeError",
  py"        An error decoding ISO8583 bytearray.",
  py"    \"\"\"",
  py"",
  py"    # Header is not expected according to specifications",
  py"    if spec[\"h\"][\"max_len\"] <= 0:",
  py"        return idx",
  py"",
  py"    return _decode_field(s, doc_dec, doc_enc, idx, \"h\", spec[\"h\"])",
  py"",
  py"",
  py"def _decode_type(",
  py"    s: Union[bytes, bytearray],",
  py"    doc_dec: DecodedDict,",
  py"    doc_enc: EncodedDict,",
  py"    idx: int,",
  py"    spec: SpecDict,",
  py") -> int:",
  py"    r\"\"\"Decode ISO8583 message type.",
  py"",
  py"    Parameters",
  py"    ----------",
  py"    s : bytes or bytearray",
  py"        Encoded ISO8583 data",
  py"    doc_dec : dict",
  py"        Dict containing decoded ISO8583 data",
  py"    doc_enc : dict",
  py"        Dict containing encoded ISO8583 data",
  py"    idx : int",
  py"        Current index in ISO8583 byte array",
  py"    spec : dict",
  py"        A Python dict defining ISO8583 specification.",
  py"        See :mod:`iso8583.specs` module for examples.",
  py"",
  py"    Returns",
  py"    -------",
  py"    int",
  py"        Index in ISO8583 byte array where parsing of message type ended",
  py"",
  py"    Raises",
  py"    ------",
  py"    DecodeError",
  py"        An error decoding ISO8583 bytearray.",
  py"    \"\"\"",
  py"",
  py"    # Message type is a set length in ISO8583"]

/-- decoder.py, lines 251 to 300. -/
def decoderText6 : List Str := [
  py"    if spec[\"t\"][\"data_enc\"] == \"b\":",
  py"        expected_field_len = 2",
  py"    else:",
  py"        expected_field_len = 4",
  py"",
  py"    encoded_field_data = s[idx : idx + expected_field_len]",
  py"    doc_dec[\"t\"] = \"\"",
  py"    doc_enc[\"t\"] = {\"len\": b\"\", \"data\": bytes(encoded_field_data)}",
  py"",
  py"    if len(encoded_field_data) != expected_field_len:",
  py"        raise DecodeError(",
  py"            f\"Field data is {len(encoded_field_data)} bytes, expecting {expected_field_len}\",",
  py"            s,",
  py"            doc_dec,",
  py"            doc_enc,",
  py"            idx,",
  py"            \"t\",",
  py"        )",
  py"",
  py"    if spec[\"t\"][\"data_enc\"] == \"b\":",
  py"        doc_dec[\"t\"] = encoded_field_data.hex().upper()",
  py"    else:",
  py"        doc_dec[\"t\"] = _decode_text_data(",
  py"            s,",
  py"            encoded_field_data,",
  py"            idx,",
  py"            doc_dec,",
  py"            doc_enc,",
  py"            \"t\",",
  py"            spec[\"t\"],",
  py"        )",
  py"",
  py"    return idx + expected_field_len",
  py"",
  py"",
  py"def _decode_bitmap(",
  py"    s: Union[bytes, bytearray],",
  py"    doc_dec: DecodedDict,",
  py"    doc_enc: EncodedDict,",
  py"    idx: int,",
  py"    field_key: str,",
  py"    field_spec: _FieldSpecDict,",
  py"    field_offset: Literal[0, 64, 128],",
  py"    is_extended: bool,",
  py"    fields: Set[int],",
  py") -> int:",
  py"    r\"\"\"Decode ISO8583 a bitmap.",
  py"",
  py"    Parameters",
  py"    ----------"]

/-- decoder.py, lines 301 to 350. -/
def decoderText7 : List Str := [
  py"    s : bytes or bytearray",
  py"        Encoded ISO8583 data",
  py"    doc_dec : dict",
  py"        Dict containing decoded ISO8583 data",
  py"    doc_enc : dict",
  py"        Dict containing encoded ISO8583 data",
  py"    idx : int",
  py"        Current index in ISO8583 byte array",
  py"    field_key : str",
  py"        Field ID to be decoded",
  py"    field_spec : dict",
  py"        A Python dict defining ISO8583 specification for this field.",
  py"        See :mod:`iso8583.specs` module for examples.",
  py"    field_offset : int",
  py"        Offset by which to adjust fields from 1-64 range.",
  py"    is_extended : bool",
  py"        If true then processing an extension of an already processed bitmap",
  py"    fields: set",
  py"        Will be populated with enabled field numbers",
  py"",
  py"    Returns",
  py"    -------",
  py"    int",
  py"        Index in ISO8583 byte array where parsing of bitmaps ended",
  py"",
  py"    Raises",
  py"    ------",
  py"    DecodeError",
  py"        An error decoding ISO8583 bytearray.",
  py"    \"\"\"",
  py"",
  py"    # Primary/Secondary bitmap is a set length in ISO8583",
  py"    if field_spec[\"data_enc\"] == \"b\":",
  py"        expected_field_len = 8",
  py"    else:",
  py"        expected_field_len = 16",
  py"",
  py"    encoded_field_data = s[idx : idx + expected_field_len]",
  py"",
  py"    if is_extended:",
  py"        doc_enc[field_key][\"data\"] = doc_enc[field_key][\"data\"] + bytes(",
  py"            encoded_field_data",
  py"        )",
  py"    else:",
  py"        doc_dec[field_key] = \"\"",
  py"        doc_enc[field_key] = {\"len\": b\"\", \"data\": bytes(encoded_field_data)}",
  py"",
  py"    if len(encoded_field_data) != expected_field_len:",
  py"        raise DecodeError(",
  py"            f\"Field data is {len(doc_enc[field_key]['data'])} bytes, expecting {expected_field_len * 2 if is_extended else expected_field_len}\","]

/-- decoder.py, lines 351 to 400. -/
def decoderText8 : List Str := [
  py"            s,",
  py"            doc_dec,",
  py"            doc_enc,",
  py"            idx,",
  py"            field_key,",
  py"        )",
  py"",
  py"    if field_spec[\"data_enc\"] == \"b\":",
  py"        decoded_field_data = encoded_field_data.hex().upper()",
  py"        doc_dec[field_key] = (",
  py"            doc_dec[field_key] + decoded_field_data",
  py"            if is_extended",
  py"            else decoded_field_data",
  py"        )",
  py"        bitmap = encoded_field_data",
  py"    else:",
  py"        decoded_field_data = _decode_text_data(",
  py"            s,",
  py"            encoded_field_data,",
  py"            idx,",
  py"            doc_dec,",
  py"            doc_enc,",
  py"            field_key,",
  py"            field_spec,",
  py"        )",
  py"        doc_dec[field_key] = (",
  py"            doc_dec[field_key] + decoded_field_data",
  py"            if is_extended",
  py"            else decoded_field_data",
  py"        )",
  py"",
  py"        try:",
  py"            bitmap = bytes.fromhex(decoded_field_data)",
  py"        except Exception:",
  py"            raise DecodeError(",
  py"                \"Failed to decode field, non-hex data\",",
  py"                s,",
  py"                doc_dec,",
  py"                doc_enc,",
  py"                idx,",
  py"                field_key,",
  py"            ) from None",
  py"",
  py"    fields.update(",
  py"        [",
  py"            field_offset + byte_idx * 8 + bit",
  py"            for bit in range(1, 9)",
  py"            for byte_idx, byte in enumerate(bitmap)",
  py"            if byte >> (8 - bit) & 1",
  py"        ]"]

/-- decoder.py, lines 401 to 450. -/
def decoderText9 : List Str := [
  py"    )",
  py"",
  py"    return idx + expected_field_len",
  py"",
  py"",
  py"def _decode_field(",
  py"    s: Union[bytes, bytearray],",
  py"    doc_dec: DecodedDict,",
  py"    doc_enc: EncodedDict,",
  py"    idx: int,",
  py"    field_key: str,",
  py"    field_spec: _FieldSpecDict,",
  py") -> int:",
  py"    r\"\"\"Decode ISO8583 individual fields.",
  py"",
  py"    Parameters",
  py"    ----------",
  py"    s : bytes or bytearray",
  py"        Encoded ISO8583 data",
  py"    doc_dec : dict",
  py"        Dict containing decoded ISO8583 data",
  py"    doc_enc : dict",
  py"        Dict containing encoded ISO8583 data",
  py"    idx : int",
  py"        Current index in ISO8583 byte array",
  py"    field_key : str",
  py"        Field ID to be decoded",
  py"    field_spec : dict",
  py"        A Python dict defining ISO8583 specification for this field.",
  py"        See :mod:`iso8583.specs` module for examples.",
  py"",
  py"    Returns",
  py"    -------",
  py"    int",
  py"        Index in ISO8583 byte array where parsing of the field ended",
  py"",
  py"    Raises",
  py"    ------",
  py"    DecodeError",
  py"        An error decoding ISO8583 bytearray.",
  py"    \"\"\"",
  py"    len_type = field_spec[\"len_type\"]",
  py"",
  py"    # Optional field added in v2.1. Prior specs do not have it.",
  py"    len_count = field_spec.get(\"len_count\", \"bytes\")",
  py"",
  py"    doc_dec[field_key] = \"\"",
  py"    doc_enc[field_key] = {\"len\": bytes(s[idx : idx + len_type]), \"data\": b\"\"}",
  py"",
  py"    if len(s[idx : idx + len_type]) != len_type:"]

/-- decoder.py, lines 451 to 500. -/
def decoderText10 : List Str := [
  py"        raise DecodeError(",
  py"            f\"Field length is {len(s[idx:idx + len_type])} bytes wide, expecting {len_type}\",",
  py"            s,",
  py"            doc_dec,",
  py"            doc_enc,",
  py"            idx,",
  py"            field_key,",
  py"        )",
  py"",
  py"    # Parse field length if present.",
  py"    # For fixed-length fields max_len is the length.",
  py"    if len_type == 0:",
  py"        enc_field_len: int = field_spec[\"max_len\"]",
  py"    # Variable field length",
  py"    else:",
  py"        # Binary length",
  py"        if field_spec[\"len_enc\"] == \"b\":",
  py"            try:",
  py"                enc_field_len = int.from_bytes(",
  py"                    s[idx : idx + len_type], \"big\", signed=False",
  py"                )",
  py"            # It does not seem to be possible to hit this unless",
  py"            # it's a type or input parameter error.",
  py"            # However, keeping this, because you just never know.",
  py"            except Exception as e:  # pragma: no cover",
  py"                raise DecodeError(",
  py"                    f\"Failed to decode field length, {e}\",",
  py"                    s,",
  py"                    doc_dec,",
  py"                    doc_enc,",
  py"                    idx,",
  py"                    field_key,",
  py"                ) from None",
  py"        # BCD length",
  py"        elif field_spec[\"len_enc\"] == \"bcd\":",
  py"            try:",
  py"                enc_field_len = int(s[idx : idx + len_type].hex(), 10)",
  py"            except Exception:",
  py"                raise DecodeError(",
  py"                    \"Failed to decode field length, invalid BCD data\",",
  py"                    s,",
  py"                    doc_dec,",
  py"                    doc_enc,",
  py"                    idx,",
  py"                    field_key,",
  py"                ) from None",
  py"        # Text length",
  py"        else:",
  py"            try:",
  py"                decoded_length = s[idx : idx + len_type].decode(field_spec[\"len_enc\"])"]

/-- decoder.py, lines 501 to 550. -/
def decoderText11 : List Str := [
  py"            except LookupError:",
  py"                raise DecodeError(",
  py"                    \"Failed to decode field length, unknown encoding specified\",",
  py"                    s,",
  py"                    doc_dec,",
  py"                    doc_enc,",
  py"                    idx,",
  py"                    field_key,",
  py"                ) from None",
  py"            except Exception:",
  py"                raise DecodeError(",
  py"                    \"Failed to decode field length, invalid data\",",
  py"                    s,",
  py"                    doc_dec,",
  py"                    doc_enc,",
  py"                    idx,",
  py"                    field_key,",
  py"                ) from None",
  py"",
  py"            try:",
  py"                enc_field_len = int(decoded_length)",
  py"            except Exception:",
  py"                raise DecodeError(",
  py"                    \"Failed to decode field length, non-numeric data\",",
  py"                    s,",
  py"                    doc_dec,",
  py"                    doc_enc,",
  py"                    idx,",
  py"                    field_key,",
  py"                ) from None",
  py"",
  py"        if enc_field_len > field_spec[\"max_len\"]:",
  py"            raise DecodeError(",
  py"                f\"Field data is {enc_field_len} {len_count}, larger than maximum {field_spec['max_len']}\",",
  py"                s,",
  py"                doc_dec,",
  py"                doc_enc,",
  py"                idx,",
  py"                field_key,",
  py"            )",
  py"",
  py"    idx += len_type",
  py"",
  py"    # Do not parse zero-length field",
  py"    if enc_field_len == 0:",
  py"        return idx",
  py"",
  py"    # Encoded field length can be in bytes or half bytes (nibbles)",
  py"    # Convert nibbles to bytes if needed",
  py"    if len_count == \"nibbles\":"]

/-- decoder.py, lines 551 to 600. -/
def decoderText12 : List Str := [
  py"        if enc_field_len & 1:",
  py"            byte_field_len = (enc_field_len + 1) // 2",
  py"        else:",
  py"            byte_field_len = enc_field_len // 2",
  py"    else:",
  py"        byte_field_len = enc_field_len",
  py"",
  py"    # Parse field data",
  py"    doc_enc[field_key][\"data\"] = bytes(s[idx : idx + byte_field_len])",
  py"    if len(doc_enc[field_key][\"data\"]) != byte_field_len:",
  py"        if len_count == \"nibbles\":",
  py"            actual_field_len = len(doc_enc[field_key][\"data\"]) * 2",
  py"        else:",
  py"            actual_field_len = len(doc_enc[field_key][\"data\"])",
  py"",
  py"        raise DecodeError(",
  py"            f\"Field data is {actual_field_len} {len_count}, expecting {enc_field_len}\",",
  py"            s,",
  py"            doc_dec,",
  py"            doc_enc,",
  py"            idx,",
  py"            field_key,",
  py"        )",
  py"",
  py"    if field_spec[\"data_enc\"] == \"b\":",
  py"        doc_dec[field_key] = doc_enc[field_key][\"data\"].hex().upper()",
  py"        if len_count == \"nibbles\" and enc_field_len & 1:",
  py"            doc_dec[field_key] = _remove_pad_field(",
  py"                s,",
  py"                idx,",
  py"                doc_dec,",
  py"                doc_enc,",
  py"                field_key,",
  py"                field_spec,",
  py"                enc_field_len,",
  py"            )",
  py"    else:",
  py"        doc_dec[field_key] = _decode_text_data(",
  py"            s,",
  py"            doc_enc[field_key][\"data\"],",
  py"            idx,",
  py"            doc_dec,",
  py"            doc_enc,",
  py"            field_key,",
  py"            field_spec,",
  py"        )",
  py"",
  py"    return idx + byte_field_len",
  py"",
  py""]

/-- decoder.py, lines 601 to 650. -/
def decoderText13 : List Str := [
  py"def _remove_pad_field(",
  py"    s: Union[bytes, bytearray],",
  py"    idx: int,",
  py"    doc_dec: DecodedDict,",
  py"    doc_enc: EncodedDict,",
  py"    field_key: str,",
  py"    field_spec: _FieldSpecDict,",
  py"    enc_field_len: int,",
  py") -> str:",
  py"    r\"\"\"Remove left or right pad from a BCD or hex field.",
  py"",
  py"    Parameters",
  py"    ----------",
  py"    s : bytes or bytearray",
  py"        Encoded ISO8583 data",
  py"    idx : int",
  py"        Current index in ISO8583 byte array",
  py"    doc_dec : dict",
  py"        Dict containing decoded ISO8583 data",
  py"    doc_enc : dict",
  py"        Dict containing encoded ISO8583 data",
  py"    field_key : str",
  py"        Field ID to remove pad from",
  py"    field_spec : dict",
  py"        A Python dict defining ISO8583 specification for this field.",
  py"        See :mod:`iso8583.specs` module for examples.",
  py"    enc_field_len : int",
  py"        Number of nibbles expected in the field",
  py"",
  py"    Returns",
  py"    -------",
  py"    str",
  py"        Field data without pad",
  py"",
  py"    Raises",
  py"    ------",
  py"    DecodeError",
  py"        An error decoding ISO8583 bytearray.",
  py"    \"\"\"",
  py"    pad: str = field_spec.get(\"left_pad\", \"\")[:1]",
  py"    if len(pad) > 0 and doc_dec[field_key][:1] == pad:",
  py"        return doc_dec[field_key][1:]",
  py"",
  py"    pad = field_spec.get(\"right_pad\", \"\")[:1]",
  py"    if len(pad) > 0 and doc_dec[field_key][-1:] == pad:",
  py"        return doc_dec[field_key][:-1]",
  py"",
  py"    raise DecodeError(",
  py"        f\"Field data is {len(doc_dec[field_key])} nibbles, expecting {enc_field_len}\",",
  py"        s,"]

/-- decoder.py, lines 651 to 700. -/
def decoderText14 : List Str := [
  py"        doc_dec,",
  py"        doc_enc,",
  py"        idx,",
  py"        field_key,",
  py"    )",
  py"",
  py"",
  py"def _decode_text_data(",
  py"    s: Union[bytes, bytearray],",
  py"    data: Union[bytes, bytearray],",
  py"    idx: int,",
  py"    doc_dec: DecodedDict,",
  py"    doc_enc: EncodedDict,",
  py"    field_key: str,",
  py"    field_spec: _FieldSpecDict,",
  py") -> str:",
  py"    r\"\"\"Decode non-binary field and handle errors if any",
  py"",
  py"    Parameters",
  py"    ----------",
  py"    s : bytes or bytearray",
  py"        Encoded ISO8583 data",
  py"    data : bytes or bytearray",
  py"        Encoded ISO8583 data to decode",
  py"    idx : int",
  py"        Current index in ISO8583 byte array",
  py"    doc_dec : dict",
  py"        Dict containing decoded ISO8583 data",
  py"    doc_enc : dict",
  py"        Dict containing encoded ISO8583 data",
  py"    field_key : str",
  py"        Field ID to remove pad from",
  py"    field_spec : dict",
  py"        A Python dict defining ISO8583 specification for this field.",
  py"        See :mod:`iso8583.specs` module for examples.",
  py"    enc_field_len : int",
  py"        Number of nibbles expected in the field",
  py"",
  py"    Returns",
  py"    -------",
  py"    str",
  py"        Decoded ISO8583 field data",
  py"",
  py"    Raises",
  py"    ------",
  py"    DecodeError",
  py"        An error decoding ISO8583 bytearray.",
  py"    \"\"\"",
  py"    try:",
  py"        return data.decode(field_spec[\"data_enc\"])"]

/-- decoder.py, lines 701 to 718. -/
def decoderText15 : List Str := [
  py"    except LookupError:",
  py"        raise DecodeError(",
  py"            \"Failed to decode field, unknown encoding specified\",",
  py"            s,",
  py"            doc_dec,",
  py"            doc_enc,",
  py"            idx,",
  py"            field_key,",
  py"        ) from None",
  py"    except Exception:",
  py"        raise DecodeError(",
  py"            \"Failed to decode field, invalid data\",",
  py"            s,",
  py"            doc_dec,",
  py"            doc_enc,",
  py"            idx,",
  py"            field_key,",
  py"        ) from None"]

/-- The lines of decoder.py. -/
def decoderText : List Str :=
  decoderText1 ++ decoderText2 ++ decoderText3 ++ decoderText4 ++ decoderText5 ++ decoderText6 ++ decoderText7 ++ decoderText8 ++ decoderText9 ++ decoderText10 ++ decoderText11 ++ decoderText12 ++ decoderText13 ++ decoderText14 ++ decoderText15

/-- encoder.py, lines 1 to 50. -/
def encoderText1 : List Str := [
  py"from typing import Any, Dict, Literal, Mapping, MutableMapping, Set, Tuple, Type",
  py"import binascii",
  py"",
  py"__all__ = [\"encode\", \"EncodeError\"]",
  py"",
  py"DecodedDict = MutableMapping[str, str]",
  py"EncodedDict = Dict[str, Dict[str, bytes]]",
  py"SpecDict = Mapping[str, Mapping[str, Any]]",
  py"",
  py"",
  py"class EncodeError(ValueError):",
  py"    r\"\"\"Subclass of ValueError that describes ISO8583 encoding error.",
  py"",
  py"    Attributes",
  py"    ----------",
  py"    msg : str",
  py"        The unformatted error message",
  py"    doc_dec : dict",
  py"        Dict containing decoded ISO8583 data being encoded",
  py"    doc_enc : dict",
  py"        Dict containing partially encoded ISO8583 data",
  py"    field : str",
  py"        The ISO8583 field where parsing failed",
  py"    \"\"\"",
  py"",
  py"    def __init__(",
  py"        self, msg: str, doc_dec: DecodedDict, doc_enc: EncodedDict, field: str",
  py"    ):",
  py"        errmsg = f\"{msg}: field {field}\"",
  py"        ValueError.__init__(self, errmsg)",
  py"        self.msg = msg",
  py"        self.doc_dec = doc_dec",
  py"        self.doc_enc = doc_enc",
  py"        self.field = field",
  py"",
  py"    def __reduce__(",
  py"        self,",
  py"    ) -> Tuple[Type[\"EncodeError\"], Tuple[str, DecodedDict, EncodedDict, str]]:",
  py"        return self.__class__, (self.msg, self.doc_dec, self.doc_enc, self.field)",
  py"",
  py"",
  py"def encode(doc_dec: DecodedDict, spec: SpecDict) -> Tuple[bytearray, EncodedDict]:",
  py"    r\"\"\"Serialize Python dict containing ISO8583 data to a bytearray.",
  py"",
  py"    Parameters",
  py"    ----------",
  py"    doc_dec : dict",
  py"        Dict containing decoded ISO8583 data",
  py"    spec : dict",
  py"        A Python dict defining ISO8583 specification."]

/-- encoder.py, lines 51 to 100. -/
def encoderText2 : List Str := [
  py"        See :mod:`iso8583.specs` module for examples.",
  py"",
  py"    Returns",
  py"    -------",
  py"    s : bytearray",
  py"        Encoded ISO8583 data",
  py"    doc_enc : dict",
  py"        Dict containing encoded ISO8583 data",
  py"",
  py"    Raises",
  py"    ------",
  py"    EncodeError",
  py"        An error encoding ISO8583 bytearray",
  py"    TypeError",
  py"        `doc_dec` must be a dict instance",
  py"",
  py"    Examples",
  py"    --------",
  py"    >>> import iso8583",
  py"    >>> from iso8583.specs import default_ascii as spec",
  py"    >>> doc_dec = {",
  py"    ...     't': '0210',",
  py"    ...     '3': '111111',",
  py"    ...     '39': '05'}",
  py"    >>> s, doc_enc = iso8583.encode(doc_dec, spec)",
  py"    >>> s",
  py"    bytearray(b'0210200000000200000011111105')",
  py"    \"\"\"",
  py"",
  py"    if not isinstance(doc_dec, dict):",
  py"        raise TypeError(",
  py"            f\"Decoded ISO8583 data must be dict, not {doc_dec.__class__.__name__}\"",
  py"        )",
  py"",
  py"    s = bytearray()",
  py"    doc_enc: EncodedDict = {}",
  py"",
  py"    # Secondary bitmaps will be calculated as needed",
  py"    doc_dec.pop(\"1\", None)",
  py"    # Extended bitmap indicator must not be an actual field",
  py"    doc_dec.pop(\"65\", None)",
  py"",
  py"    s += _encode_header(doc_dec, doc_enc, spec)",
  py"    s += _encode_type(doc_dec, doc_enc, spec)",
  py"",
  py"    try:",
  py"        fields: Set[int] = set([int(k) for k in doc_dec.keys() if k.isnumeric()])",
  py"    except AttributeError:",
  py"        raise EncodeError(",
  py"            f\"Dictionary contains invalid fields {[k for k in doc_dec.keys() if not isinstance(k, str)]}\","]

/-- encoder.py, lines 101 to 150. -/
def encoderText3 : List Str := [
  py"            doc_dec,",
  py"            doc_enc,",
  py"            \"p\",",
  py"        ) from None",
  py"",
  py"    # Verify valid field range: 1-192",
  py"    if not fields.issubset(range(1, 193)):",
  py"        raise EncodeError(",
  py"            f\"Dictionary contains fields outside of 1-192 range {sorted(fields.difference(range(1, 193)))}\",",
  py"            doc_dec,",
  py"            doc_enc,",
  py"            \"p\",",
  py"        )",
  py"",
  py"    # Add tertiary bitmap if any 129-192 fields are present",
  py"    tertiary_fields = fields.intersection(range(129, 193))",
  py"    if tertiary_fields:",
  py"        fields.add(65)",
  py"",
  py"    # Add secondary bitmap if any 65-128 fields are present",
  py"    secondary_fields = fields.intersection(range(65, 129))",
  py"    if secondary_fields:",
  py"        fields.add(1)",
  py"",
  py"    s += _encode_bitmap(",
  py"        doc_dec,",
  py"        doc_enc,",
  py"        \"p\",",
  py"        spec[\"p\"],",
  py"        0,",
  py"        False,",
  py"        fields.intersection(range(1, 65)),",
  py"    )",
  py"",
  py"    if 1 in fields:",
  py"        s += _encode_bitmap(",
  py"            doc_dec,",
  py"            doc_enc,",
  py"            \"1\",",
  py"            spec[\"1\"],",
  py"            64,",
  py"            False,",
  py"            secondary_fields,",
  py"        )",
  py"        fields.remove(1)",
  py"",
  py"    if 65 in fields:",
  py"        s += _encode_bitmap(",
  py"            doc_dec,",
  py"            doc_enc,"]

/-- encoder.py, lines 151 to 200. -/
def encoderText4 : List Str := [
  py"            \"1\",",
  py"            spec[\"1\"],",
  py"            128,",
  py"            True,",
  py"            tertiary_fields,",
  py"        )",
  py"        fields.remove(65)",
  py"",
  py"    for field_key in [str(i) for i in sorted(fields)]:",
  py"        s += _encode_field(doc_dec, doc_enc, field_key, spec[field_key])",
  py"",
  py"    return s, doc_enc",
  py"",
  py"",
  py"#",
  py"# Private interface",
  py"#",
  py"",
  py"_FieldSpecDict = Mapping[str, Any]",
  py"",
  py"",
  py"def _encode_header(",
  py"    doc_dec: DecodedDict,",
  py"    doc_enc: EncodedDict,",
  py"    spec: SpecDict,",
  py") -> bytes:",
  py"    r\"\"\"Encode ISO8583 header data if present from `d[\"h\"]`.",
  py"",
  py"    Parameters",
  py"    ----------",
  py"    doc_dec : dict",
  py"        Dict containing decoded ISO8583 data",
  py"    doc_enc : dict",
  py"        Dict containing encoded ISO8583 data",
  py"    spec : dict",
  py"        A Python dict defining ISO8583 specification.",
  py"        See :mod:`iso8583.specs` module for examples.",
  py"",
  py"    Returns",
  py"    -------",
  py"    bytes",
  py"        Encoded ISO8583 header data",
  py"",
  py"    Raises",
  py"    ------",
  py"    EncodeError",
  py"        An error encoding ISO8583 bytearray.",
  py"    \"\"\"",
  py"",
  py"    # Header is not expected according to specifications"]

/-- encoder.py, lines 201 to 250. -/
def encoderText5 : List Str := [
  py"    if spec[\"h\"][\"max_len\"] <= 0:",
  py"        return b\"\"",
  py"",
  py"    # Header data is a required field.",
  py"    if \"h\" not in doc_dec:",
  py"        raise EncodeError(",
  py"            \"Field data is required according to specifications\", doc_dec, doc_enc, \"h\"",
  py"        )",
  py"",
  py"    return _encode_field(doc_dec, doc_enc, \"h\", spec[\"h\"])",
  py"",
  py"",
  py"def _encode_type(",
  py"    doc_dec: DecodedDict,",
  py"    doc_enc: EncodedDict,",
  py"    spec: SpecDict,",
  py") -> bytes:",
  py"    r\"\"\"Encode ISO8583 message type from `d[\"t\"]`.",
  py"",
  py"    Parameters",
  py"    ----------",
  py"    doc_dec : dict",
  py"        Dict containing decoded ISO8583 data",
  py"    doc_enc : dict",
  py"        Dict containing encoded ISO8583 data",
  py"    spec : dict",
  py"        A Python dict defining ISO8583 specification.",
  py"        See :mod:`iso8583.specs` module for examples.",
  py"",
  py"    Returns",
  py"    -------",
  py"    bytes",
  py"        Encoded ISO8583 message type data",
  py"",
  py"    Raises",
  py"    ------",
  py"    EncodeError",
  py"        An error encoding ISO8583 bytearray.",
  py"    \"\"\"",
  py"",
  py"    # Message type is a required field.",
  py"    if \"t\" not in doc_dec:",
  py"        raise EncodeError(\"Field data is required\", doc_dec, doc_enc, \"t\")",
  py"",
  py"    # Message type is a set length in ISO8583",
  py"    if spec[\"t\"][\"data_enc\"] == \"b\":",
  py"        expected_field_len = 2",
  py"    else:",
  py"        expected_field_len = 4",
  py""]

/-- encoder.py, lines 251 to 300. -/
def encoderText6 : List Str := [
  py"    doc_enc[\"t\"] = {\"len\": b\"\", \"data\": b\"\"}",
  py"",
  py"    if spec[\"t\"][\"data_enc\"] == \"b\":",
  py"        doc_enc[\"t\"][\"data\"], enc_field_len = _encode_bindary_field(",
  py"            doc_dec,",
  py"            doc_enc,",
  py"            doc_dec[\"t\"],",
  py"            \"t\",",
  py"            spec[\"t\"],",
  py"            \"bytes\",",
  py"        )",
  py"    else:",
  py"        doc_enc[\"t\"][\"data\"], enc_field_len = _encode_text_field(",
  py"            doc_dec,",
  py"            doc_enc,",
  py"            doc_dec[\"t\"],",
  py"            \"t\",",
  py"            spec[\"t\"],",
  py"            \"bytes\",",
  py"        )",
  py"",
  py"    if enc_field_len != expected_field_len:",
  py"        raise EncodeError(",
  py"            f\"Field data is {enc_field_len} bytes, expecting {expected_field_len}\",",
  py"            doc_dec,",
  py"            doc_enc,",
  py"            \"t\",",
  py"        )",
  py"",
  py"    return doc_enc[\"t\"][\"data\"]",
  py"",
  py"",
  py"def _encode_bitmap(",
  py"    doc_dec: DecodedDict,",
  py"    doc_enc: EncodedDict,",
  py"    field_key: str,",
  py"    field_spec: _FieldSpecDict,",
  py"    field_offset: Literal[0, 64, 128],",
  py"    is_extended: bool,",
  py"    fields: Set[int],",
  py") -> bytes:",
  py"    r\"\"\"Encode ISO8583 bitmap.",
  py"",
  py"    Parameters",
  py"    ----------",
  py"    doc_dec : dict",
  py"        Dict containing decoded ISO8583 data",
  py"    doc_enc : dict",
  py"        Dict containing encoded ISO8583 data",
  py"    field_key : str"]

/-- encoder.py, lines 301 to 350. -/
def encoderText7 : List Str := [
  py"        Field ID to be encoded",
  py"    field_spec : dict",
  py"        A Python dict defining ISO8583 specification for this field.",
  py"        See :mod:`iso8583.specs` module for examples.",
  py"    field_offset : int",
  py"        Offset by which to adjust fields to fit into 1-64 range.",
  py"    is_extended : bool",
  py"        If true then processing an extension of an already processed bitmap",
  py"    fields: set",
  py"        Will be populated with enabled field numbers",
  py"",
  py"    Returns",
  py"    -------",
  py"    bytes",
  py"        Encoded ISO8583 bitmap data",
  py"",
  py"    Raises",
  py"    ------",
  py"    EncodeError",
  py"        An error encoding ISO8583 bytearray.",
  py"    \"\"\"",
  py"",
  py"    bitmap = bytearray(b\"\\x00\\x00\\x00\\x00\\x00\\x00\\x00\\x00\")",
  py"",
  py"    for field in fields:",
  py"        # Fields start at 1. Make them zero-bound for easier conversion.",
  py"        # Offset fields to fit into 0-7 byte.",
  py"        field -= 1 + field_offset",
  py"",
  py"        # Place this particular field in a byte where it belongs.",
  py"        # E.g. field 8 belongs to byte 0, field 64 belongs to byte 7.",
  py"        byte = field // 8",
  py"",
  py"        # Determine bit to enable. ISO8583 bitmaps are left-aligned.",
  py"        # E.g. fields 1, 9, 17, etc. enable bit 7 in bytes 0, 1, 2, etc.",
  py"        bit = 7 - (field - byte * 8)",
  py"        bitmap[byte] |= 1 << bit",
  py"",
  py"    hex_bitmap = bitmap.hex().upper()",
  py"",
  py"    if is_extended:",
  py"        doc_dec[field_key] = doc_dec[field_key] + hex_bitmap",
  py"    else:",
  py"        doc_dec[field_key] = hex_bitmap",
  py"        doc_enc[field_key] = {\"len\": b\"\", \"data\": b\"\"}",
  py"",
  py"    if field_spec[\"data_enc\"] == \"b\":",
  py"        encoded_data = bytes(bitmap)",
  py"    else:",
  py"        encoded_data, _ = _encode_text_field("]

/-- encoder.py, lines 351 to 400. -/
def encoderText8 : List Str := [
  py"            doc_dec,",
  py"            doc_enc,",
  py"            hex_bitmap,",
  py"            field_key,",
  py"            field_spec,",
  py"            \"bytes\",",
  py"        )",
  py"",
  py"    if is_extended:",
  py"        doc_enc[field_key][\"data\"] = doc_enc[field_key][\"data\"] + encoded_data",
  py"    else:",
  py"        doc_enc[field_key][\"data\"] = encoded_data",
  py"",
  py"    return encoded_data",
  py"",
  py"",
  py"def _encode_field(",
  py"    doc_dec: DecodedDict,",
  py"    doc_enc: EncodedDict,",
  py"    field_key: str,",
  py"    field_spec: _FieldSpecDict,",
  py") -> bytes:",
  py"    r\"\"\"Encode ISO8583 individual field from `doc_dec[field_key]`.",
  py"",
  py"    Parameters",
  py"    ----------",
  py"    doc_dec : dict",
  py"        Dict containing decoded ISO8583 data",
  py"    doc_enc : dict",
  py"        Dict containing encoded ISO8583 data",
  py"    field_key : str",
  py"        Field ID to be encoded",
  py"    field_spec : dict",
  py"        A Python dict defining ISO8583 specification for this field.",
  py"        See :mod:`iso8583.specs` module for examples.",
  py"",
  py"    Returns",
  py"    -------",
  py"    bytes",
  py"        Encoded ISO8583 field data",
  py"",
  py"    Raises",
  py"    ------",
  py"    EncodeError",
  py"        An error encoding ISO8583 bytearray.",
  py"    \"\"\"",
  py"",
  py"    # Encode field data",
  py"    doc_enc[field_key] = {\"len\": b\"\", \"data\": b\"\"}",
  py""]

/-- encoder.py, lines 401 to 450. -/
def encoderText9 : List Str := [
  py"    # Optional field added in v2.1. Prior specs do not have it.",
  py"    len_count = field_spec.get(\"len_count\", \"bytes\")",
  py"",
  py"    # Binary data: either hex or BCD",
  py"    if field_spec[\"data_enc\"] == \"b\":",
  py"        doc_enc[field_key][\"data\"], enc_field_len = _encode_bindary_field(",
  py"            doc_dec,",
  py"            doc_enc,",
  py"            doc_dec[field_key],",
  py"            field_key,",
  py"            field_spec,",
  py"            len_count,",
  py"        )",
  py"    # Text data",
  py"    else:",
  py"        doc_enc[field_key][\"data\"], enc_field_len = _encode_text_field(",
  py"            doc_dec,",
  py"            doc_enc,",
  py"            doc_dec[field_key],",
  py"            field_key,",
  py"            field_spec,",
  py"            len_count,",
  py"        )",
  py"",
  py"    len_type = field_spec[\"len_type\"]",
  py"",
  py"    # Handle fixed length field. No need to calculate length.",
  py"    if len_type == 0:",
  py"        if enc_field_len != field_spec[\"max_len\"]:",
  py"            raise EncodeError(",
  py"                f\"Field data is {enc_field_len} {len_count}, expecting {field_spec['max_len']}\",",
  py"                doc_dec,",
  py"                doc_enc,",
  py"                field_key,",
  py"            )",
  py"",
  py"        doc_enc[field_key][\"len\"] = b\"\"",
  py"        return doc_enc[field_key][\"data\"]",
  py"",
  py"    # Continue with variable length field.",
  py"",
  py"    if enc_field_len > field_spec[\"max_len\"]:",
  py"        raise EncodeError(",
  py"            f\"Field data is {enc_field_len} {len_count}, larger than maximum {field_spec['max_len']}\",",
  py"            doc_dec,",
  py"            doc_enc,",
  py"            field_key,",
  py"        )",
  py"",
  py"    # Encode binary field length"]

/-- encoder.py, lines 451 to 500. -/
def encoderText10 : List Str := [
  py"    if field_spec[\"len_enc\"] == \"b\":",
  py"        try:",
  py"            doc_enc[field_key][\"len\"] = (enc_field_len).to_bytes(",
  py"                len_type, \"big\", signed=False",
  py"            )",
  py"        except OverflowError:",
  py"            raise EncodeError(",
  py"                \"Failed to encode field length, field length does not fit into configured field size\",",
  py"                doc_dec,",
  py"                doc_enc,",
  py"                field_key,",
  py"            ) from None",
  py"    # Encode BCD field length",
  py"    elif field_spec[\"len_enc\"] == \"bcd\":",
  py"        # Odd field length type is not allowed when translating string BCD. Pad it, e.g.:",
  py"        # BCD LVAR length \\x09 must be string \"09\"",
  py"        # BCD LLVAR length \\x99 must be string \"99\"",
  py"        # BCD LLLVAR length \\x09\\x99 must be string \"0999\"",
  py"        # BCD LLLLVAR length \\x99\\x99 must be string \"9999\"",
  py"        bcd_field_len = \"{:0{len_type}d}\".format(enc_field_len, len_type=len_type * 2)",
  py"",
  py"        if len(bcd_field_len) > (len_type * 2):",
  py"            raise EncodeError(",
  py"                \"Failed to encode field length, field length does not fit into configured field size\",",
  py"                doc_dec,",
  py"                doc_enc,",
  py"                field_key,",
  py"            ) from None",
  py"",
  py"        doc_enc[field_key][\"len\"] = binascii.a2b_hex(bcd_field_len)",
  py"    else:",
  py"        try:",
  py"            doc_enc[field_key][\"len\"] = bytes(",
  py"                \"{:0{len_type}d}\".format(enc_field_len, len_type=len_type),",
  py"                field_spec[\"len_enc\"],",
  py"            )",
  py"        except LookupError:",
  py"            raise EncodeError(",
  py"                \"Failed to encode field length, unknown encoding specified\",",
  py"                doc_dec,",
  py"                doc_enc,",
  py"                field_key,",
  py"            ) from None",
  py"        # It does not seem to be possible to hit this because regular",
  py"        # numeric characters seem to be always encodable.",
  py"        # However, keeping this, because you just never know.",
  py"        except Exception as e:  # pragma: no cover",
  py"            raise EncodeError(",
  py"                f\"Failed to encode field length, {e}\",",
  py"                doc_dec,"]

/-- encoder.py, lines 501 to 550. -/
def encoderText11 : List Str := [
  py"                doc_enc,",
  py"                field_key,",
  py"            ) from None",
  py"",
  py"        if len(doc_enc[field_key][\"len\"]) > len_type:",
  py"            raise EncodeError(",
  py"                \"Failed to encode field length, field length does not fit into configured field size\",",
  py"                doc_dec,",
  py"                doc_enc,",
  py"                field_key,",
  py"            ) from None",
  py"",
  py"    return doc_enc[field_key][\"len\"] + doc_enc[field_key][\"data\"]",
  py"",
  py"",
  py"def _encode_bindary_field(",
  py"    doc_dec: DecodedDict,",
  py"    doc_enc: EncodedDict,",
  py"    field_data: str,",
  py"    field_key: str,",
  py"    field_spec: _FieldSpecDict,",
  py"    len_count: str,",
  py") -> Tuple[bytes, int]:",
  py"    r\"\"\"Encode ISO8583 individual field.",
  py"",
  py"    Parameters",
  py"    ----------",
  py"    doc_dec : dict",
  py"        Dict containing decoded ISO8583 data",
  py"    doc_enc : dict",
  py"        Dict containing encoded ISO8583 data",
  py"    field_data : str",
  py"        Field data to encode",
  py"    field_key : str",
  py"        Field ID to be encoded",
  py"    field_spec : dict",
  py"        A Python dict defining ISO8583 specification for this field.",
  py"        See :mod:`iso8583.specs` module for examples.",
  py"",
  py"    Returns",
  py"    -------",
  py"    tuple(bytes, int)",
  py"        Encoded data and length of the encoded ISO8583 field data. The length is either nibbles or bytes.",
  py"",
  py"    Raises",
  py"    ------",
  py"    EncodeError",
  py"        An error encoding ISO8583 bytearray.",
  py"    \"\"\"",
  py"    try:"]

/-- encoder.py, lines 551 to 600. -/
def encoderText12 : List Str := [
  py"        # Odd length nibbles need to be padded because it's not possible to send half a byte",
  py"        if len_count == \"nibbles\" and len(field_data) & 1:",
  py"            data_to_encode = _add_pad_field(field_data, field_spec)",
  py"        else:",
  py"            data_to_encode = field_data",
  py"        encoded_data = binascii.a2b_hex(data_to_encode)",
  py"    except Exception:",
  py"        if len_count == \"nibbles\" and len(data_to_encode) % 2 == 1:",
  py"            raise EncodeError(",
  py"                \"Failed to encode field, odd-length nibble data, specify pad\",",
  py"                doc_dec,",
  py"                doc_enc,",
  py"                field_key,",
  py"            ) from None",
  py"        if len(data_to_encode) % 2 == 1:",
  py"            raise EncodeError(",
  py"                \"Failed to encode field, odd-length hex data\",",
  py"                doc_dec,",
  py"                doc_enc,",
  py"                field_key,",
  py"            ) from None",
  py"        raise EncodeError(",
  py"            \"Failed to encode field, non-hex data\",",
  py"            doc_dec,",
  py"            doc_enc,",
  py"            field_key,",
  py"        ) from None",
  py"",
  py"    # Encoded field length can be in bytes or half bytes (nibbles).",
  py"    # Encoded nibble length directly corresponds to the count of received nibbles.",
  py"    if len_count == \"nibbles\":",
  py"        return (encoded_data, len(field_data))",
  py"    else:",
  py"        return (encoded_data, len(encoded_data))",
  py"",
  py"",
  py"def _add_pad_field(",
  py"    field_data: str,",
  py"    field_spec: _FieldSpecDict,",
  py") -> str:",
  py"    r\"\"\"Pad a BCD or hex field from the left or right.",
  py"",
  py"    Parameters",
  py"    ----------",
  py"    doc_dec : dict",
  py"        Dict containing decoded ISO8583 data",
  py"    field_data : str",
  py"        Field data to encode",
  py"    field_key : str",
  py"        Field ID to pad"]

/-- encoder.py, lines 601 to 650. -/
def encoderText13 : List Str := [
  py"    field_spec : dict",
  py"        A Python dict defining ISO8583 specification for this field.",
  py"        See :mod:`iso8583.specs` module for examples.",
  py"",
  py"    Returns",
  py"    -------",
  py"    str",
  py"        Padded field data",
  py"    \"\"\"",
  py"    pad: str = field_spec.get(\"left_pad\", \"\")[:1]",
  py"    if len(pad) > 0:",
  py"        return pad + field_data",
  py"",
  py"    pad = field_spec.get(\"right_pad\", \"\")[:1]",
  py"    if len(pad) > 0:",
  py"        return field_data + pad",
  py"",
  py"    return field_data",
  py"",
  py"",
  py"def _encode_text_field(",
  py"    doc_dec: DecodedDict,",
  py"    doc_enc: EncodedDict,",
  py"    field_data: str,",
  py"    field_key: str,",
  py"    field_spec: _FieldSpecDict,",
  py"    len_count: str,",
  py") -> Tuple[bytes, int]:",
  py"    r\"\"\"Encode ISO8583 individual field.",
  py"",
  py"    Parameters",
  py"    ----------",
  py"    doc_dec : dict",
  py"        Dict containing decoded ISO8583 data",
  py"    doc_enc : dict",
  py"        Dict containing encoded ISO8583 data",
  py"    field_data : str",
  py"        Field data to encode",
  py"    field_key : str",
  py"        Field ID to be encoded",
  py"    field_spec : dict",
  py"        A Python dict defining ISO8583 specification for this field.",
  py"        See :mod:`iso8583.specs` module for examples.",
  py"",
  py"    Returns",
  py"    -------",
  py"    tuple(bytes, int)",
  py"        Encoded data and length of the encoded ISO8583 field data. The length is either nibbles or bytes.",
  py"",
  py"    Raises"]

/-- encoder.py, lines 651 to 677. -/
def encoderText14 : List Str := [
  py"    ------",
  py"    EncodeError",
  py"        An error encoding ISO8583 bytearray.",
  py"    \"\"\"",
  py"    try:",
  py"        encoded_data = field_data.encode(field_spec[\"data_enc\"])",
  py"    except LookupError:",
  py"        raise EncodeError(",
  py"            \"Failed to encode field, unknown encoding specified\",",
  py"            doc_dec,",
  py"            doc_enc,",
  py"            field_key,",
  py"        ) from None",
  py"    except Exception:",
  py"        raise EncodeError(",
  py"            \"Failed to encode field, invalid data\",",
  py"            doc_dec,",
  py"            doc_enc,",
  py"            field_key,",
  py"        ) from None",
  py"",
  py"    # Encoded field length can be in bytes or half bytes (nibbles)",
  py"    # Encoded nibble length directly corresponds to the count of received nibbles.",
  py"    if len_count == \"nibbles\":",
  py"        return (encoded_data, len(encoded_data) * 2)",
  py"    else:",
  py"        return (encoded_data, len(encoded_data))"]

/-- The lines of encoder.py. -/
def encoderText : List Str :=
  encoderText1 ++ encoderText2 ++ encoderText3 ++ encoderText4 ++ encoderText5 ++ encoderText6 ++ encoderText7 ++ encoderText8 ++ encoderText9 ++ encoderText10 ++ encoderText11 ++ encoderText12 ++ encoderText13 ++ encoderText14

/-- tools.py, lines 1 to 50. -/
def toolsText1 : List Str := [
  py"import sys as _sys",
  py"from typing import Any, Callable, Dict, Generator, Mapping, Optional, TextIO, Union",
  py"",
  py"__all__ = [\"pp\"]",
  py"",
  py"DecodedDict = Mapping[str, str]",
  py"EncodedDict = Mapping[str, Mapping[str, bytes]]",
  py"SpecDict = Mapping[str, Mapping[str, Any]]",
  py"",
  py"",
  py"def pp(",
  py"    doc: Union[DecodedDict, EncodedDict],",
  py"    spec: SpecDict,",
  py"    desc_width: int = 30,",
  py"    stream: Optional[TextIO] = None,",
  py"    line_width: int = 80,",
  py") -> None:",
  py"    r\"\"\"Pretty Print Python dict containing ISO8583 data.",
  py"",
  py"    Parameters",
  py"    ----------",
  py"    doc : dict",
  py"        Dict containing ISO8583 data",
  py"    spec : dict",
  py"        A Python dict defining ISO8583 specification.",
  py"        See iso8583.specs module for examples.",
  py"    desc_width : int, optional",
  py"        Field description width (default 30).",
  py"        Specify 0 to print no descriptions.",
  py"    stream : stream, optional",
  py"        An output stream. The only method used on the stream",
  py"        object is the file protocol's write() method.",
  py"        If not specified, the :func:`iso8583.pp` adopts",
  py"        `sys.stdout`.",
  py"    line_width : int, optional",
  py"        Attempted maximum width of output line (default 80).",
  py"",
  py"    Notes",
  py"    -----",
  py"    For the most correct information to be displayed by :func:`iso8583.pp`",
  py"    it's recommended to call it after :func:`iso8583.encode` or",
  py"    :func:`iso8583.decode`.",
  py"",
  py"    Examples",
  py"    --------",
  py"    >>> import iso8583",
  py"    >>> from iso8583.specs import default_ascii as spec",
  py"    >>> s = b\"02004010100000000000161234567890123456123456840\"",
  py"    >>> doc_dec, doc_enc = iso8583.decode(s, spec)",
  py"    >>> iso8583.pp(doc_dec, spec)"]

/-- tools.py, lines 51 to 100. -/
def toolsText2 : List Str := [
  py"    t   Message Type                  : '0200'",
  py"    p   Bitmap, Primary               : '4010100000000000'",
  py"    2   Primary Account Number (PAN)  : '1234567890123456'",
  py"    12  Time, Local Transaction       : '123456'",
  py"    20  PAN Country Code              : '840'",
  py"    \"\"\"",
  py"",
  py"    desc_width = int(desc_width)",
  py"    line_width = int(line_width)",
  py"",
  py"    if stream is None:",
  py"        stream = _sys.stdout",
  py"",
  py"    if \"h\" in doc and spec[\"h\"][\"max_len\"] > 0:",
  py"        _pp_field(doc, spec, desc_width, stream, line_width, \"h\")",
  py"",
  py"    if \"t\" in doc:",
  py"        _pp_field(doc, spec, desc_width, stream, line_width, \"t\")",
  py"",
  py"    if \"p\" in doc:",
  py"        _pp_field(doc, spec, desc_width, stream, line_width, \"p\")",
  py"",
  py"    for field_key in sorted(",
  py"        [k for k in doc.keys() if isinstance(k, str) and k.isnumeric()], key=int",
  py"    ):",
  py"        _pp_field(doc, spec, desc_width, stream, line_width, field_key)",
  py"",
  py"",
  py"def _pp_field(",
  py"    doc: Union[DecodedDict, EncodedDict],",
  py"    spec: SpecDict,",
  py"    desc_width: int,",
  py"    stream: TextIO,",
  py"    line_width: int,",
  py"    field_key: str,",
  py") -> None:",
  py"    indent = 5",
  py"    stream.write(\"{index:3s}\".format(index=str(field_key)))",
  py"",
  py"    if desc_width > 0:",
  py"        stream.write(",
  py"            \" {desc: <{desc_width}}\".format(",
  py"                desc=spec[field_key][\"desc\"][:desc_width],",
  py"                desc_width=desc_width,",
  py"            )",
  py"        )",
  py"        indent += desc_width + 1",
  py"",
  py"    stream.write(\": \")",
  py""]

/-- tools.py, lines 101 to 150. -/
def toolsText3 : List Str := [
  py"    doc_field = doc[field_key]",
  py"",
  py"    if isinstance(doc_field, dict):",
  py"        field_length = doc_field.get(\"len\", b\"\")",
  py"        if len(field_length) > 0:",
  py"            stream.write(\"{} \".format(repr(field_length)))",
  py"            indent += len(repr(field_length)) + 1",
  py"",
  py"        obj = doc_field.get(\"data\", b\"\")",
  py"    else:",
  py"        obj = doc_field",
  py"",
  py"    rep = repr(obj)",
  py"    if len(rep) + indent > line_width:",
  py"        p = _dispatch.get(type(obj).__repr__, None)",
  py"        if p is not None:",
  py"            p(obj, stream, indent, line_width)",
  py"            stream.write(\"\\n\")",
  py"            return",
  py"",
  py"    stream.write(\"{}\\n\".format(repr(obj)))",
  py"",
  py"",
  py"_dispatch: Dict[Any, Callable[[Any, TextIO, int, int], None]] = {}",
  py"",
  py"",
  py"def _pprint_str(obj: str, stream: TextIO, indent: int, width: int) -> None:",
  py"    if len(obj) <= 1:",
  py"        stream.write(repr(obj))",
  py"        return",
  py"",
  py"    delim = \"\"",
  py"    for rep in _wrap_str_repr(obj, width - indent):",
  py"        stream.write(delim)",
  py"        stream.write(rep)",
  py"        if not delim:",
  py"            delim = \"\\n\" + \" \" * indent",
  py"",
  py"",
  py"_dispatch[str.__repr__] = _pprint_str",
  py"",
  py"",
  py"def _pprint_bytes(obj: bytes, stream: TextIO, indent: int, width: int) -> None:",
  py"    if len(obj) <= 1:",
  py"        stream.write(repr(obj))",
  py"        return",
  py"",
  py"    delim = \"\"",
  py"    for rep in _wrap_bytes_repr(obj, width - indent):",
  py"        stream.write(delim)"]

/-- tools.py, lines 151 to 186. -/
def toolsText4 : List Str := [
  py"        stream.write(rep)",
  py"        if not delim:",
  py"            delim = \"\\n\" + \" \" * indent",
  py"",
  py"",
  py"_dispatch[bytes.__repr__] = _pprint_bytes",
  py"",
  py"",
  py"def _wrap_str_repr(obj: str, width: int) -> Generator[str, None, None]:",
  py"    # because this functions yields entire width of a string at a time,",
  py"    # reduce width by 2 to account for '' around repr(str)",
  py"    if width > 3:",
  py"        width -= 2",
  py"    else:",
  py"        width = 1",
  py"",
  py"    for i in range(0, len(obj), width):",
  py"        yield repr(obj[i : i + width])",
  py"",
  py"",
  py"def _wrap_bytes_repr(obj: bytes, width: int) -> Generator[str, None, None]:",
  py"    current = b\"\"",
  py"",
  py"    for i in range(0, len(obj)):",
  py"        part = obj[i : i + 1]",
  py"        candidate = current + part",
  py"",
  py"        if len(repr(candidate)) > width:",
  py"            if current:",
  py"                yield repr(current)",
  py"            current = part",
  py"        else:",
  py"            current = candidate",
  py"",
  py"    if current:",
  py"        yield repr(current)"]

/-- The lines of tools.py. -/
def toolsText : List Str :=
  toolsText1 ++ toolsText2 ++ toolsText3 ++ toolsText4

/-- specs.py, lines 1 to 50. -/
def specsText1 : List Str := [
  py"r\"\"\"An ISO8583 spec is a Python dictionary. It describes how each field",
  py"needs to be encoded and decoded.",
  py"",
  py"Fields",
  py"------",
  py"Supported fields:",
  py"",
  py"- **h** - Message Header. If a specification does not have a header then",
  py"  set **max_len** to ``0`` to disable it.",
  py"- **t** - Message Type Identifier",
  py"- **p** - Primary Bitmap",
  py"- **1** - Secondary Bitmap",
  py"- **2** .. **128** - Regular fields",
  py"",
  py"Mandatory Field Properties",
  py"--------------------------",
  py"Each field defines these properties:",
  py"",
  py"- **data_enc** - field data encoding type. Set to:",
  py"",
  py"  - ``b`` for binary data. For example, ``ABCD`` hex string is encoded as",
  py"    ``\\xAB\\xCD`` 2-byte value. This encoding type is also used for Binary-Coded",
  py"    Decimal (BCD) because BCD encoding is a subset of hex encoding. For example,",
  py"    ``1234`` numeric string is encoded as ``\\x12\\x34`` 2-byte BCD value.",
  py"  - Or any valid Python encoding. For example, ``ascii`` or",
  py"    ``latin-1`` for ASCII data and ``cp500`` or similar for EBCDIC data.",
  py"    For a list of built-in encodings, see Python standard encodings:",
  py"    https://docs.python.org/3/library/codecs.html#standard-encodings",
  py"",
  py"- **len_enc** - field length encoding type. This is needed for some fields,",
  py"  such as ICC data, that could have binary data but ASCII length.",
  py"  This parameter does not affect fixed-length fields. Set to:",
  py"",
  py"  - ``b`` for binary length. For example, 16 byte long field will have length",
  py"    encoded as ``\\x10``.",
  py"  - ``bcd`` for Binary-Coded Decimal (BCD) length. For example, 16 byte long",
  py"    field will have length encoded as ``\\x16``.",
  py"  - Or any valid Python encoding. For example, ``ascii`` or",
  py"    ``latin-1`` for ASCII length and ``cp500`` or similar for EBCDIC length.",
  py"    For a list of built-in encodings, see Python standard encodings:",
  py"    https://docs.python.org/3/library/codecs.html#standard-encodings",
  py"",
  py"- **len_type** - field length type: fixed, LVAR, LLVAR, etc.",
  py"  Expressed as a number of bytes in field length. For example,",
  py"  ASCII LLVAR length takes up 2 bytes (``b'00' - b'99'``).",
  py"  BCD LLVAR length can take up only 1 byte (``b'\\x00' - b'\\x99'``).",
  py"  For binary lengths lenght type specifies the width of an unsigned integer.",
  py"  Therefore, **len_type** depends on the type of **len_enc** being used.",
  py"  BCD and binary **len_enc** can fit higher length ranges in fewer bytes.",
  py""]

/-- specs.py, lines 51 to 100. -/
def specsText2 : List Str := [
  py"  +--------------+--------------------------------------------------------+",
  py"  |              |                      **len_enc**                       |",
  py"  |              +----------------+----------------------+----------------+",
  py"  | **len_type** | ASCII / EBCDIC | Binary-Coded Decimal |     Binary     |",
  py"  +--------------+----------------+----------------------+----------------+",
  py"  |  Fixed       |          ``0`` |                ``0`` |          ``0`` |",
  py"  +--------------+----------------+----------------------+----------------+",
  py"  |  LVAR        |          ``1`` |                ``1`` |  ``1`` (uint8) |",
  py"  +--------------+----------------+----------------------+----------------+",
  py"  |  LLVAR       |          ``2`` |                ``1`` |  ``1`` (uint8) |",
  py"  +--------------+----------------+----------------------+----------------+",
  py"  |  LLLVAR      |          ``3`` |                ``2`` | ``2`` (uint16) |",
  py"  +--------------+----------------+----------------------+----------------+",
  py"  |  LLLLVAR     |          ``4`` |                ``2`` | ``2`` (uint16) |",
  py"  +--------------+----------------+----------------------+----------------+",
  py"",
  py"- **max_len** - field maximum length in bytes or nibbles. For fixed fields",
  py"  **max_len** defines the length of the field.",
  py"",
  py"- **desc** - field description that's printed in a pretty format.",
  py"  **desc** plays no role in encoding or decoding data. It's safe to omit it",
  py"  from the specifications. However, if omitted :func:`iso8583.pp` may or may",
  py"  not work as expected.",
  py"",
  py"Optional Field Properties",
  py"-------------------------",
  py"Each field may define these additional properties as needed:",
  py"",
  py"- **len_count** - specifies if field length is measured",
  py"  in bytes or nibbles (half bytes). This parameter affects **max_len**.",
  py"",
  py"  - Use ``bytes`` (default) to measure field length in bytes.",
  py"  - Use ``nibbles`` to measure field length if nibbles (half bytes).",
  py"",
  py"- **left_pad** - specifies pad character to be added/removed on the left side",
  py"  of an odd binary or BCD field without this character being included into",
  py"  field length. Valid pad character is ``0-9`` for BCD fields and ``0-F``",
  py"  for binary fields.",
  py"",
  py"  This option is used only when **data_enc** is set to ``b`` (binary/BCD)",
  py"  and **len_count** is set to ``nibbles``. This option is meant for",
  py"  specifications that require odd length binary or BCD data.",
  py"",
  py"- **right_pad** - same as **left_pad** but it pads on the right side.",
  py"  Specify either **left_pad** or **right_pad**. If both are specified at",
  py"  the same time then **left_pad** takes precedence.",
  py"",
  py"Sample Field Specifications",
  py"---------------------------",
  py"Binary primary bitmap."]

/-- specs.py, lines 101 to 150. -/
def specsText3 : List Str := [
  py"Length encoding makes no difference, since the field has no length::",
  py"",
  py"    specification[\"p\"] = {",
  py"        \"data_enc\": \"b\",",
  py"        \"len_enc\": \"ascii\",",
  py"        \"len_type\": 0,",
  py"        \"max_len\": 8,",
  py"        \"desc\": \"Binary bitmap, e.g. \\x12\\x34\\x56\\x78\\x90\\xAB\\xCD\\xEF\"",
  py"    }",
  py"",
  py"Hex string primary bitmap.",
  py"Length encoding makes no difference, since the field has no length::",
  py"",
  py"    specification[\"p\"] = {",
  py"        \"data_enc\": \"ascii\",",
  py"        \"len_enc\": \"ascii\",",
  py"        \"len_type\": 0,",
  py"        \"max_len\": 16,",
  py"        \"desc\": \"Hex string bitmap, e.g 1234567890ABCDEF\"",
  py"    }",
  py"",
  py"Field 2, a 10-byte binary or BCD fixed length field.",
  py"Length encoding makes no difference, since the field has no length::",
  py"",
  py"    specification[\"2\"] = {",
  py"        \"data_enc\": \"b\",",
  py"        \"len_enc\": \"ascii\",",
  py"        \"len_type\": 0,",
  py"        \"max_len\": 10,",
  py"        \"desc\": \"Binary or BCD fixed field\"",
  py"    }",
  py"",
  py"Field 3, an ASCII LLVAR field of maximum 20 bytes::",
  py"",
  py"    specification[\"3\"] = {",
  py"        \"data_enc\": \"ascii\",",
  py"        \"len_enc\": \"ascii\",",
  py"        \"len_type\": 2,",
  py"        \"max_len\": 20,",
  py"        \"desc\": \"ASCII LLVAR field\"",
  py"    }",
  py"",
  py"Field 4, an EBCDIC LLLVAR field of maximum 150 bytes::",
  py"",
  py"    specification[\"4\"] = {",
  py"        \"data_enc\": \"cp500\",",
  py"        \"len_enc\": \"cp500\",",
  py"        \"len_type\": 3,",
  py"        \"max_len\": 150,",
  py"        \"desc\": \"EBCDIC LLLVAR field\""]

/-- specs.py, lines 151 to 200. -/
def specsText4 : List Str := [
  py"    }",
  py"",
  py"Field 5, a binary or BCD LLVAR field measured in nibbles and left-padded with 0.",
  py"The field is maximum 20 nibbles::",
  py"",
  py"    specification[\"5\"] = {",
  py"        \"data_enc\": \"b\",",
  py"        \"len_enc\": \"bcd\",",
  py"        \"len_type\": 1,",
  py"        \"len_count\": \"nibbles\",",
  py"        \"left_pad\": \"0\",",
  py"        \"max_len\": 20,",
  py"        \"desc\": \"Binary or BCD LLVAR field measured in nibbles, e.g. \\x03\\x01\\x11\"",
  py"    }",
  py"",
  py"Field 6, a 3-nibble binary or BCD fixed field right-padded with 0.",
  py"Length encoding makes no difference, since the field has no length::",
  py"",
  py"    specification[\"6\"] = {",
  py"        \"data_enc\": \"b\",",
  py"        \"len_enc\": \"ascii\",",
  py"        \"len_type\": 0,",
  py"        \"len_count\": \"nibbles\",",
  py"        \"right_pad\": \"0\",",
  py"        \"max_len\": 3,",
  py"        \"desc\": \"Binary or BCD fixed field measured in nibbles, e.g. \\x11\\x10\"",
  py"    }",
  py"",
  py"Field 7, a 16-byte ascii field with binary length::",
  py"",
  py"    specification[\"2\"] = {",
  py"        \"data_enc\": \"ascii\",",
  py"        \"len_enc\": \"b\",",
  py"        \"len_type\": 1,",
  py"        \"max_len\": 16,",
  py"        \"desc\": \"ASCII field with binary length, e.g. \\x101234567890123456\"",
  py"    }",
  py"",
  py"Sample Message Specifications",
  py"-----------------------------",
  py"",
  py"ASCII/Binary",
  py"~~~~~~~~~~~~",
  py"",
  py"Bitmaps, MACs, PIN, and ICC data are in binary::",
  py"",
  py"    default = {",
  py"    \"h\":   {\"data_enc\": \"ascii\", \"len_enc\": \"ascii\", \"len_type\": 0, \"max_len\": 0,   \"desc\": \"Message Header\"},",
  py"    \"t\":   {\"data_enc\": \"ascii\", \"len_enc\": \"ascii\", \"len_type\": 0, \"max_len\": 4,   \"desc\": \"Message Type\"},",
  py"    \"p\":   {\"data_enc\": \"b\",     \"len_enc\": \"ascii\", \"len_type\": 0, \"max_len\": 8,   \"desc\": \"Bitmap, Primary\"},"]

/-- specs.py, lines 201 to 250. -/
def specsText5 : List Str := [
  py"    \"1\":   {\"data_enc\": \"b\",     \"len_enc\": \"ascii\", \"len_type\": 0, \"max_len\": 8,   \"desc\": \"Bitmap, Secondary\"},",
  py"    \"2\":   {\"data_enc\": \"ascii\", \"len_enc\": \"ascii\", \"len_type\": 2, \"max_len\": 19,  \"desc\": \"Primary Account Number (PAN)\"},",
  py"    \"3\":   {\"data_enc\": \"ascii\", \"len_enc\": \"ascii\", \"len_type\": 0, \"max_len\": 6,   \"desc\": \"Processing Code\"},",
  py"    \"4\":   {\"data_enc\": \"ascii\", \"len_enc\": \"ascii\", \"len_type\": 0, \"max_len\": 12,  \"desc\": \"Amount, Transaction\"},",
  py"    \"5\":   {\"data_enc\": \"ascii\", \"len_enc\": \"ascii\", \"len_type\": 0, \"max_len\": 12,  \"desc\": \"Amount, Settlement\"},",
  py"    \"6\":   {\"data_enc\": \"ascii\", \"len_enc\": \"ascii\", \"len_type\": 0, \"max_len\": 12,  \"desc\": \"Amount, Cardholder Billing\"},",
  py"    \"7\":   {\"data_enc\": \"ascii\", \"len_enc\": \"ascii\", \"len_type\": 0, \"max_len\": 10,  \"desc\": \"Transmission Date and Time\"},",
  py"    \"8\":   {\"data_enc\": \"ascii\", \"len_enc\": \"ascii\", \"len_type\": 0, \"max_len\": 8,   \"desc\": \"Amount, Cardholder Billing Fee\"},",
  py"    \"9\":   {\"data_enc\": \"ascii\", \"len_enc\": \"ascii\", \"len_type\": 0, \"max_len\": 8,   \"desc\": \"Conversion Rate, Settlement\"},",
  py"    \"10\":  {\"data_enc\": \"ascii\", \"len_enc\": \"ascii\", \"len_type\": 0, \"max_len\": 8,   \"desc\": \"Conversion Rate, Cardholder Billing\"},",
  py"    \"11\":  {\"data_enc\": \"ascii\", \"len_enc\": \"ascii\", \"len_type\": 0, \"max_len\": 6,   \"desc\": \"System Trace Audit Number\"},",
  py"    \"12\":  {\"data_enc\": \"ascii\", \"len_enc\": \"ascii\", \"len_type\": 0, \"max_len\": 6,   \"desc\": \"Time, Local Transaction\"},",
  py"    \"13\":  {\"data_enc\": \"ascii\", \"len_enc\": \"ascii\", \"len_type\": 0, \"max_len\": 4,   \"desc\": \"Date, Local Transaction\"},",
  py"    \"14\":  {\"data_enc\": \"ascii\", \"len_enc\": \"ascii\", \"len_type\": 0, \"max_len\": 4,   \"desc\": \"Date, Expiration\"},",
  py"    \"15\":  {\"data_enc\": \"ascii\", \"len_enc\": \"ascii\", \"len_type\": 0, \"max_len\": 4,   \"desc\": \"Date, Settlement\"},",
  py"    \"16\":  {\"data_enc\": \"ascii\", \"len_enc\": \"ascii\", \"len_type\": 0, \"max_len\": 4,   \"desc\": \"Date, Conversion\"},",
  py"    \"17\":  {\"data_enc\": \"ascii\", \"len_enc\": \"ascii\", \"len_type\": 0, \"max_len\": 4,   \"desc\": \"Date, Capture\"},",
  py"    \"18\":  {\"data_enc\": \"ascii\", \"len_enc\": \"ascii\", \"len_type\": 0, \"max_len\": 4,   \"desc\": \"Merchant Type\"},",
  py"    \"19\":  {\"data_enc\": \"ascii\", \"len_enc\": \"ascii\", \"len_type\": 0, \"max_len\": 3,   \"desc\": \"Acquiring Institution Country Code\"},",
  py"    \"20\":  {\"data_enc\": \"ascii\", \"len_enc\": \"ascii\", \"len_type\": 0, \"max_len\": 3,   \"desc\": \"PAN Country Code\"},",
  py"    \"21\":  {\"data_enc\": \"ascii\", \"len_enc\": \"ascii\", \"len_type\": 0, \"max_len\": 3,   \"desc\": \"Forwarding Institution Country Code\"},",
  py"    \"22\":  {\"data_enc\": \"ascii\", \"len_enc\": \"ascii\", \"len_type\": 0, \"max_len\": 3,   \"desc\": \"Point-of-Service Entry Mode\"},",
  py"    \"23\":  {\"data_enc\": \"ascii\", \"len_enc\": \"ascii\", \"len_type\": 0, \"max_len\": 3,   \"desc\": \"PAN Sequence Number\"},",
  py"    \"24\":  {\"data_enc\": \"ascii\", \"len_enc\": \"ascii\", \"len_type\": 0, \"max_len\": 3,   \"desc\": \"Network International ID (NII)\"},",
  py"    \"25\":  {\"data_enc\": \"ascii\", \"len_enc\": \"ascii\", \"len_type\": 0, \"max_len\": 2,   \"desc\": \"Point-of-Service Condition Code\"},",
  py"    \"26\":  {\"data_enc\": \"ascii\", \"len_enc\": \"ascii\", \"len_type\": 0, \"max_len\": 2,   \"desc\": \"Point-of-Service Capture Code\"},",
  py"    \"27\":  {\"data_enc\": \"ascii\", \"len_enc\": \"ascii\", \"len_type\": 0, \"max_len\": 1,   \"desc\": \"Authorizing ID Response Length\"},",
  py"    \"28\":  {\"data_enc\": \"ascii\", \"len_enc\": \"ascii\", \"len_type\": 0, \"max_len\": 9,   \"desc\": \"Amount, Transaction Fee\"},",
  py"    \"29\":  {\"data_enc\": \"ascii\", \"len_enc\": \"ascii\", \"len_type\": 0, \"max_len\": 9,   \"desc\": \"Amount, Settlement Fee\"},",
  py"    \"30\":  {\"data_enc\": \"ascii\", \"len_enc\": \"ascii\", \"len_type\": 0, \"max_len\": 9,   \"desc\": \"Amount, Transaction Processing Fee\"},",
  py"    \"31\":  {\"data_enc\": \"ascii\", \"len_enc\": \"ascii\", \"len_type\": 0, \"max_len\": 9,   \"desc\": \"Amount, Settlement Processing Fee\"},",
  py"    \"32\":  {\"data_enc\": \"ascii\", \"len_enc\": \"ascii\", \"len_type\": 2, \"max_len\": 11,  \"desc\": \"Acquiring Institution ID Code\"},",
  py"    \"33\":  {\"data_enc\": \"ascii\", \"len_enc\": \"ascii\", \"len_type\": 2, \"max_len\": 11,  \"desc\": \"Forwarding Institution ID Code\"},",
  py"    \"34\":  {\"data_enc\": \"ascii\", \"len_enc\": \"ascii\", \"len_type\": 2, \"max_len\": 28,  \"desc\": \"Primary Account Number, Extended\"},",
  py"    \"35\":  {\"data_enc\": \"ascii\", \"len_enc\": \"ascii\", \"len_type\": 2, \"max_len\": 37,  \"desc\": \"Track 2 Data\"},",
  py"    \"36\":  {\"data_enc\": \"ascii\", \"len_enc\": \"ascii\", \"len_type\": 3, \"max_len\": 104, \"desc\": \"Track 3 Data\"},",
  py"    \"37\":  {\"data_enc\": \"ascii\", \"len_enc\": \"ascii\", \"len_type\": 0, \"max_len\": 12,  \"desc\": \"Retrieval Reference Number\"},",
  py"    \"38\":  {\"data_enc\": \"ascii\", \"len_enc\": \"ascii\", \"len_type\": 0, \"max_len\": 6,   \"desc\": \"Authorization ID Response\"},",
  py"    \"39\":  {\"data_enc\": \"ascii\", \"len_enc\": \"ascii\", \"len_type\": 0, \"max_len\": 2,   \"desc\": \"Response Code\"},",
  py"    \"40\":  {\"data_enc\": \"ascii\", \"len_enc\": \"ascii\", \"len_type\": 0, \"max_len\": 3,   \"desc\": \"Service Restriction Code\"},",
  py"    \"41\":  {\"data_enc\": \"ascii\", \"len_enc\": \"ascii\", \"len_type\": 0, \"max_len\": 8,   \"desc\": \"Card Acceptor Terminal ID\"},",
  py"    \"42\":  {\"data_enc\": \"ascii\", \"len_enc\": \"ascii\", \"len_type\": 0, \"max_len\": 15,  \"desc\": \"Card Acceptor ID Code\"},",
  py"    \"43\":  {\"data_enc\": \"ascii\", \"len_enc\": \"ascii\", \"len_type\": 0, \"max_len\": 40,  \"desc\": \"Card Acceptor Name/Location\"},",
  py"    \"44\":  {\"data_enc\": \"ascii\", \"len_enc\": \"ascii\", \"len_type\": 2, \"max_len\": 25,  \"desc\": \"Additional Response Data\"},",
  py"    \"45\":  {\"data_enc\": \"ascii\", \"len_enc\": \"ascii\", \"len_type\": 2, \"max_len\": 76,  \"desc\": \"Track 1 Data\"},",
  py"    \"46\":  {\"data_enc\": \"ascii\", \"len_enc\": \"ascii\", \"len_type\": 3, \"max_len\": 999, \"desc\": \"Additional Data - ISO\"},",
  py"    \"47\":  {\"data_enc\": \"ascii\", \"len_enc\": \"ascii\", \"len_type\": 3, \"max_len\": 999, \"desc\": \"Additional Data - National\"},",
  py"    \"48\":  {\"data_enc\": \"ascii\", \"len_enc\": \"ascii\", \"len_type\": 3, \"max_len\": 999, \"desc\": \"Additional Data - Private\"},",
  py"    \"49\":  {\"data_enc\": \"ascii\", \"len_enc\": \"ascii\", \"len_type\": 0, \"max_len\": 3,   \"desc\": \"Currency Code, Transaction\"},",
  py"    \"50\":  {\"data_enc\": \"ascii\", \"len_enc\": \"ascii\", \"len_type\": 0, \"max_len\": 3,   \"desc\": \"Currency Code, Settlement\"},"]

/-- specs.py, lines 251 to 300. -/
def specsText6 : List Str := [
  py"    \"51\":  {\"data_enc\": \"ascii\", \"len_enc\": \"ascii\", \"len_type\": 0, \"max_len\": 3,   \"desc\": \"Currency Code, Cardholder Billing\"},",
  py"    \"52\":  {\"data_enc\": \"b\",     \"len_enc\": \"ascii\", \"len_type\": 0, \"max_len\": 8,   \"desc\": \"PIN\"},",
  py"    \"53\":  {\"data_enc\": \"ascii\", \"len_enc\": \"ascii\", \"len_type\": 0, \"max_len\": 16,  \"desc\": \"Security-Related Control Information\"},",
  py"    \"54\":  {\"data_enc\": \"ascii\", \"len_enc\": \"ascii\", \"len_type\": 3, \"max_len\": 240, \"desc\": \"Additional Amounts\"},",
  py"    \"55\":  {\"data_enc\": \"b\",     \"len_enc\": \"ascii\", \"len_type\": 3, \"max_len\": 255, \"desc\": \"ICC data\"},",
  py"    \"56\":  {\"data_enc\": \"ascii\", \"len_enc\": \"ascii\", \"len_type\": 3, \"max_len\": 999, \"desc\": \"Reserved ISO\"},",
  py"    \"57\":  {\"data_enc\": \"ascii\", \"len_enc\": \"ascii\", \"len_type\": 3, \"max_len\": 999, \"desc\": \"Reserved National\"},",
  py"    \"58\":  {\"data_enc\": \"ascii\", \"len_enc\": \"ascii\", \"len_type\": 3, \"max_len\": 999, \"desc\": \"Reserved National\"},",
  py"    \"59\":  {\"data_enc\": \"ascii\", \"len_enc\": \"ascii\", \"len_type\": 3, \"max_len\": 999, \"desc\": \"Reserved National\"},",
  py"    \"60\":  {\"data_enc\": \"ascii\", \"len_enc\": \"ascii\", \"len_type\": 3, \"max_len\": 999, \"desc\": \"Reserved National\"},",
  py"    \"61\":  {\"data_enc\": \"ascii\", \"len_enc\": \"ascii\", \"len_type\": 3, \"max_len\": 999, \"desc\": \"Reserved Private\"},",
  py"    \"62\":  {\"data_enc\": \"ascii\", \"len_enc\": \"ascii\", \"len_type\": 3, \"max_len\": 999, \"desc\": \"Reserved Private\"},",
  py"    \"63\":  {\"data_enc\": \"ascii\", \"len_enc\": \"ascii\", \"len_type\": 3, \"max_len\": 999, \"desc\": \"Reserved Private\"},",
  py"    \"64\":  {\"data_enc\": \"b\",     \"len_enc\": \"ascii\", \"len_type\": 0, \"max_len\": 8,   \"desc\": \"MAC\"},",
  py"    \"65\":  {\"data_enc\": \"b\",     \"len_enc\": \"ascii\", \"len_type\": 0, \"max_len\": 8,   \"desc\": \"Bitmap, Extended\"},",
  py"    \"66\":  {\"data_enc\": \"ascii\", \"len_enc\": \"ascii\", \"len_type\": 0, \"max_len\": 1,   \"desc\": \"Settlement Code\"},",
  py"    \"67\":  {\"data_enc\": \"ascii\", \"len_enc\": \"ascii\", \"len_type\": 0, \"max_len\": 2,   \"desc\": \"Extended Payment Code\"},",
  py"    \"68\":  {\"data_enc\": \"ascii\", \"len_enc\": \"ascii\", \"len_type\": 0, \"max_len\": 3,   \"desc\": \"Receiving Institution Country Code\"},",
  py"    \"69\":  {\"data_enc\": \"ascii\", \"len_enc\": \"ascii\", \"len_type\": 0, \"max_len\": 3,   \"desc\": \"Settlement Institution Country Code\"},",
  py"    \"70\":  {\"data_enc\": \"ascii\", \"len_enc\": \"ascii\", \"len_type\": 0, \"max_len\": 3,   \"desc\": \"Network Management Information Code\"},",
  py"    \"71\":  {\"data_enc\": \"ascii\", \"len_enc\": \"ascii\", \"len_type\": 0, \"max_len\": 4,   \"desc\": \"Message Number\"},",
  py"    \"72\":  {\"data_enc\": \"ascii\", \"len_enc\": \"ascii\", \"len_type\": 0, \"max_len\": 4,   \"desc\": \"Message Number, Last\"},",
  py"    \"73\":  {\"data_enc\": \"ascii\", \"len_enc\": \"ascii\", \"len_type\": 0, \"max_len\": 6,   \"desc\": \"Date, Action\"},",
  py"    \"74\":  {\"data_enc\": \"ascii\", \"len_enc\": \"ascii\", \"len_type\": 0, \"max_len\": 10,  \"desc\": \"Credits, Number\"},",
  py"    \"75\":  {\"data_enc\": \"ascii\", \"len_enc\": \"ascii\", \"len_type\": 0, \"max_len\": 10,  \"desc\": \"Credits, Reversal Number\"},",
  py"    \"76\":  {\"data_enc\": \"ascii\", \"len_enc\": \"ascii\", \"len_type\": 0, \"max_len\": 10,  \"desc\": \"Debits, Number\"},",
  py"    \"77\":  {\"data_enc\": \"ascii\", \"len_enc\": \"ascii\", \"len_type\": 0, \"max_len\": 10,  \"desc\": \"Debits, Reversal Number\"},",
  py"    \"78\":  {\"data_enc\": \"ascii\", \"len_enc\": \"ascii\", \"len_type\": 0, \"max_len\": 10,  \"desc\": \"Transfer, Number\"},",
  py"    \"79\":  {\"data_enc\": \"ascii\", \"len_enc\": \"ascii\", \"len_type\": 0, \"max_len\": 10,  \"desc\": \"Transfer, Reversal Number\"},",
  py"    \"80\":  {\"data_enc\": \"ascii\", \"len_enc\": \"ascii\", \"len_type\": 0, \"max_len\": 10,  \"desc\": \"Inquiries, Number\"},",
  py"    \"81\":  {\"data_enc\": \"ascii\", \"len_enc\": \"ascii\", \"len_type\": 0, \"max_len\": 10,  \"desc\": \"Authorizations, Number\"},",
  py"    \"82\":  {\"data_enc\": \"ascii\", \"len_enc\": \"ascii\", \"len_type\": 0, \"max_len\": 12,  \"desc\": \"Credits, Processing Fee Amount\"},",
  py"    \"83\":  {\"data_enc\": \"ascii\", \"len_enc\": \"ascii\", \"len_type\": 0, \"max_len\": 12,  \"desc\": \"Credits, Transaction Fee Amount\"},",
  py"    \"84\":  {\"data_enc\": \"ascii\", \"len_enc\": \"ascii\", \"len_type\": 0, \"max_len\": 12,  \"desc\": \"Debits, Processing Fee Amount\"},",
  py"    \"85\":  {\"data_enc\": \"ascii\", \"len_enc\": \"ascii\", \"len_type\": 0, \"max_len\": 12,  \"desc\": \"Debits, Transaction Fee Amount\"},",
  py"    \"86\":  {\"data_enc\": \"ascii\", \"len_enc\": \"ascii\", \"len_type\": 0, \"max_len\": 16,  \"desc\": \"Credits, Amount\"},",
  py"    \"87\":  {\"data_enc\": \"ascii\", \"len_enc\": \"ascii\", \"len_type\": 0, \"max_len\": 16,  \"desc\": \"Credits, Reversal Amount\"},",
  py"    \"88\":  {\"data_enc\": \"ascii\", \"len_enc\": \"ascii\", \"len_type\": 0, \"max_len\": 16,  \"desc\": \"Debits, Amount\"},",
  py"    \"89\":  {\"data_enc\": \"ascii\", \"len_enc\": \"ascii\", \"len_type\": 0, \"max_len\": 16,  \"desc\": \"Debits, Reversal Amount\"},",
  py"    \"90\":  {\"data_enc\": \"ascii\", \"len_enc\": \"ascii\", \"len_type\": 0, \"max_len\": 42,  \"desc\": \"Original Data Elements\"},",
  py"    \"91\":  {\"data_enc\": \"ascii\", \"len_enc\": \"ascii\", \"len_type\": 0, \"max_len\": 1,   \"desc\": \"File Update Code\"},",
  py"    \"92\":  {\"data_enc\": \"ascii\", \"len_enc\": \"ascii\", \"len_type\": 0, \"max_len\": 2,   \"desc\": \"File Security Code\"},",
  py"    \"93\":  {\"data_enc\": \"ascii\", \"len_enc\": \"ascii\", \"len_type\": 0, \"max_len\": 5,   \"desc\": \"Response Indicator\"},",
  py"    \"94\":  {\"data_enc\": \"ascii\", \"len_enc\": \"ascii\", \"len_type\": 0, \"max_len\": 7,   \"desc\": \"Service Indicator\"},",
  py"    \"95\":  {\"data_enc\": \"ascii\", \"len_enc\": \"ascii\", \"len_type\": 0, \"max_len\": 42,  \"desc\": \"Replacement Amounts\"},",
  py"    \"96\":  {\"data_enc\": \"b\",     \"len_enc\": \"ascii\", \"len_type\": 0, \"max_len\": 8,   \"desc\": \"Message Security Code\"},",
  py"    \"97\":  {\"data_enc\": \"ascii\", \"len_enc\": \"ascii\", \"len_type\": 0, \"max_len\": 17,  \"desc\": \"Amount, Net Settlement\"},",
  py"    \"98\":  {\"data_enc\": \"ascii\", \"len_enc\": \"ascii\", \"len_type\": 0, \"max_len\": 25,  \"desc\": \"Payee\"},",
  py"    \"99\":  {\"data_enc\": \"ascii\", \"len_enc\": \"ascii\", \"len_type\": 2, \"max_len\": 11,  \"desc\": \"Settlement Institution ID Code\"},",
  py"    \"100\": {\"data_enc\": \"ascii\", \"len_enc\": \"ascii\", \"len_type\": 2, \"max_len\": 11,  \"desc\": \"Receiving Institution ID Code\"},"]

/-- specs.py, lines 301 to 350. -/
def specsText7 : List Str := [
  py"    \"101\": {\"data_enc\": \"ascii\", \"len_enc\": \"ascii\", \"len_type\": 2, \"max_len\": 17,  \"desc\": \"File Name\"},",
  py"    \"102\": {\"data_enc\": \"ascii\", \"len_enc\": \"ascii\", \"len_type\": 2, \"max_len\": 28,  \"desc\": \"Account ID 1\"},",
  py"    \"103\": {\"data_enc\": \"ascii\", \"len_enc\": \"ascii\", \"len_type\": 2, \"max_len\": 28,  \"desc\": \"Account ID 2\"},",
  py"    \"104\": {\"data_enc\": \"ascii\", \"len_enc\": \"ascii\", \"len_type\": 3, \"max_len\": 100, \"desc\": \"Transaction Description\"},",
  py"    \"105\": {\"data_enc\": \"ascii\", \"len_enc\": \"ascii\", \"len_type\": 3, \"max_len\": 999, \"desc\": \"Reserved for ISO Use\"},",
  py"    \"106\": {\"data_enc\": \"ascii\", \"len_enc\": \"ascii\", \"len_type\": 3, \"max_len\": 999, \"desc\": \"Reserved for ISO Use\"},",
  py"    \"107\": {\"data_enc\": \"ascii\", \"len_enc\": \"ascii\", \"len_type\": 3, \"max_len\": 999, \"desc\": \"Reserved for ISO Use\"},",
  py"    \"108\": {\"data_enc\": \"ascii\", \"len_enc\": \"ascii\", \"len_type\": 3, \"max_len\": 999, \"desc\": \"Reserved for ISO Use\"},",
  py"    \"109\": {\"data_enc\": \"ascii\", \"len_enc\": \"ascii\", \"len_type\": 3, \"max_len\": 999, \"desc\": \"Reserved for ISO Use\"},",
  py"    \"110\": {\"data_enc\": \"ascii\", \"len_enc\": \"ascii\", \"len_type\": 3, \"max_len\": 999, \"desc\": \"Reserved for ISO Use\"},",
  py"    \"111\": {\"data_enc\": \"ascii\", \"len_enc\": \"ascii\", \"len_type\": 3, \"max_len\": 999, \"desc\": \"Reserved for ISO Use\"},",
  py"    \"112\": {\"data_enc\": \"ascii\", \"len_enc\": \"ascii\", \"len_type\": 3, \"max_len\": 999, \"desc\": \"Reserved for National Use\"},",
  py"    \"113\": {\"data_enc\": \"ascii\", \"len_enc\": \"ascii\", \"len_type\": 3, \"max_len\": 999, \"desc\": \"Reserved for National Use\"},",
  py"    \"114\": {\"data_enc\": \"ascii\", \"len_enc\": \"ascii\", \"len_type\": 3, \"max_len\": 999, \"desc\": \"Reserved for National Use\"},",
  py"    \"115\": {\"data_enc\": \"ascii\", \"len_enc\": \"ascii\", \"len_type\": 3, \"max_len\": 999, \"desc\": \"Reserved for National Use\"},",
  py"    \"116\": {\"data_enc\": \"ascii\", \"len_enc\": \"ascii\", \"len_type\": 3, \"max_len\": 999, \"desc\": \"Reserved for National Use\"},",
  py"    \"117\": {\"data_enc\": \"ascii\", \"len_enc\": \"ascii\", \"len_type\": 3, \"max_len\": 999, \"desc\": \"Reserved for National Use\"},",
  py"    \"118\": {\"data_enc\": \"ascii\", \"len_enc\": \"ascii\", \"len_type\": 3, \"max_len\": 999, \"desc\": \"Reserved for National Use\"},",
  py"    \"119\": {\"data_enc\": \"ascii\", \"len_enc\": \"ascii\", \"len_type\": 3, \"max_len\": 999, \"desc\": \"Reserved for National Use\"},",
  py"    \"120\": {\"data_enc\": \"ascii\", \"len_enc\": \"ascii\", \"len_type\": 3, \"max_len\": 999, \"desc\": \"Reserved for Private Use\"},",
  py"    \"121\": {\"data_enc\": \"ascii\", \"len_enc\": \"ascii\", \"len_type\": 3, \"max_len\": 999, \"desc\": \"Reserved for Private Use\"},",
  py"    \"122\": {\"data_enc\": \"ascii\", \"len_enc\": \"ascii\", \"len_type\": 3, \"max_len\": 999, \"desc\": \"Reserved for Private Use\"},",
  py"    \"123\": {\"data_enc\": \"ascii\", \"len_enc\": \"ascii\", \"len_type\": 3, \"max_len\": 999, \"desc\": \"Reserved for Private Use\"},",
  py"    \"124\": {\"data_enc\": \"ascii\", \"len_enc\": \"ascii\", \"len_type\": 3, \"max_len\": 999, \"desc\": \"Reserved for Private Use\"},",
  py"    \"125\": {\"data_enc\": \"ascii\", \"len_enc\": \"ascii\", \"len_type\": 3, \"max_len\": 999, \"desc\": \"Reserved for Private Use\"},",
  py"    \"126\": {\"data_enc\": \"ascii\", \"len_enc\": \"ascii\", \"len_type\": 3, \"max_len\": 999, \"desc\": \"Reserved for Private Use\"},",
  py"    \"127\": {\"data_enc\": \"ascii\", \"len_enc\": \"ascii\", \"len_type\": 3, \"max_len\": 999, \"desc\": \"Reserved for Private Use\"},",
  py"    \"128\": {\"data_enc\": \"b\",     \"len_enc\": \"ascii\", \"len_type\": 0, \"max_len\": 8,   \"desc\": \"MAC\"}",
  py"    }",
  py"",
  py"ASCII",
  py"~~~~~",
  py"",
  py"All fields are in ASCII::",
  py"",
  py"    default_ascii = {",
  py"    \"h\":   {\"data_enc\": \"ascii\", \"len_enc\": \"ascii\", \"len_type\": 0, \"max_len\": 0,   \"desc\": \"Message Header\"},",
  py"    \"t\":   {\"data_enc\": \"ascii\", \"len_enc\": \"ascii\", \"len_type\": 0, \"max_len\": 4,   \"desc\": \"Message Type\"},",
  py"    \"p\":   {\"data_enc\": \"ascii\", \"len_enc\": \"ascii\", \"len_type\": 0, \"max_len\": 16,  \"desc\": \"Bitmap, Primary\"},",
  py"    \"1\":   {\"data_enc\": \"ascii\", \"len_enc\": \"ascii\", \"len_type\": 0, \"max_len\": 16,  \"desc\": \"Bitmap, Secondary\"},",
  py"    \"2\":   {\"data_enc\": \"ascii\", \"len_enc\": \"ascii\", \"len_type\": 2, \"max_len\": 19,  \"desc\": \"Primary Account Number (PAN)\"},",
  py"    \"3\":   {\"data_enc\": \"ascii\", \"len_enc\": \"ascii\", \"len_type\": 0, \"max_len\": 6,   \"desc\": \"Processing Code\"},",
  py"    \"4\":   {\"data_enc\": \"ascii\", \"len_enc\": \"ascii\", \"len_type\": 0, \"max_len\": 12,  \"desc\": \"Amount, Transaction\"},",
  py"    \"5\":   {\"data_enc\": \"ascii\", \"len_enc\": \"ascii\", \"len_type\": 0, \"max_len\": 12,  \"desc\": \"Amount, Settlement\"},",
  py"    \"6\":   {\"data_enc\": \"ascii\", \"len_enc\": \"ascii\", \"len_type\": 0, \"max_len\": 12,  \"desc\": \"Amount, Cardholder Billing\"},",
  py"    \"7\":   {\"data_enc\": \"ascii\", \"len_enc\": \"ascii\", \"len_type\": 0, \"max_len\": 10,  \"desc\": \"Transmission Date and Time\"},",
  py"    \"8\":   {\"data_enc\": \"ascii\", \"len_enc\": \"ascii\", \"len_type\": 0, \"max_len\": 8,   \"desc\": \"Amount, Cardholder Billing Fee\"},",
  py"    \"9\":   {\"data_enc\": \"ascii\", \"len_enc\": \"ascii\", \"len_type\": 0, \"max_len\": 8,   \"desc\": \"Conversion Rate, Settlement\"},",
  py"    \"10\":  {\"data_enc\": \"ascii\", \"len_enc\": \"ascii\", \"len_type\": 0, \"max_len\": 8,   \"desc\": \"Conversion Rate, Cardholder Billing\"},",
  py"    \"11\":  {\"data_enc\": \"ascii\", \"len_enc\": \"ascii\", \"len_type\": 0, \"max_len\": 6,   \"desc\": \"System Trace Audit Number\"},"]

/-- specs.py, lines 351 to 400. -/
def specsText8 : List Str := [
  py"    \"12\":  {\"data_enc\": \"ascii\", \"len_enc\": \"ascii\", \"len_type\": 0, \"max_len\": 6,   \"desc\": \"Time, Local Transaction\"},",
  py"    \"13\":  {\"data_enc\": \"ascii\", \"len_enc\": \"ascii\", \"len_type\": 0, \"max_len\": 4,   \"desc\": \"Date, Local Transaction\"},",
  py"    \"14\":  {\"data_enc\": \"ascii\", \"len_enc\": \"ascii\", \"len_type\": 0, \"max_len\": 4,   \"desc\": \"Date, Expiration\"},",
  py"    \"15\":  {\"data_enc\": \"ascii\", \"len_enc\": \"ascii\", \"len_type\": 0, \"max_len\": 4,   \"desc\": \"Date, Settlement\"},",
  py"    \"16\":  {\"data_enc\": \"ascii\", \"len_enc\": \"ascii\", \"len_type\": 0, \"max_len\": 4,   \"desc\": \"Date, Conversion\"},",
  py"    \"17\":  {\"data_enc\": \"ascii\", \"len_enc\": \"ascii\", \"len_type\": 0, \"max_len\": 4,   \"desc\": \"Date, Capture\"},",
  py"    \"18\":  {\"data_enc\": \"ascii\", \"len_enc\": \"ascii\", \"len_type\": 0, \"max_len\": 4,   \"desc\": \"Merchant Type\"},",
  py"    \"19\":  {\"data_enc\": \"ascii\", \"len_enc\": \"ascii\", \"len_type\": 0, \"max_len\": 3,   \"desc\": \"Acquiring Institution Country Code\"},",
  py"    \"20\":  {\"data_enc\": \"ascii\", \"len_enc\": \"ascii\", \"len_type\": 0, \"max_len\": 3,   \"desc\": \"PAN Country Code\"},",
  py"    \"21\":  {\"data_enc\": \"ascii\", \"len_enc\": \"ascii\", \"len_type\": 0, \"max_len\": 3,   \"desc\": \"Forwarding Institution Country Code\"},",
  py"    \"22\":  {\"data_enc\": \"ascii\", \"len_enc\": \"ascii\", \"len_type\": 0, \"max_len\": 3,   \"desc\": \"Point-of-Service Entry Mode\"},",
  py"    \"23\":  {\"data_enc\": \"ascii\", \"len_enc\": \"ascii\", \"len_type\": 0, \"max_len\": 3,   \"desc\": \"PAN Sequence Number\"},",
  py"    \"24\":  {\"data_enc\": \"ascii\", \"len_enc\": \"ascii\", \"len_type\": 0, \"max_len\": 3,   \"desc\": \"Network International ID (NII)\"},",
  py"    \"25\":  {\"data_enc\": \"ascii\", \"len_enc\": \"ascii\", \"len_type\": 0, \"max_len\": 2,   \"desc\": \"Point-of-Service Condition Code\"},",
  py"    \"26\":  {\"data_enc\": \"ascii\", \"len_enc\": \"ascii\", \"len_type\": 0, \"max_len\": 2,   \"desc\": \"Point-of-Service Capture Code\"},",
  py"    \"27\":  {\"data_enc\": \"ascii\", \"len_enc\": \"ascii\", \"len_type\": 0, \"max_len\": 1,   \"desc\": \"Authorizing ID Response Length\"},",
  py"    \"28\":  {\"data_enc\": \"ascii\", \"len_enc\": \"ascii\", \"len_type\": 0, \"max_len\": 9,   \"desc\": \"Amount, Transaction Fee\"},",
  py"    \"29\":  {\"data_enc\": \"ascii\", \"len_enc\": \"ascii\", \"len_type\": 0, \"max_len\": 9,   \"desc\": \"Amount, Settlement Fee\"},",
  py"    \"30\":  {\"data_enc\": \"ascii\", \"len_enc\": \"ascii\", \"len_type\": 0, \"max_len\": 9,   \"desc\": \"Amount, Transaction Processing Fee\"},",
  py"    \"31\":  {\"data_enc\": \"ascii\", \"len_enc\": \"ascii\", \"len_type\": 0, \"max_len\": 9,   \"desc\": \"Amount, Settlement Processing Fee\"},",
  py"    \"32\":  {\"data_enc\": \"ascii\", \"len_enc\": \"ascii\", \"len_type\": 2, \"max_len\": 11,  \"desc\": \"Acquiring Institution ID Code\"},",
  py"    \"33\":  {\"data_enc\": \"ascii\", \"len_enc\": \"ascii\", \"len_type\": 2, \"max_len\": 11,  \"desc\": \"Forwarding Institution ID Code\"},",
  py"    \"34\":  {\"data_enc\": \"ascii\", \"len_enc\": \"ascii\", \"len_type\": 2, \"max_len\": 28,  \"desc\": \"Primary Account Number, Extended\"},",
  py"    \"35\":  {\"data_enc\": \"ascii\", \"len_enc\": \"ascii\", \"len_type\": 2, \"max_len\": 37,  \"desc\": \"Track 2 Data\"},",
  py"    \"36\":  {\"data_enc\": \"ascii\", \"len_enc\": \"ascii\", \"len_type\": 3, \"max_len\": 104, \"desc\": \"Track 3 Data\"},",
  py"    \"37\":  {\"data_enc\": \"ascii\", \"len_enc\": \"ascii\", \"len_type\": 0, \"max_len\": 12,  \"desc\": \"Retrieval Reference Number\"},",
  py"    \"38\":  {\"data_enc\": \"ascii\", \"len_enc\": \"ascii\", \"len_type\": 0, \"max_len\": 6,   \"desc\": \"Authorization ID Response\"},",
  py"    \"39\":  {\"data_enc\": \"ascii\", \"len_enc\": \"ascii\", \"len_type\": 0, \"max_len\": 2,   \"desc\": \"Response Code\"},",
  py"    \"40\":  {\"data_enc\": \"ascii\", \"len_enc\": \"ascii\", \"len_type\": 0, \"max_len\": 3,   \"desc\": \"Service Restriction Code\"},",
  py"    \"41\":  {\"data_enc\": \"ascii\", \"len_enc\": \"ascii\", \"len_type\": 0, \"max_len\": 8,   \"desc\": \"Card Acceptor Terminal ID\"},",
  py"    \"42\":  {\"data_enc\": \"ascii\", \"len_enc\": \"ascii\", \"len_type\": 0, \"max_len\": 15,  \"desc\": \"Card Acceptor ID Code\"},",
  py"    \"43\":  {\"data_enc\": \"ascii\", \"len_enc\": \"ascii\", \"len_type\": 0, \"max_len\": 40,  \"desc\": \"Card Acceptor Name/Location\"},",
  py"    \"44\":  {\"data_enc\": \"ascii\", \"len_enc\": \"ascii\", \"len_type\": 2, \"max_len\": 25,  \"desc\": \"Additional Response Data\"},",
  py"    \"45\":  {\"data_enc\": \"ascii\", \"len_enc\": \"ascii\", \"len_type\": 2, \"max_len\": 76,  \"desc\": \"Track 1 Data\"},",
  py"    \"46\":  {\"data_enc\": \"ascii\", \"len_enc\": \"ascii\", \"len_type\": 3, \"max_len\": 999, \"desc\": \"Additional Data - ISO\"},",
  py"    \"47\":  {\"data_enc\": \"ascii\", \"len_enc\": \"ascii\", \"len_type\": 3, \"max_len\": 999, \"desc\": \"Additional Data - National\"},",
  py"    \"48\":  {\"data_enc\": \"ascii\", \"len_enc\": \"ascii\", \"len_type\": 3, \"max_len\": 999, \"desc\": \"Additional Data - Private\"},",
  py"    \"49\":  {\"data_enc\": \"ascii\", \"len_enc\": \"ascii\", \"len_type\": 0, \"max_len\": 3,   \"desc\": \"Currency Code, Transaction\"},",
  py"    \"50\":  {\"data_enc\": \"ascii\", \"len_enc\": \"ascii\", \"len_type\": 0, \"max_len\": 3,   \"desc\": \"Currency Code, Settlement\"},",
  py"    \"51\":  {\"data_enc\": \"ascii\", \"len_enc\": \"ascii\", \"len_type\": 0, \"max_len\": 3,   \"desc\": \"Currency Code, Cardholder Billing\"},",
  py"    \"52\":  {\"data_enc\": \"ascii\", \"len_enc\": \"ascii\", \"len_type\": 0, \"max_len\": 16,  \"desc\": \"PIN\"},",
  py"    \"53\":  {\"data_enc\": \"ascii\", \"len_enc\": \"ascii\", \"len_type\": 0, \"max_len\": 16,  \"desc\": \"Security-Related Control Information\"},",
  py"    \"54\":  {\"data_enc\": \"ascii\", \"len_enc\": \"ascii\", \"len_type\": 3, \"max_len\": 240, \"desc\": \"Additional Amounts\"},",
  py"    \"55\":  {\"data_enc\": \"ascii\", \"len_enc\": \"ascii\", \"len_type\": 3, \"max_len\": 510, \"desc\": \"ICC data\"},",
  py"    \"56\":  {\"data_enc\": \"ascii\", \"len_enc\": \"ascii\", \"len_type\": 3, \"max_len\": 999, \"desc\": \"Reserved ISO\"},",
  py"    \"57\":  {\"data_enc\": \"ascii\", \"len_enc\": \"ascii\", \"len_type\": 3, \"max_len\": 999, \"desc\": \"Reserved National\"},",
  py"    \"58\":  {\"data_enc\": \"ascii\", \"len_enc\": \"ascii\", \"len_type\": 3, \"max_len\": 999, \"desc\": \"Reserved National\"},",
  py"    \"59\":  {\"data_enc\": \"ascii\", \"len_enc\": \"ascii\", \"len_type\": 3, \"max_len\": 999, \"desc\": \"Reserved National\"},",
  py"    \"60\":  {\"data_enc\": \"ascii\", \"len_enc\": \"ascii\", \"len_type\": 3, \"max_len\": 999, \"desc\": \"Reserved National\"},",
  py"    \"61\":  {\"data_enc\": \"ascii\", \"len_enc\": \"ascii\", \"len_type\": 3, \"max_len\": 999, \"desc\": \"Reserved Private\"},"]

/-- specs.py, lines 401 to 450. -/
def specsText9 : List Str := [
  py"    \"62\":  {\"data_enc\": \"ascii\", \"len_enc\": \"ascii\", \"len_type\": 3, \"max_len\": 999, \"desc\": \"Reserved Private\"},",
  py"    \"63\":  {\"data_enc\": \"ascii\", \"len_enc\": \"ascii\", \"len_type\": 3, \"max_len\": 999, \"desc\": \"Reserved Private\"},",
  py"    \"64\":  {\"data_enc\": \"ascii\", \"len_enc\": \"ascii\", \"len_type\": 0, \"max_len\": 16,  \"desc\": \"MAC\"},",
  py"    \"65\":  {\"data_enc\": \"ascii\", \"len_enc\": \"ascii\", \"len_type\": 0, \"max_len\": 16,  \"desc\": \"Bitmap, Extended\"},",
  py"    \"66\":  {\"data_enc\": \"ascii\", \"len_enc\": \"ascii\", \"len_type\": 0, \"max_len\": 1,   \"desc\": \"Settlement Code\"},",
  py"    \"67\":  {\"data_enc\": \"ascii\", \"len_enc\": \"ascii\", \"len_type\": 0, \"max_len\": 2,   \"desc\": \"Extended Payment Code\"},",
  py"    \"68\":  {\"data_enc\": \"ascii\", \"len_enc\": \"ascii\", \"len_type\": 0, \"max_len\": 3,   \"desc\": \"Receiving Institution Country Code\"},",
  py"    \"69\":  {\"data_enc\": \"ascii\", \"len_enc\": \"ascii\", \"len_type\": 0, \"max_len\": 3,   \"desc\": \"Settlement Institution Country Code\"},",
  py"    \"70\":  {\"data_enc\": \"ascii\", \"len_enc\": \"ascii\", \"len_type\": 0, \"max_len\": 3,   \"desc\": \"Network Management Information Code\"},",
  py"    \"71\":  {\"data_enc\": \"ascii\", \"len_enc\": \"ascii\", \"len_type\": 0, \"max_len\": 4,   \"desc\": \"Message Number\"},",
  py"    \"72\":  {\"data_enc\": \"ascii\", \"len_enc\": \"ascii\", \"len_type\": 0, \"max_len\": 4,   \"desc\": \"Message Number, Last\"},",
  py"    \"73\":  {\"data_enc\": \"ascii\", \"len_enc\": \"ascii\", \"len_type\": 0, \"max_len\": 6,   \"desc\": \"Date, Action\"},",
  py"    \"74\":  {\"data_enc\": \"ascii\", \"len_enc\": \"ascii\", \"len_type\": 0, \"max_len\": 10,  \"desc\": \"Credits, Number\"},",
  py"    \"75\":  {\"data_enc\": \"ascii\", \"len_enc\": \"ascii\", \"len_type\": 0, \"max_len\": 10,  \"desc\": \"Credits, Reversal Number\"},",
  py"    \"76\":  {\"data_enc\": \"ascii\", \"len_enc\": \"ascii\", \"len_type\": 0, \"max_len\": 10,  \"desc\": \"Debits, Number\"},",
  py"    \"77\":  {\"data_enc\": \"ascii\", \"len_enc\": \"ascii\", \"len_type\": 0, \"max_len\": 10,  \"desc\": \"Debits, Reversal Number\"},",
  py"    \"78\":  {\"data_enc\": \"ascii\", \"len_enc\": \"ascii\", \"len_type\": 0, \"max_len\": 10,  \"desc\": \"Transfer, Number\"},",
  py"    \"79\":  {\"data_enc\": \"ascii\", \"len_enc\": \"ascii\", \"len_type\": 0, \"max_len\": 10,  \"desc\": \"Transfer, Reversal Number\"},",
  py"    \"80\":  {\"data_enc\": \"ascii\", \"len_enc\": \"ascii\", \"len_type\": 0, \"max_len\": 10,  \"desc\": \"Inquiries, Number\"},",
  py"    \"81\":  {\"data_enc\": \"ascii\", \"len_enc\": \"ascii\", \"len_type\": 0, \"max_len\": 10,  \"desc\": \"Authorizations, Number\"},",
  py"    \"82\":  {\"data_enc\": \"ascii\", \"len_enc\": \"ascii\", \"len_type\": 0, \"max_len\": 12,  \"desc\": \"Credits, Processing Fee Amount\"},",
  py"    \"83\":  {\"data_enc\": \"ascii\", \"len_enc\": \"ascii\", \"len_type\": 0, \"max_len\": 12,  \"desc\": \"Credits, Transaction Fee Amount\"},",
  py"    \"84\":  {\"data_enc\": \"ascii\", \"len_enc\": \"ascii\", \"len_type\": 0, \"max_len\": 12,  \"desc\": \"Debits, Processing Fee Amount\"},",
  py"    \"85\":  {\"data_enc\": \"ascii\", \"len_enc\": \"ascii\", \"len_type\": 0, \"max_len\": 12,  \"desc\": \"Debits, Transaction Fee Amount\"},",
  py"    \"86\":  {\"data_enc\": \"ascii\", \"len_enc\": \"ascii\", \"len_type\": 0, \"max_len\": 16,  \"desc\": \"Credits, Amount\"},",
  py"    \"87\":  {\"data_enc\": \"ascii\", \"len_enc\": \"ascii\", \"len_type\": 0, \"max_len\": 16,  \"desc\": \"Credits, Reversal Amount\"},",
  py"    \"88\":  {\"data_enc\": \"ascii\", \"len_enc\": \"ascii\", \"len_type\": 0, \"max_len\": 16,  \"desc\": \"Debits, Amount\"},",
  py"    \"89\":  {\"data_enc\": \"ascii\", \"len_enc\": \"ascii\", \"len_type\": 0, \"max_len\": 16,  \"desc\": \"Debits, Reversal Amount\"},",
  py"    \"90\":  {\"data_enc\": \"ascii\", \"len_enc\": \"ascii\", \"len_type\": 0, \"max_len\": 42,  \"desc\": \"Original Data Elements\"},",
  py"    \"91\":  {\"data_enc\": \"ascii\", \"len_enc\": \"ascii\", \"len_type\": 0, \"max_len\": 1,   \"desc\": \"File Update Code\"},",
  py"    \"92\":  {\"data_enc\": \"ascii\", \"len_enc\": \"ascii\", \"len_type\": 0, \"max_len\": 2,   \"desc\": \"File Security Code\"},",
  py"    \"93\":  {\"data_enc\": \"ascii\", \"len_enc\": \"ascii\", \"len_type\": 0, \"max_len\": 5,   \"desc\": \"Response Indicator\"},",
  py"    \"94\":  {\"data_enc\": \"ascii\", \"len_enc\": \"ascii\", \"len_type\": 0, \"max_len\": 7,   \"desc\": \"Service Indicator\"},",
  py"    \"95\":  {\"data_enc\": \"ascii\", \"len_enc\": \"ascii\", \"len_type\": 0, \"max_len\": 42,  \"desc\": \"Replacement Amounts\"},",
  py"    \"96\":  {\"data_enc\": \"ascii\", \"len_enc\": \"ascii\", \"len_type\": 0, \"max_len\": 16,  \"desc\": \"Message Security Code\"},",
  py"    \"97\":  {\"data_enc\": \"ascii\", \"len_enc\": \"ascii\", \"len_type\": 0, \"max_len\": 17,  \"desc\": \"Amount, Net Settlement\"},",
  py"    \"98\":  {\"data_enc\": \"ascii\", \"len_enc\": \"ascii\", \"len_type\": 0, \"max_len\": 25,  \"desc\": \"Payee\"},",
  py"    \"99\":  {\"data_enc\": \"ascii\", \"len_enc\": \"ascii\", \"len_type\": 2, \"max_len\": 11,  \"desc\": \"Settlement Institution ID Code\"},",
  py"    \"100\": {\"data_enc\": \"ascii\", \"len_enc\": \"ascii\", \"len_type\": 2, \"max_len\": 11,  \"desc\": \"Receiving Institution ID Code\"},",
  py"    \"101\": {\"data_enc\": \"ascii\", \"len_enc\": \"ascii\", \"len_type\": 2, \"max_len\": 17,  \"desc\": \"File Name\"},",
  py"    \"102\": {\"data_enc\": \"ascii\", \"len_enc\": \"ascii\", \"len_type\": 2, \"max_len\": 28,  \"desc\": \"Account ID 1\"},",
  py"    \"103\": {\"data_enc\": \"ascii\", \"len_enc\": \"ascii\", \"len_type\": 2, \"max_len\": 28,  \"desc\": \"Account ID 2\"},",
  py"    \"104\": {\"data_enc\": \"ascii\", \"len_enc\": \"ascii\", \"len_type\": 3, \"max_len\": 100, \"desc\": \"Transaction Description\"},",
  py"    \"105\": {\"data_enc\": \"ascii\", \"len_enc\": \"ascii\", \"len_type\": 3, \"max_len\": 999, \"desc\": \"Reserved for ISO Use\"},",
  py"    \"106\": {\"data_enc\": \"ascii\", \"len_enc\": \"ascii\", \"len_type\": 3, \"max_len\": 999, \"desc\": \"Reserved for ISO Use\"},",
  py"    \"107\": {\"data_enc\": \"ascii\", \"len_enc\": \"ascii\", \"len_type\": 3, \"max_len\": 999, \"desc\": \"Reserved for ISO Use\"},",
  py"    \"108\": {\"data_enc\": \"ascii\", \"len_enc\": \"ascii\", \"len_type\": 3, \"max_len\": 999, \"desc\": \"Reserved for ISO Use\"},",
  py"    \"109\": {\"data_enc\": \"ascii\", \"len_enc\": \"ascii\", \"len_type\": 3, \"max_len\": 999, \"desc\": \"Reserved for ISO Use\"},",
  py"    \"110\": {\"data_enc\": \"ascii\", \"len_enc\": \"ascii\", \"len_type\": 3, \"max_len\": 999, \"desc\": \"Reserved for ISO Use\"},",
  py"    \"111\": {\"data_enc\": \"ascii\", \"len_enc\": \"ascii\", \"len_type\": 3, \"max_len\": 999, \"desc\": \"Reserved for ISO Use\"},"]

/-- specs.py, lines 451 to 500. -/
def specsText10 : List Str := [
  py"    \"112\": {\"data_enc\": \"ascii\", \"len_enc\": \"ascii\", \"len_type\": 3, \"max_len\": 999, \"desc\": \"Reserved for National Use\"},",
  py"    \"113\": {\"data_enc\": \"ascii\", \"len_enc\": \"ascii\", \"len_type\": 3, \"max_len\": 999, \"desc\": \"Reserved for National Use\"},",
  py"    \"114\": {\"data_enc\": \"ascii\", \"len_enc\": \"ascii\", \"len_type\": 3, \"max_len\": 999, \"desc\": \"Reserved for National Use\"},",
  py"    \"115\": {\"data_enc\": \"ascii\", \"len_enc\": \"ascii\", \"len_type\": 3, \"max_len\": 999, \"desc\": \"Reserved for National Use\"},",
  py"    \"116\": {\"data_enc\": \"ascii\", \"len_enc\": \"ascii\", \"len_type\": 3, \"max_len\": 999, \"desc\": \"Reserved for National Use\"},",
  py"    \"117\": {\"data_enc\": \"ascii\", \"len_enc\": \"ascii\", \"len_type\": 3, \"max_len\": 999, \"desc\": \"Reserved for National Use\"},",
  py"    \"118\": {\"data_enc\": \"ascii\", \"len_enc\": \"ascii\", \"len_type\": 3, \"max_len\": 999, \"desc\": \"Reserved for National Use\"},",
  py"    \"119\": {\"data_enc\": \"ascii\", \"len_enc\": \"ascii\", \"len_type\": 3, \"max_len\": 999, \"desc\": \"Reserved for National Use\"},",
  py"    \"120\": {\"data_enc\": \"ascii\", \"len_enc\": \"ascii\", \"len_type\": 3, \"max_len\": 999, \"desc\": \"Reserved for Private Use\"},",
  py"    \"121\": {\"data_enc\": \"ascii\", \"len_enc\": \"ascii\", \"len_type\": 3, \"max_len\": 999, \"desc\": \"Reserved for Private Use\"},",
  py"    \"122\": {\"data_enc\": \"ascii\", \"len_enc\": \"ascii\", \"len_type\": 3, \"max_len\": 999, \"desc\": \"Reserved for Private Use\"},",
  py"    \"123\": {\"data_enc\": \"ascii\", \"len_enc\": \"ascii\", \"len_type\": 3, \"max_len\": 999, \"desc\": \"Reserved for Private Use\"},",
  py"    \"124\": {\"data_enc\": \"ascii\", \"len_enc\": \"ascii\", \"len_type\": 3, \"max_len\": 999, \"desc\": \"Reserved for Private Use\"},",
  py"    \"125\": {\"data_enc\": \"ascii\", \"len_enc\": \"ascii\", \"len_type\": 3, \"max_len\": 999, \"desc\": \"Reserved for Private Use\"},",
  py"    \"126\": {\"data_enc\": \"ascii\", \"len_enc\": \"ascii\", \"len_type\": 3, \"max_len\": 999, \"desc\": \"Reserved for Private Use\"},",
  py"    \"127\": {\"data_enc\": \"ascii\", \"len_enc\": \"ascii\", \"len_type\": 3, \"max_len\": 999, \"desc\": \"Reserved for Private Use\"},",
  py"    \"128\": {\"data_enc\": \"ascii\", \"len_enc\": \"ascii\", \"len_type\": 0, \"max_len\": 16,  \"desc\": \"MAC\"}",
  py"    }",
  py"",
  py"\"\"\"",
  py"",
  py"# ASCII/Binary",
  py"# Bitmaps, MACs, PIN, and ICC data are in binary",
  py"default = {",
  py"    \"h\": {",
  py"        \"data_enc\": \"ascii\",",
  py"        \"len_enc\": \"ascii\",",
  py"        \"len_type\": 0,",
  py"        \"max_len\": 0,",
  py"        \"desc\": \"Message Header\",",
  py"    },",
  py"    \"t\": {",
  py"        \"data_enc\": \"ascii\",",
  py"        \"len_enc\": \"ascii\",",
  py"        \"len_type\": 0,",
  py"        \"max_len\": 4,",
  py"        \"desc\": \"Message Type\",",
  py"    },",
  py"    \"p\": {",
  py"        \"data_enc\": \"b\",",
  py"        \"len_enc\": \"ascii\",",
  py"        \"len_type\": 0,",
  py"        \"max_len\": 8,",
  py"        \"desc\": \"Bitmap, Primary\",",
  py"    },",
  py"    \"1\": {",
  py"        \"data_enc\": \"b\",",
  py"        \"len_enc\": \"ascii\",",
  py"        \"len_type\": 0,",
  py"        \"max_len\": 8,"]

/-- specs.py, lines 501 to 550. -/
def specsText11 : List Str := [
  py"        \"desc\": \"Bitmap, Secondary\",",
  py"    },",
  py"    \"2\": {",
  py"        \"data_enc\": \"ascii\",",
  py"        \"len_enc\": \"ascii\",",
  py"        \"len_type\": 2,",
  py"        \"max_len\": 19,",
  py"        \"desc\": \"Primary Account Number (PAN)\",",
  py"    },",
  py"    \"3\": {",
  py"        \"data_enc\": \"ascii\",",
  py"        \"len_enc\": \"ascii\",",
  py"        \"len_type\": 0,",
  py"        \"max_len\": 6,",
  py"        \"desc\": \"Processing Code\",",
  py"    },",
  py"    \"4\": {",
  py"        \"data_enc\": \"ascii\",",
  py"        \"len_enc\": \"ascii\",",
  py"        \"len_type\": 0,",
  py"        \"max_len\": 12,",
  py"        \"desc\": \"Amount, Transaction\",",
  py"    },",
  py"    \"5\": {",
  py"        \"data_enc\": \"ascii\",",
  py"        \"len_enc\": \"ascii\",",
  py"        \"len_type\": 0,",
  py"        \"max_len\": 12,",
  py"        \"desc\": \"Amount, Settlement\",",
  py"    },",
  py"    \"6\": {",
  py"        \"data_enc\": \"ascii\",",
  py"        \"len_enc\": \"ascii\",",
  py"        \"len_type\": 0,",
  py"        \"max_len\": 12,",
  py"        \"desc\": \"Amount, Cardholder Billing\",",
  py"    },",
  py"    \"7\": {",
  py"        \"data_enc\": \"ascii\",",
  py"        \"len_enc\": \"ascii\",",
  py"        \"len_type\": 0,",
  py"        \"max_len\": 10,",
  py"        \"desc\": \"Transmission Date and Time\",",
  py"    },",
  py"    \"8\": {",
  py"        \"data_enc\": \"ascii\",",
  py"        \"len_enc\": \"ascii\",",
  py"        \"len_type\": 0,",
  py"        \"max_len\": 8,",
  py"        \"desc\": \"Amount, Cardholder Billing Fee\","]

/-- specs.py, lines 551 to 600. -/
def specsText12 : List Str := [
  py"    },",
  py"    \"9\": {",
  py"        \"data_enc\": \"ascii\",",
  py"        \"len_enc\": \"ascii\",",
  py"        \"len_type\": 0,",
  py"        \"max_len\": 8,",
  py"        \"desc\": \"Conversion Rate, Settlement\",",
  py"    },",
  py"    \"10\": {",
  py"        \"data_enc\": \"ascii\",",
  py"        \"len_enc\": \"ascii\",",
  py"        \"len_type\": 0,",
  py"        \"max_len\": 8,",
  py"        \"desc\": \"Conversion Rate, Cardholder Billing\",",
  py"    },",
  py"    \"11\": {",
  py"        \"data_enc\": \"ascii\",",
  py"        \"len_enc\": \"ascii\",",
  py"        \"len_type\": 0,",
  py"        \"max_len\": 6,",
  py"        \"desc\": \"System Trace Audit Number\",",
  py"    },",
  py"    \"12\": {",
  py"        \"data_enc\": \"ascii\",",
  py"        \"len_enc\": \"ascii\",",
  py"        \"len_type\": 0,",
  py"        \"max_len\": 6,",
  py"        \"desc\": \"Time, Local Transaction\",",
  py"    },",
  py"    \"13\": {",
  py"        \"data_enc\": \"ascii\",",
  py"        \"len_enc\": \"ascii\",",
  py"        \"len_type\": 0,",
  py"        \"max_len\": 4,",
  py"        \"desc\": \"Date, Local Transaction\",",
  py"    },",
  py"    \"14\": {",
  py"        \"data_enc\": \"ascii\",",
  py"        \"len_enc\": \"ascii\",",
  py"        \"len_type\": 0,",
  py"        \"max_len\": 4,",
  py"        \"desc\": \"Date, Expiration\",",
  py"    },",
  py"    \"15\": {",
  py"        \"data_enc\": \"ascii\",",
  py"        \"len_enc\": \"ascii\",",
  py"        \"len_type\": 0,",
  py"        \"max_len\": 4,",
  py"        \"desc\": \"Date, Settlement\",",
  py"    },"]

/-- specs.py, lines 601 to 650. -/
def specsText13 : List Str := [
  py"    \"16\": {",
  py"        \"data_enc\": \"ascii\",",
  py"        \"len_enc\": \"ascii\",",
  py"        \"len_type\": 0,",
  py"        \"max_len\": 4,",
  py"        \"desc\": \"Date, Conversion\",",
  py"    },",
  py"    \"17\": {",
  py"        \"data_enc\": \"ascii\",",
  py"        \"len_enc\": \"ascii\",",
  py"        \"len_type\": 0,",
  py"        \"max_len\": 4,",
  py"        \"desc\": \"Date, Capture\",",
  py"    },",
  py"    \"18\": {",
  py"        \"data_enc\": \"ascii\",",
  py"        \"len_enc\": \"ascii\",",
  py"        \"len_type\": 0,",
  py"        \"max_len\": 4,",
  py"        \"desc\": \"Merchant Type\",",
  py"    },",
  py"    \"19\": {",
  py"        \"data_enc\": \"ascii\",",
  py"        \"len_enc\": \"ascii\",",
  py"        \"len_type\": 0,",
  py"        \"max_len\": 3,",
  py"        \"desc\": \"Acquiring Institution Country Code\",",
  py"    },",
  py"    \"20\": {",
  py"        \"data_enc\": \"ascii\",",
  py"        \"len_enc\": \"ascii\",",
  py"        \"len_type\": 0,",
  py"        \"max_len\": 3,",
  py"        \"desc\": \"PAN Country Code\",",
  py"    },",
  py"    \"21\": {",
  py"        \"data_enc\": \"ascii\",",
  py"        \"len_enc\": \"ascii\",",
  py"        \"len_type\": 0,",
  py"        \"max_len\": 3,",
  py"        \"desc\": \"Forwarding Institution Country Code\",",
  py"    },",
  py"    \"22\": {",
  py"        \"data_enc\": \"ascii\",",
  py"        \"len_enc\": \"ascii\",",
  py"        \"len_type\": 0,",
  py"        \"max_len\": 3,",
  py"        \"desc\": \"Point-of-Service Entry Mode\",",
  py"    },",
  py"    \"23\": {"]

/-- specs.py, lines 651 to 700. -/
def specsText14 : List Str := [
  py"        \"data_enc\": \"ascii\",",
  py"        \"len_enc\": \"ascii\",",
  py"        \"len_type\": 0,",
  py"        \"max_len\": 3,",
  py"        \"desc\": \"PAN Sequence Number\",",
  py"    },",
  py"    \"24\": {",
  py"        \"data_enc\": \"ascii\",",
  py"        \"len_enc\": \"ascii\",",
  py"        \"len_type\": 0,",
  py"        \"max_len\": 3,",
  py"        \"desc\": \"Network International ID (NII)\",",
  py"    },",
  py"    \"25\": {",
  py"        \"data_enc\": \"ascii\",",
  py"        \"len_enc\": \"ascii\",",
  py"        \"len_type\": 0,",
  py"        \"max_len\": 2,",
  py"        \"desc\": \"Point-of-Service Condition Code\",",
  py"    },",
  py"    \"26\": {",
  py"        \"data_enc\": \"ascii\",",
  py"        \"len_enc\": \"ascii\",",
  py"        \"len_type\": 0,",
  py"        \"max_len\": 2,",
  py"        \"desc\": \"Point-of-Service Capture Code\",",
  py"    },",
  py"    \"27\": {",
  py"        \"data_enc\": \"ascii\",",
  py"        \"len_enc\": \"ascii\",",
  py"        \"len_type\": 0,",
  py"        \"max_len\": 1,",
  py"        \"desc\": \"Authorizing ID Response Length\",",
  py"    },",
  py"    \"28\": {",
  py"        \"data_enc\": \"ascii\",",
  py"        \"len_enc\": \"ascii\",",
  py"        \"len_type\": 0,",
  py"        \"max_len\": 9,",
  py"        \"desc\": \"Amount, Transaction Fee\",",
  py"    },",
  py"    \"29\": {",
  py"        \"data_enc\": \"ascii\",",
  py"        \"len_enc\": \"ascii\",",
  py"        \"len_type\": 0,",
  py"        \"max_len\": 9,",
  py"        \"desc\": \"Amount, Settlement Fee\",",
  py"    },",
  py"    \"30\": {",
  py"        \"data_enc\": \"ascii\","]

/-- specs.py, lines 701 to 750. -/
def specsText15 : List Str := [
  py"        \"len_enc\": \"ascii\",",
  py"        \"len_type\": 0,",
  py"        \"max_len\": 9,",
  py"        \"desc\": \"Amount, Transaction Processing Fee\",",
  py"    },",
  py"    \"31\": {",
  py"        \"data_enc\": \"ascii\",",
  py"        \"len_enc\": \"ascii\",",
  py"        \"len_type\": 0,",
  py"        \"max_len\": 9,",
  py"        \"desc\": \"Amount, Settlement Processing Fee\",",
  py"    },",
  py"    \"32\": {",
  py"        \"data_enc\": \"ascii\",",
  py"        \"len_enc\": \"ascii\",",
  py"        \"len_type\": 2,",
  py"        \"max_len\": 11,",
  py"        \"desc\": \"Acquiring Institution ID Code\",",
  py"    },",
  py"    \"33\": {",
  py"        \"data_enc\": \"ascii\",",
  py"        \"len_enc\": \"ascii\",",
  py"        \"len_type\": 2,",
  py"        \"max_len\": 11,",
  py"        \"desc\": \"Forwarding Institution ID Code\",",
  py"    },",
  py"    \"34\": {",
  py"        \"data_enc\": \"ascii\",",
  py"        \"len_enc\": \"ascii\",",
  py"        \"len_type\": 2,",
  py"        \"max_len\": 28,",
  py"        \"desc\": \"Primary Account Number, Extended\",",
  py"    },",
  py"    \"35\": {",
  py"        \"data_enc\": \"ascii\",",
  py"        \"len_enc\": \"ascii\",",
  py"        \"len_type\": 2,",
  py"        \"max_len\": 37,",
  py"        \"desc\": \"Track 2 Data\",",
  py"    },",
  py"    \"36\": {",
  py"        \"data_enc\": \"ascii\",",
  py"        \"len_enc\": \"ascii\",",
  py"        \"len_type\": 3,",
  py"        \"max_len\": 104,",
  py"        \"desc\": \"Track 3 Data\",",
  py"    },",
  py"    \"37\": {",
  py"        \"data_enc\": \"ascii\",",
  py"        \"len_enc\": \"ascii\","]

/-- specs.py, lines 751 to 800. -/
def specsText16 : List Str := [
  py"        \"len_type\": 0,",
  py"        \"max_len\": 12,",
  py"        \"desc\": \"Retrieval Reference Number\",",
  py"    },",
  py"    \"38\": {",
  py"        \"data_enc\": \"ascii\",",
  py"        \"len_enc\": \"ascii\",",
  py"        \"len_type\": 0,",
  py"        \"max_len\": 6,",
  py"        \"desc\": \"Authorization ID Response\",",
  py"    },",
  py"    \"39\": {",
  py"        \"data_enc\": \"ascii\",",
  py"        \"len_enc\": \"ascii\",",
  py"        \"len_type\": 0,",
  py"        \"max_len\": 2,",
  py"        \"desc\": \"Response Code\",",
  py"    },",
  py"    \"40\": {",
  py"        \"data_enc\": \"ascii\",",
  py"        \"len_enc\": \"ascii\",",
  py"        \"len_type\": 0,",
  py"        \"max_len\": 3,",
  py"        \"desc\": \"Service Restriction Code\",",
  py"    },",
  py"    \"41\": {",
  py"        \"data_enc\": \"ascii\",",
  py"        \"len_enc\": \"ascii\",",
  py"        \"len_type\": 0,",
  py"        \"max_len\": 8,",
  py"        \"desc\": \"Card Acceptor Terminal ID\",",
  py"    },",
  py"    \"42\": {",
  py"        \"data_enc\": \"ascii\",",
  py"        \"len_enc\": \"ascii\",",
  py"        \"len_type\": 0,",
  py"        \"max_len\": 15,",
  py"        \"desc\": \"Card Acceptor ID Code\",",
  py"    },",
  py"    \"43\": {",
  py"        \"data_enc\": \"ascii\",",
  py"        \"len_enc\": \"ascii\",",
  py"        \"len_type\": 0,",
  py"        \"max_len\": 40,",
  py"        \"desc\": \"Card Acceptor Name/Location\",",
  py"    },",
  py"    \"44\": {",
  py"        \"data_enc\": \"ascii\",",
  py"        \"len_enc\": \"ascii\",",
  py"        \"len_type\": 2,"]

/-- specs.py, lines 801 to 850. -/
def specsText17 : List Str := [
  py"        \"max_len\": 25,",
  py"        \"desc\": \"Additional Response Data\",",
  py"    },",
  py"    \"45\": {",
  py"        \"data_enc\": \"ascii\",",
  py"        \"len_enc\": \"ascii\",",
  py"        \"len_type\": 2,",
  py"        \"max_len\": 76,",
  py"        \"desc\": \"Track 1 Data\",",
  py"    },",
  py"    \"46\": {",
  py"        \"data_enc\": \"ascii\",",
  py"        \"len_enc\": \"ascii\",",
  py"        \"len_type\": 3,",
  py"        \"max_len\": 999,",
  py"        \"desc\": \"Additional Data - ISO\",",
  py"    },",
  py"    \"47\": {",
  py"        \"data_enc\": \"ascii\",",
  py"        \"len_enc\": \"ascii\",",
  py"        \"len_type\": 3,",
  py"        \"max_len\": 999,",
  py"        \"desc\": \"Additional Data - National\",",
  py"    },",
  py"    \"48\": {",
  py"        \"data_enc\": \"ascii\",",
  py"        \"len_enc\": \"ascii\",",
  py"        \"len_type\": 3,",
  py"        \"max_len\": 999,",
  py"        \"desc\": \"Additional Data - Private\",",
  py"    },",
  py"    \"49\": {",
  py"        \"data_enc\": \"ascii\",",
  py"        \"len_enc\": \"ascii\",",
  py"        \"len_type\": 0,",
  py"        \"max_len\": 3,",
  py"        \"desc\": \"Currency Code, Transaction\",",
  py"    },",
  py"    \"50\": {",
  py"        \"data_enc\": \"ascii\",",
  py"        \"len_enc\": \"ascii\",",
  py"        \"len_type\": 0,",
  py"        \"max_len\": 3,",
  py"        \"desc\": \"Currency Code, Settlement\",",
  py"    },",
  py"    \"51\": {",
  py"        \"data_enc\": \"ascii\",",
  py"        \"len_enc\": \"ascii\",",
  py"        \"len_type\": 0,",
  py"        \"max_len\": 3,"]

/-- specs.py, lines 851 to 900. -/
def specsText18 : List Str := [
  py"        \"desc\": \"Currency Code, Cardholder Billing\",",
  py"    },",
  py"    \"52\": {",
  py"        \"data_enc\": \"b\",",
  py"        \"len_enc\": \"ascii\",",
  py"        \"len_type\": 0,",
  py"        \"max_len\": 8,",
  py"        \"desc\": \"PIN\",",
  py"    },",
  py"    \"53\": {",
  py"        \"data_enc\": \"ascii\",",
  py"        \"len_enc\": \"ascii\",",
  py"        \"len_type\": 0,",
  py"        \"max_len\": 16,",
  py"        \"desc\": \"Security-Related Control Information\",",
  py"    },",
  py"    \"54\": {",
  py"        \"data_enc\": \"ascii\",",
  py"        \"len_enc\": \"ascii\",",
  py"        \"len_type\": 3,",
  py"        \"max_len\": 240,",
  py"        \"desc\": \"Additional Amounts\",",
  py"    },",
  py"    \"55\": {",
  py"        \"data_enc\": \"b\",",
  py"        \"len_enc\": \"ascii\",",
  py"        \"len_type\": 3,",
  py"        \"max_len\": 255,",
  py"        \"desc\": \"ICC data\",",
  py"    },",
  py"    \"56\": {",
  py"        \"data_enc\": \"ascii\",",
  py"        \"len_enc\": \"ascii\",",
  py"        \"len_type\": 3,",
  py"        \"max_len\": 999,",
  py"        \"desc\": \"Reserved ISO\",",
  py"    },",
  py"    \"57\": {",
  py"        \"data_enc\": \"ascii\",",
  py"        \"len_enc\": \"ascii\",",
  py"        \"len_type\": 3,",
  py"        \"max_len\": 999,",
  py"        \"desc\": \"Reserved National\",",
  py"    },",
  py"    \"58\": {",
  py"        \"data_enc\": \"ascii\",",
  py"        \"len_enc\": \"ascii\",",
  py"        \"len_type\": 3,",
  py"        \"max_len\": 999,",
  py"        \"desc\": \"Reserved National\","]

/-- specs.py, lines 901 to 950. -/
def specsText19 : List Str := [
  py"    },",
  py"    \"59\": {",
  py"        \"data_enc\": \"ascii\",",
  py"        \"len_enc\": \"ascii\",",
  py"        \"len_type\": 3,",
  py"        \"max_len\": 999,",
  py"        \"desc\": \"Reserved National\",",
  py"    },",
  py"    \"60\": {",
  py"        \"data_enc\": \"ascii\",",
  py"        \"len_enc\": \"ascii\",",
  py"        \"len_type\": 3,",
  py"        \"max_len\": 999,",
  py"        \"desc\": \"Reserved National\",",
  py"    },",
  py"    \"61\": {",
  py"        \"data_enc\": \"ascii\",",
  py"        \"len_enc\": \"ascii\",",
  py"        \"len_type\": 3,",
  py"        \"max_len\": 999,",
  py"        \"desc\": \"Reserved Private\",",
  py"    },",
  py"    \"62\": {",
  py"        \"data_enc\": \"ascii\",",
  py"        \"len_enc\": \"ascii\",",
  py"        \"len_type\": 3,",
  py"        \"max_len\": 999,",
  py"        \"desc\": \"Reserved Private\",",
  py"    },",
  py"    \"63\": {",
  py"        \"data_enc\": \"ascii\",",
  py"        \"len_enc\": \"ascii\",",
  py"        \"len_type\": 3,",
  py"        \"max_len\": 999,",
  py"        \"desc\": \"Reserved Private\",",
  py"    },",
  py"    \"64\": {",
  py"        \"data_enc\": \"b\",",
  py"        \"len_enc\": \"ascii\",",
  py"        \"len_type\": 0,",
  py"        \"max_len\": 8,",
  py"        \"desc\": \"MAC\",",
  py"    },",
  py"    \"65\": {",
  py"        \"data_enc\": \"b\",",
  py"        \"len_enc\": \"ascii\",",
  py"        \"len_type\": 0,",
  py"        \"max_len\": 8,",
  py"        \"desc\": \"Bitmap, Extended\",",
  py"    },"]

/-- specs.py, lines 951 to 1000. -/
def specsText20 : List Str := [
  py"    \"66\": {",
  py"        \"data_enc\": \"ascii\",",
  py"        \"len_enc\": \"ascii\",",
  py"        \"len_type\": 0,",
  py"        \"max_len\": 1,",
  py"        \"desc\": \"Settlement Code\",",
  py"    },",
  py"    \"67\": {",
  py"        \"data_enc\": \"ascii\",",
  py"        \"len_enc\": \"ascii\",",
  py"        \"len_type\": 0,",
  py"        \"max_len\": 2,",
  py"        \"desc\": \"Extended Payment Code\",",
  py"    },",
  py"    \"68\": {",
  py"        \"data_enc\": \"ascii\",",
  py"        \"len_enc\": \"ascii\",",
  py"        \"len_type\": 0,",
  py"        \"max_len\": 3,",
  py"        \"desc\": \"Receiving Institution Country Code\",",
  py"    },",
  py"    \"69\": {",
  py"        \"data_enc\": \"ascii\",",
  py"        \"len_enc\": \"ascii\",",
  py"        \"len_type\": 0,",
  py"        \"max_len\": 3,",
  py"        \"desc\": \"Settlement Institution Country Code\",",
  py"    },",
  py"    \"70\": {",
  py"        \"data_enc\": \"ascii\",",
  py"        \"len_enc\": \"ascii\",",
  py"        \"len_type\": 0,",
  py"        \"max_len\": 3,",
  py"        \"desc\": \"Network Management Information Code\",",
  py"    },",
  py"    \"71\": {",
  py"        \"data_enc\": \"ascii\",",
  py"        \"len_enc\": \"ascii\",",
  py"        \"len_type\": 0,",
  py"        \"max_len\": 4,",
  py"        \"desc\": \"Message Number\",",
  py"    },",
  py"    \"72\": {",
  py"        \"data_enc\": \"ascii\",",
  py"        \"len_enc\": \"ascii\",",
  py"        \"len_type\": 0,",
  py"        \"max_len\": 4,",
  py"        \"desc\": \"Message Number, Last\",",
  py"    },",
  py"    \"73\": {"]

/-- specs.py, lines 1001 to 1050. -/
def specsText21 : List Str := [
  py"        \"data_enc\": \"ascii\",",
  py"        \"len_enc\": \"ascii\",",
  py"        \"len_type\": 0,",
  py"        \"max_len\": 6,",
  py"        \"desc\": \"Date, Action\",",
  py"    },",
  py"    \"74\": {",
  py"        \"data_enc\": \"ascii\",",
  py"        \"len_enc\": \"ascii\",",
  py"        \"len_type\": 0,",
  py"        \"max_len\": 10,",
  py"        \"desc\": \"Credits, Number\",",
  py"    },",
  py"    \"75\": {",
  py"        \"data_enc\": \"ascii\",",
  py"        \"len_enc\": \"ascii\",",
  py"        \"len_type\": 0,",
  py"        \"max_len\": 10,",
  py"        \"desc\": \"Credits, Reversal Number\",",
  py"    },",
  py"    \"76\": {",
  py"        \"data_enc\": \"ascii\",",
  py"        \"len_enc\": \"ascii\",",
  py"        \"len_type\": 0,",
  py"        \"max_len\": 10,",
  py"        \"desc\": \"Debits, Number\",",
  py"    },",
  py"    \"77\": {",
  py"        \"data_enc\": \"ascii\",",
  py"        \"len_enc\": \"ascii\",",
  py"        \"len_type\": 0,",
  py"        \"max_len\": 10,",
  py"        \"desc\": \"Debits, Reversal Number\",",
  py"    },",
  py"    \"78\": {",
  py"        \"data_enc\": \"ascii\",",
  py"        \"len_enc\": \"ascii\",",
  py"        \"len_type\": 0,",
  py"        \"max_len\": 10,",
  py"        \"desc\": \"Transfer, Number\",",
  py"    },",
  py"    \"79\": {",
  py"        \"data_enc\": \"ascii\",",
  py"        \"len_enc\": \"ascii\",",
  py"        \"len_type\": 0,",
  py"        \"max_len\": 10,",
  py"        \"desc\": \"Transfer, Reversal Number\",",
  py"    },",
  py"    \"80\": {",
  py"        \"data_enc\": \"ascii\","]

/-- specs.py, lines 1051 to 1100. -/
def specsText22 : List Str := [
  py"        \"len_enc\": \"ascii\",",
  py"        \"len_type\": 0,",
  py"        \"max_len\": 10,",
  py"        \"desc\": \"Inquiries, Number\",",
  py"    },",
  py"    \"81\": {",
  py"        \"data_enc\": \"ascii\",",
  py"        \"len_enc\": \"ascii\",",
  py"        \"len_type\": 0,",
  py"        \"max_len\": 10,",
  py"        \"desc\": \"Authorizations, Number\",",
  py"    },",
  py"    \"82\": {",
  py"        \"data_enc\": \"ascii\",",
  py"        \"len_enc\": \"ascii\",",
  py"        \"len_type\": 0,",
  py"        \"max_len\": 12,",
  py"        \"desc\": \"Credits, Processing Fee Amount\",",
  py"    },",
  py"    \"83\": {",
  py"        \"data_enc\": \"ascii\",",
  py"        \"len_enc\": \"ascii\",",
  py"        \"len_type\": 0,",
  py"        \"max_len\": 12,",
  py"        \"desc\": \"Credits, Transaction Fee Amount\",",
  py"    },",
  py"    \"84\": {",
  py"        \"data_enc\": \"ascii\",",
  py"        \"len_enc\": \"ascii\",",
  py"        \"len_type\": 0,",
  py"        \"max_len\": 12,",
  py"        \"desc\": \"Debits, Processing Fee Amount\",",
  py"    },",
  py"    \"85\": {",
  py"        \"data_enc\": \"ascii\",",
  py"        \"len_enc\": \"ascii\",",
  py"        \"len_type\": 0,",
  py"        \"max_len\": 12,",
  py"        \"desc\": \"Debits, Transaction Fee Amount\",",
  py"    },",
  py"    \"86\": {",
  py"        \"data_enc\": \"ascii\",",
  py"        \"len_enc\": \"ascii\",",
  py"        \"len_type\": 0,",
  py"        \"max_len\": 16,",
  py"        \"desc\": \"Credits, Amount\",",
  py"    },",
  py"    \"87\": {",
  py"        \"data_enc\": \"ascii\",",
  py"        \"len_enc\": \"ascii\","]

/-- specs.py, lines 1101 to 1150. -/
def specsText23 : List Str := [
  py"        \"len_type\": 0,",
  py"        \"max_len\": 16,",
  py"        \"desc\": \"Credits, Reversal Amount\",",
  py"    },",
  py"    \"88\": {",
  py"        \"data_enc\": \"ascii\",",
  py"        \"len_enc\": \"ascii\",",
  py"        \"len_type\": 0,",
  py"        \"max_len\": 16,",
  py"        \"desc\": \"Debits, Amount\",",
  py"    },",
  py"    \"89\": {",
  py"        \"data_enc\": \"ascii\",",
  py"        \"len_enc\": \"ascii\",",
  py"        \"len_type\": 0,",
  py"        \"max_len\": 16,",
  py"        \"desc\": \"Debits, Reversal Amount\",",
  py"    },",
  py"    \"90\": {",
  py"        \"data_enc\": \"ascii\",",
  py"        \"len_enc\": \"ascii\",",
  py"        \"len_type\": 0,",
  py"        \"max_len\": 42,",
  py"        \"desc\": \"Original Data Elements\",",
  py"    },",
  py"    \"91\": {",
  py"        \"data_enc\": \"ascii\",",
  py"        \"len_enc\": \"ascii\",",
  py"        \"len_type\": 0,",
  py"        \"max_len\": 1,",
  py"        \"desc\": \"File Update Code\",",
  py"    },",
  py"    \"92\": {",
  py"        \"data_enc\": \"ascii\",",
  py"        \"len_enc\": \"ascii\",",
  py"        \"len_type\": 0,",
  py"        \"max_len\": 2,",
  py"        \"desc\": \"File Security Code\",",
  py"    },",
  py"    \"93\": {",
  py"        \"data_enc\": \"ascii\",",
  py"        \"len_enc\": \"ascii\",",
  py"        \"len_type\": 0,",
  py"        \"max_len\": 5,",
  py"        \"desc\": \"Response Indicator\",",
  py"    },",
  py"    \"94\": {",
  py"        \"data_enc\": \"ascii\",",
  py"        \"len_enc\": \"ascii\",",
  py"        \"len_type\": 0,"]

/-- specs.py, lines 1151 to 1200. -/
def specsText24 : List Str := [
  py"        \"max_len\": 7,",
  py"        \"desc\": \"Service Indicator\",",
  py"    },",
  py"    \"95\": {",
  py"        \"data_enc\": \"ascii\",",
  py"        \"len_enc\": \"ascii\",",
  py"        \"len_type\": 0,",
  py"        \"max_len\": 42,",
  py"        \"desc\": \"Replacement Amounts\",",
  py"    },",
  py"    \"96\": {",
  py"        \"data_enc\": \"b\",",
  py"        \"len_enc\": \"ascii\",",
  py"        \"len_type\": 0,",
  py"        \"max_len\": 8,",
  py"        \"desc\": \"Message Security Code\",",
  py"    },",
  py"    \"97\": {",
  py"        \"data_enc\": \"ascii\",",
  py"        \"len_enc\": \"ascii\",",
  py"        \"len_type\": 0,",
  py"        \"max_len\": 17,",
  py"        \"desc\": \"Amount, Net Settlement\",",
  py"    },",
  py"    \"98\": {",
  py"        \"data_enc\": \"ascii\",",
  py"        \"len_enc\": \"ascii\",",
  py"        \"len_type\": 0,",
  py"        \"max_len\": 25,",
  py"        \"desc\": \"Payee\",",
  py"    },",
  py"    \"99\": {",
  py"        \"data_enc\": \"ascii\",",
  py"        \"len_enc\": \"ascii\",",
  py"        \"len_type\": 2,",
  py"        \"max_len\": 11,",
  py"        \"desc\": \"Settlement Institution ID Code\",",
  py"    },",
  py"    \"100\": {",
  py"        \"data_enc\": \"ascii\",",
  py"        \"len_enc\": \"ascii\",",
  py"        \"len_type\": 2,",
  py"        \"max_len\": 11,",
  py"        \"desc\": \"Receiving Institution ID Code\",",
  py"    },",
  py"    \"101\": {",
  py"        \"data_enc\": \"ascii\",",
  py"        \"len_enc\": \"ascii\",",
  py"        \"len_type\": 2,",
  py"        \"max_len\": 17,"]

/-- specs.py, lines 1201 to 1250. -/
def specsText25 : List Str := [
  py"        \"desc\": \"File Name\",",
  py"    },",
  py"    \"102\": {",
  py"        \"data_enc\": \"ascii\",",
  py"        \"len_enc\": \"ascii\",",
  py"        \"len_type\": 2,",
  py"        \"max_len\": 28,",
  py"        \"desc\": \"Account ID 1\",",
  py"    },",
  py"    \"103\": {",
  py"        \"data_enc\": \"ascii\",",
  py"        \"len_enc\": \"ascii\",",
  py"        \"len_type\": 2,",
  py"        \"max_len\": 28,",
  py"        \"desc\": \"Account ID 2\",",
  py"    },",
  py"    \"104\": {",
  py"        \"data_enc\": \"ascii\",",
  py"        \"len_enc\": \"ascii\",",
  py"        \"len_type\": 3,",
  py"        \"max_len\": 100,",
  py"        \"desc\": \"Transaction Description\",",
  py"    },",
  py"    \"105\": {",
  py"        \"data_enc\": \"ascii\",",
  py"        \"len_enc\": \"ascii\",",
  py"        \"len_type\": 3,",
  py"        \"max_len\": 999,",
  py"        \"desc\": \"Reserved for ISO Use\",",
  py"    },",
  py"    \"106\": {",
  py"        \"data_enc\": \"ascii\",",
  py"        \"len_enc\": \"ascii\",",
  py"        \"len_type\": 3,",
  py"        \"max_len\": 999,",
  py"        \"desc\": \"Reserved for ISO Use\",",
  py"    },",
  py"    \"107\": {",
  py"        \"data_enc\": \"ascii\",",
  py"        \"len_enc\": \"ascii\",",
  py"        \"len_type\": 3,",
  py"        \"max_len\": 999,",
  py"        \"desc\": \"Reserved for ISO Use\",",
  py"    },",
  py"    \"108\": {",
  py"        \"data_enc\": \"ascii\",",
  py"        \"len_enc\": \"ascii\",",
  py"        \"len_type\": 3,",
  py"        \"max_len\": 999,",
  py"        \"desc\": \"Reserved for ISO Use\","]

/-- specs.py, lines 1251 to 1300. -/
def specsText26 : List Str := [
  py"    },",
  py"    \"109\": {",
  py"        \"data_enc\": \"ascii\",",
  py"        \"len_enc\": \"ascii\",",
  py"        \"len_type\": 3,",
  py"        \"max_len\": 999,",
  py"        \"desc\": \"Reserved for ISO Use\",",
  py"    },",
  py"    \"110\": {",
  py"        \"data_enc\": \"ascii\",",
  py"        \"len_enc\": \"ascii\",",
  py"        \"len_type\": 3,",
  py"        \"max_len\": 999,",
  py"        \"desc\": \"Reserved for ISO Use\",",
  py"    },",
  py"    \"111\": {",
  py"        \"data_enc\": \"ascii\",",
  py"        \"len_enc\": \"ascii\",",
  py"        \"len_type\": 3,",
  py"        \"max_len\": 999,",
  py"        \"desc\": \"Reserved for ISO Use\",",
  py"    },",
  py"    \"112\": {",
  py"        \"data_enc\": \"ascii\",",
  py"        \"len_enc\": \"ascii\",",
  py"        \"len_type\": 3,",
  py"        \"max_len\": 999,",
  py"        \"desc\": \"Reserved for National Use\",",
  py"    },",
  py"    \"113\": {",
  py"        \"data_enc\": \"ascii\",",
  py"        \"len_enc\": \"ascii\",",
  py"        \"len_type\": 3,",
  py"        \"max_len\": 999,",
  py"        \"desc\": \"Reserved for National Use\",",
  py"    },",
  py"    \"114\": {",
  py"        \"data_enc\": \"ascii\",",
  py"        \"len_enc\": \"ascii\",",
  py"        \"len_type\": 3,",
  py"        \"max_len\": 999,",
  py"        \"desc\": \"Reserved for National Use\",",
  py"    },",
  py"    \"115\": {",
  py"        \"data_enc\": \"ascii\",",
  py"        \"len_enc\": \"ascii\",",
  py"        \"len_type\": 3,",
  py"        \"max_len\": 999,",
  py"        \"desc\": \"Reserved for National Use\",",
  py"    },"]

/-- specs.py, lines 1301 to 1350. -/
def specsText27 : List Str := [
  py"    \"116\": {",
  py"        \"data_enc\": \"ascii\",",
  py"        \"len_enc\": \"ascii\",",
  py"        \"len_type\": 3,",
  py"        \"max_len\": 999,",
  py"        \"desc\": \"Reserved for National Use\",",
  py"    },",
  py"    \"117\": {",
  py"        \"data_enc\": \"ascii\",",
  py"        \"len_enc\": \"ascii\",",
  py"        \"len_type\": 3,",
  py"        \"max_len\": 999,",
  py"        \"desc\": \"Reserved for National Use\",",
  py"    },",
  py"    \"118\": {",
  py"        \"data_enc\": \"ascii\",",
  py"        \"len_enc\": \"ascii\",",
  py"        \"len_type\": 3,",
  py"        \"max_len\": 999,",
  py"        \"desc\": \"Reserved for National Use\",",
  py"    },",
  py"    \"119\": {",
  py"        \"data_enc\": \"ascii\",",
  py"        \"len_enc\": \"ascii\",",
  py"        \"len_type\": 3,",
  py"        \"max_len\": 999,",
  py"        \"desc\": \"Reserved for National Use\",",
  py"    },",
  py"    \"120\": {",
  py"        \"data_enc\": \"ascii\",",
  py"        \"len_enc\": \"ascii\",",
  py"        \"len_type\": 3,",
  py"        \"max_len\": 999,",
  py"        \"desc\": \"Reserved for Private Use\",",
  py"    },",
  py"    \"121\": {",
  py"        \"data_enc\": \"ascii\",",
  py"        \"len_enc\": \"ascii\",",
  py"        \"len_type\": 3,",
  py"        \"max_len\": 999,",
  py"        \"desc\": \"Reserved for Private Use\",",
  py"    },",
  py"    \"122\": {",
  py"        \"data_enc\": \"ascii\",",
  py"        \"len_enc\": \"ascii\",",
  py"        \"len_type\": 3,",
  py"        \"max_len\": 999,",
  py"        \"desc\": \"Reserved for Private Use\",",
  py"    },",
  py"    \"123\": {"]

/-- specs.py, lines 1351 to 1400. -/
def specsText28 : List Str := [
  py"        \"data_enc\": \"ascii\",",
  py"        \"len_enc\": \"ascii\",",
  py"        \"len_type\": 3,",
  py"        \"max_len\": 999,",
  py"        \"desc\": \"Reserved for Private Use\",",
  py"    },",
  py"    \"124\": {",
  py"        \"data_enc\": \"ascii\",",
  py"        \"len_enc\": \"ascii\",",
  py"        \"len_type\": 3,",
  py"        \"max_len\": 999,",
  py"        \"desc\": \"Reserved for Private Use\",",
  py"    },",
  py"    \"125\": {",
  py"        \"data_enc\": \"ascii\",",
  py"        \"len_enc\": \"ascii\",",
  py"        \"len_type\": 3,",
  py"        \"max_len\": 999,",
  py"        \"desc\": \"Reserved for Private Use\",",
  py"    },",
  py"    \"126\": {",
  py"        \"data_enc\": \"ascii\",",
  py"        \"len_enc\": \"ascii\",",
  py"        \"len_type\": 3,",
  py"        \"max_len\": 999,",
  py"        \"desc\": \"Reserved for Private Use\",",
  py"    },",
  py"    \"127\": {",
  py"        \"data_enc\": \"ascii\",",
  py"        \"len_enc\": \"ascii\",",
  py"        \"len_type\": 3,",
  py"        \"max_len\": 999,",
  py"        \"desc\": \"Reserved for Private Use\",",
  py"    },",
  py"    \"128\": {",
  py"        \"data_enc\": \"b\",",
  py"        \"len_enc\": \"ascii\",",
  py"        \"len_type\": 0,",
  py"        \"max_len\": 8,",
  py"        \"desc\": \"MAC\",",
  py"    },",
  py"}",
  py"",
  py"# ASCII",
  py"# All fields are in ASCII",
  py"default_ascii = {",
  py"    \"h\": {",
  py"        \"data_enc\": \"ascii\",",
  py"        \"len_enc\": \"ascii\",",
  py"        \"len_type\": 0,"]

/-- specs.py, lines 1401 to 1450. -/
def specsText29 : List Str := [
  py"        \"max_len\": 0,",
  py"        \"desc\": \"Message Header\",",
  py"    },",
  py"    \"t\": {",
  py"        \"data_enc\": \"ascii\",",
  py"        \"len_enc\": \"ascii\",",
  py"        \"len_type\": 0,",
  py"        \"max_len\": 4,",
  py"        \"desc\": \"Message Type\",",
  py"    },",
  py"    \"p\": {",
  py"        \"data_enc\": \"ascii\",",
  py"        \"len_enc\": \"ascii\",",
  py"        \"len_type\": 0,",
  py"        \"max_len\": 16,",
  py"        \"desc\": \"Bitmap, Primary\",",
  py"    },",
  py"    \"1\": {",
  py"        \"data_enc\": \"ascii\",",
  py"        \"len_enc\": \"ascii\",",
  py"        \"len_type\": 0,",
  py"        \"max_len\": 16,",
  py"        \"desc\": \"Bitmap, Secondary\",",
  py"    },",
  py"    \"2\": {",
  py"        \"data_enc\": \"ascii\",",
  py"        \"len_enc\": \"ascii\",",
  py"        \"len_type\": 2,",
  py"        \"max_len\": 19,",
  py"        \"desc\": \"Primary Account Number (PAN)\",",
  py"    },",
  py"    \"3\": {",
  py"        \"data_enc\": \"ascii\",",
  py"        \"len_enc\": \"ascii\",",
  py"        \"len_type\": 0,",
  py"        \"max_len\": 6,",
  py"        \"desc\": \"Processing Code\",",
  py"    },",
  py"    \"4\": {",
  py"        \"data_enc\": \"ascii\",",
  py"        \"len_enc\": \"ascii\",",
  py"        \"len_type\": 0,",
  py"        \"max_len\": 12,",
  py"        \"desc\": \"Amount, Transaction\",",
  py"    },",
  py"    \"5\": {",
  py"        \"data_enc\": \"ascii\",",
  py"        \"len_enc\": \"ascii\",",
  py"        \"len_type\": 0,",
  py"        \"max_len\": 12,"]

/-- specs.py, lines 1451 to 1500. -/
def specsText30 : List Str := [
  py"        \"desc\": \"Amount, Settlement\",",
  py"    },",
  py"    \"6\": {",
  py"        \"data_enc\": \"ascii\",",
  py"        \"len_enc\": \"ascii\",",
  py"        \"len_type\": 0,",
  py"        \"max_len\": 12,",
  py"        \"desc\": \"Amount, Cardholder Billing\",",
  py"    },",
  py"    \"7\": {",
  py"        \"data_enc\": \"ascii\",",
  py"        \"len_enc\": \"ascii\",",
  py"        \"len_type\": 0,",
  py"        \"max_len\": 10,",
  py"        \"desc\": \"Transmission Date and Time\",",
  py"    },",
  py"    \"8\": {",
  py"        \"data_enc\": \"ascii\",",
  py"        \"len_enc\": \"ascii\",",
  py"        \"len_type\": 0,",
  py"        \"max_len\": 8,",
  py"        \"desc\": \"Amount, Cardholder Billing Fee\",",
  py"    },",
  py"    \"9\": {",
  py"        \"data_enc\": \"ascii\",",
  py"        \"len_enc\": \"ascii\",",
  py"        \"len_type\": 0,",
  py"        \"max_len\": 8,",
  py"        \"desc\": \"Conversion Rate, Settlement\",",
  py"    },",
  py"    \"10\": {",
  py"        \"data_enc\": \"ascii\",",
  py"        \"len_enc\": \"ascii\",",
  py"        \"len_type\": 0,",
  py"        \"max_len\": 8,",
  py"        \"desc\": \"Conversion Rate, Cardholder Billing\",",
  py"    },",
  py"    \"11\": {",
  py"        \"data_enc\": \"ascii\",",
  py"        \"len_enc\": \"ascii\",",
  py"        \"len_type\": 0,",
  py"        \"max_len\": 6,",
  py"        \"desc\": \"System Trace Audit Number\",",
  py"    },",
  py"    \"12\": {",
  py"        \"data_enc\": \"ascii\",",
  py"        \"len_enc\": \"ascii\",",
  py"        \"len_type\": 0,",
  py"        \"max_len\": 6,",
  py"        \"desc\": \"Time, Local Transaction\","]

/-- specs.py, lines 1501 to 1550. -/
def specsText31 : List Str := [
  py"    },",
  py"    \"13\": {",
  py"        \"data_enc\": \"ascii\",",
  py"        \"len_enc\": \"ascii\",",
  py"        \"len_type\": 0,",
  py"        \"max_len\": 4,",
  py"        \"desc\": \"Date, Local Transaction\",",
  py"    },",
  py"    \"14\": {",
  py"        \"data_enc\": \"ascii\",",
  py"        \"len_enc\": \"ascii\",",
  py"        \"len_type\": 0,",
  py"        \"max_len\": 4,",
  py"        \"desc\": \"Date, Expiration\",",
  py"    },",
  py"    \"15\": {",
  py"        \"data_enc\": \"ascii\",",
  py"        \"len_enc\": \"ascii\",",
  py"        \"len_type\": 0,",
  py"        \"max_len\": 4,",
  py"        \"desc\": \"Date, Settlement\",",
  py"    },",
  py"    \"16\": {",
  py"        \"data_enc\": \"ascii\",",
  py"        \"len_enc\": \"ascii\",",
  py"        \"len_type\": 0,",
  py"        \"max_len\": 4,",
  py"        \"desc\": \"Date, Conversion\",",
  py"    },",
  py"    \"17\": {",
  py"        \"data_enc\": \"ascii\",",
  py"        \"len_enc\": \"ascii\",",
  py"        \"len_type\": 0,",
  py"        \"max_len\": 4,",
  py"        \"desc\": \"Date, Capture\",",
  py"    },",
  py"    \"18\": {",
  py"        \"data_enc\": \"ascii\",",
  py"        \"len_enc\": \"ascii\",",
  py"        \"len_type\": 0,",
  py"        \"max_len\": 4,",
  py"        \"desc\": \"Merchant Type\",",
  py"    },",
  py"    \"19\": {",
  py"        \"data_enc\": \"ascii\",",
  py"        \"len_enc\": \"ascii\",",
  py"        \"len_type\": 0,",
  py"        \"max_len\": 3,",
  py"        \"desc\": \"Acquiring Institution Country Code\",",
  py"    },"]

/-- specs.py, lines 1551 to 1600. -/
def specsText32 : List Str := [
  py"    \"20\": {",
  py"        \"data_enc\": \"ascii\",",
  py"        \"len_enc\": \"ascii\",",
  py"        \"len_type\": 0,",
  py"        \"max_len\": 3,",
  py"        \"desc\": \"PAN Country Code\",",
  py"    },",
  py"    \"21\": {",
  py"        \"data_enc\": \"ascii\",",
  py"        \"len_enc\": \"ascii\",",
  py"        \"len_type\": 0,",
  py"        \"max_len\": 3,",
  py"        \"desc\": \"Forwarding Institution Country Code\",",
  py"    },",
  py"    \"22\": {",
  py"        \"data_enc\": \"ascii\",",
  py"        \"len_enc\": \"ascii\",",
  py"        \"len_type\": 0,",
  py"        \"max_len\": 3,",
  py"        \"desc\": \"Point-of-Service Entry Mode\",",
  py"    },",
  py"    \"23\": {",
  py"        \"data_enc\": \"ascii\",",
  py"        \"len_enc\": \"ascii\",",
  py"        \"len_type\": 0,",
  py"        \"max_len\": 3,",
  py"        \"desc\": \"PAN Sequence Number\",",
  py"    },",
  py"    \"24\": {",
  py"        \"data_enc\": \"ascii\",",
  py"        \"len_enc\": \"ascii\",",
  py"        \"len_type\": 0,",
  py"        \"max_len\": 3,",
  py"        \"desc\": \"Network International ID (NII)\",",
  py"    },",
  py"    \"25\": {",
  py"        \"data_enc\": \"ascii\",",
  py"        \"len_enc\": \"ascii\",",
  py"        \"len_type\": 0,",
  py"        \"max_len\": 2,",
  py"        \"desc\": \"Point-of-Service Condition Code\",",
  py"    },",
  py"    \"26\": {",
  py"        \"data_enc\": \"ascii\",",
  py"        \"len_enc\": \"ascii\",",
  py"        \"len_type\": 0,",
  py"        \"max_len\": 2,",
  py"        \"desc\": \"Point-of-Service Capture Code\",",
  py"    },",
  py"    \"27\": {"]

/-- specs.py, lines 1601 to 1650. -/
def specsText33 : List Str := [
  py"        \"data_enc\": \"ascii\",",
  py"        \"len_enc\": \"ascii\",",
  py"        \"len_type\": 0,",
  py"        \"max_len\": 1,",
  py"        \"desc\": \"Authorizing ID Response Length\",",
  py"    },",
  py"    \"28\": {",
  py"        \"data_enc\": \"ascii\",",
  py"        \"len_enc\": \"ascii\",",
  py"        \"len_type\": 0,",
  py"        \"max_len\": 9,",
  py"        \"desc\": \"Amount, Transaction Fee\",",
  py"    },",
  py"    \"29\": {",
  py"        \"data_enc\": \"ascii\",",
  py"        \"len_enc\": \"ascii\",",
  py"        \"len_type\": 0,",
  py"        \"max_len\": 9,",
  py"        \"desc\": \"Amount, Settlement Fee\",",
  py"    },",
  py"    \"30\": {",
  py"        \"data_enc\": \"ascii\",",
  py"        \"len_enc\": \"ascii\",",
  py"        \"len_type\": 0,",
  py"        \"max_len\": 9,",
  py"        \"desc\": \"Amount, Transaction Processing Fee\",",
  py"    },",
  py"    \"31\": {",
  py"        \"data_enc\": \"ascii\",",
  py"        \"len_enc\": \"ascii\",",
  py"        \"len_type\": 0,",
  py"        \"max_len\": 9,",
  py"        \"desc\": \"Amount, Settlement Processing Fee\",",
  py"    },",
  py"    \"32\": {",
  py"        \"data_enc\": \"ascii\",",
  py"        \"len_enc\": \"ascii\",",
  py"        \"len_type\": 2,",
  py"        \"max_len\": 11,",
  py"        \"desc\": \"Acquiring Institution ID Code\",",
  py"    },",
  py"    \"33\": {",
  py"        \"data_enc\": \"ascii\",",
  py"        \"len_enc\": \"ascii\",",
  py"        \"len_type\": 2,",
  py"        \"max_len\": 11,",
  py"        \"desc\": \"Forwarding Institution ID Code\",",
  py"    },",
  py"    \"34\": {",
  py"        \"data_enc\": \"ascii\","]

/-- specs.py, lines 1651 to 1700. -/
def specsText34 : List Str := [
  py"        \"len_enc\": \"ascii\",",
  py"        \"len_type\": 2,",
  py"        \"max_len\": 28,",
  py"        \"desc\": \"Primary Account Number, Extended\",",
  py"    },",
  py"    \"35\": {",
  py"        \"data_enc\": \"ascii\",",
  py"        \"len_enc\": \"ascii\",",
  py"        \"len_type\": 2,",
  py"        \"max_len\": 37,",
  py"        \"desc\": \"Track 2 Data\",",
  py"    },",
  py"    \"36\": {",
  py"        \"data_enc\": \"ascii\",",
  py"        \"len_enc\": \"ascii\",",
  py"        \"len_type\": 3,",
  py"        \"max_len\": 104,",
  py"        \"desc\": \"Track 3 Data\",",
  py"    },",
  py"    \"37\": {",
  py"        \"data_enc\": \"ascii\",",
  py"        \"len_enc\": \"ascii\",",
  py"        \"len_type\": 0,",
  py"        \"max_len\": 12,",
  py"        \"desc\": \"Retrieval Reference Number\",",
  py"    },",
  py"    \"38\": {",
  py"        \"data_enc\": \"ascii\",",
  py"        \"len_enc\": \"ascii\",",
  py"        \"len_type\": 0,",
  py"        \"max_len\": 6,",
  py"        \"desc\": \"Authorization ID Response\",",
  py"    },",
  py"    \"39\": {",
  py"        \"data_enc\": \"ascii\",",
  py"        \"len_enc\": \"ascii\",",
  py"        \"len_type\": 0,",
  py"        \"max_len\": 2,",
  py"        \"desc\": \"Response Code\",",
  py"    },",
  py"    \"40\": {",
  py"        \"data_enc\": \"ascii\",",
  py"        \"len_enc\": \"ascii\",",
  py"        \"len_type\": 0,",
  py"        \"max_len\": 3,",
  py"        \"desc\": \"Service Restriction Code\",",
  py"    },",
  py"    \"41\": {",
  py"        \"data_enc\": \"ascii\",",
  py"        \"len_enc\": \"ascii\","]

/-- specs.py, lines 1701 to 1750. -/
def specsText35 : List Str := [
  py"        \"len_type\": 0,",
  py"        \"max_len\": 8,",
  py"        \"desc\": \"Card Acceptor Terminal ID\",",
  py"    },",
  py"    \"42\": {",
  py"        \"data_enc\": \"ascii\",",
  py"        \"len_enc\": \"ascii\",",
  py"        \"len_type\": 0,",
  py"        \"max_len\": 15,",
  py"        \"desc\": \"Card Acceptor ID Code\",",
  py"    },",
  py"    \"43\": {",
  py"        \"data_enc\": \"ascii\",",
  py"        \"len_enc\": \"ascii\",",
  py"        \"len_type\": 0,",
  py"        \"max_len\": 40,",
  py"        \"desc\": \"Card Acceptor Name/Location\",",
  py"    },",
  py"    \"44\": {",
  py"        \"data_enc\": \"ascii\",",
  py"        \"len_enc\": \"ascii\",",
  py"        \"len_type\": 2,",
  py"        \"max_len\": 25,",
  py"        \"desc\": \"Additional Response Data\",",
  py"    },",
  py"    \"45\": {",
  py"        \"data_enc\": \"ascii\",",
  py"        \"len_enc\": \"ascii\",",
  py"        \"len_type\": 2,",
  py"        \"max_len\": 76,",
  py"        \"desc\": \"Track 1 Data\",",
  py"    },",
  py"    \"46\": {",
  py"        \"data_enc\": \"ascii\",",
  py"        \"len_enc\": \"ascii\",",
  py"        \"len_type\": 3,",
  py"        \"max_len\": 999,",
  py"        \"desc\": \"Additional Data - ISO\",",
  py"    },",
  py"    \"47\": {",
  py"        \"data_enc\": \"ascii\",",
  py"        \"len_enc\": \"ascii\",",
  py"        \"len_type\": 3,",
  py"        \"max_len\": 999,",
  py"        \"desc\": \"Additional Data - National\",",
  py"    },",
  py"    \"48\": {",
  py"        \"data_enc\": \"ascii\",",
  py"        \"len_enc\": \"ascii\",",
  py"        \"len_type\": 3,"]

/-- specs.py, lines 1751 to 1800. -/
def specsText36 : List Str := [
  py"        \"max_len\": 999,",
  py"        \"desc\": \"Additional Data - Private\",",
  py"    },",
  py"    \"49\": {",
  py"        \"data_enc\": \"ascii\",",
  py"        \"len_enc\": \"ascii\",",
  py"        \"len_type\": 0,",
  py"        \"max_len\": 3,",
  py"        \"desc\": \"Currency Code, Transaction\",",
  py"    },",
  py"    \"50\": {",
  py"        \"data_enc\": \"ascii\",",
  py"        \"len_enc\": \"ascii\",",
  py"        \"len_type\": 0,",
  py"        \"max_len\": 3,",
  py"        \"desc\": \"Currency Code, Settlement\",",
  py"    },",
  py"    \"51\": {",
  py"        \"data_enc\": \"ascii\",",
  py"        \"len_enc\": \"ascii\",",
  py"        \"len_type\": 0,",
  py"        \"max_len\": 3,",
  py"        \"desc\": \"Currency Code, Cardholder Billing\",",
  py"    },",
  py"    \"52\": {",
  py"        \"data_enc\": \"ascii\",",
  py"        \"len_enc\": \"ascii\",",
  py"        \"len_type\": 0,",
  py"        \"max_len\": 16,",
  py"        \"desc\": \"PIN\",",
  py"    },",
  py"    \"53\": {",
  py"        \"data_enc\": \"ascii\",",
  py"        \"len_enc\": \"ascii\",",
  py"        \"len_type\": 0,",
  py"        \"max_len\": 16,",
  py"        \"desc\": \"Security-Related Control Information\",",
  py"    },",
  py"    \"54\": {",
  py"        \"data_enc\": \"ascii\",",
  py"        \"len_enc\": \"ascii\",",
  py"        \"len_type\": 3,",
  py"        \"max_len\": 240,",
  py"        \"desc\": \"Additional Amounts\",",
  py"    },",
  py"    \"55\": {",
  py"        \"data_enc\": \"ascii\",",
  py"        \"len_enc\": \"ascii\",",
  py"        \"len_type\": 3,",
  py"        \"max_len\": 510,"]

/-- specs.py, lines 1801 to 1850. -/
def specsText37 : List Str := [
  py"        \"desc\": \"ICC data\",",
  py"    },",
  py"    \"56\": {",
  py"        \"data_enc\": \"ascii\",",
  py"        \"len_enc\": \"ascii\",",
  py"        \"len_type\": 3,",
  py"        \"max_len\": 999,",
  py"        \"desc\": \"Reserved ISO\",",
  py"    },",
  py"    \"57\": {",
  py"        \"data_enc\": \"ascii\",",
  py"        \"len_enc\": \"ascii\",",
  py"        \"len_type\": 3,",
  py"        \"max_len\": 999,",
  py"        \"desc\": \"Reserved National\",",
  py"    },",
  py"    \"58\": {",
  py"        \"data_enc\": \"ascii\",",
  py"        \"len_enc\": \"ascii\",",
  py"        \"len_type\": 3,",
  py"        \"max_len\": 999,",
  py"        \"desc\": \"Reserved National\",",
  py"    },",
  py"    \"59\": {",
  py"        \"data_enc\": \"ascii\",",
  py"        \"len_enc\": \"ascii\",",
  py"        \"len_type\": 3,",
  py"        \"max_len\": 999,",
  py"        \"desc\": \"Reserved National\",",
  py"    },",
  py"    \"60\": {",
  py"        \"data_enc\": \"ascii\",",
  py"        \"len_enc\": \"ascii\",",
  py"        \"len_type\": 3,",
  py"        \"max_len\": 999,",
  py"        \"desc\": \"Reserved National\",",
  py"    },",
  py"    \"61\": {",
  py"        \"data_enc\": \"ascii\",",
  py"        \"len_enc\": \"ascii\",",
  py"        \"len_type\": 3,",
  py"        \"max_len\": 999,",
  py"        \"desc\": \"Reserved Private\",",
  py"    },",
  py"    \"62\": {",
  py"        \"data_enc\": \"ascii\",",
  py"        \"len_enc\": \"ascii\",",
  py"        \"len_type\": 3,",
  py"        \"max_len\": 999,",
  py"        \"desc\": \"Reserved Private\","]

/-- specs.py, lines 1851 to 1900. -/
def specsText38 : List Str := [
  py"    },",
  py"    \"63\": {",
  py"        \"data_enc\": \"ascii\",",
  py"        \"len_enc\": \"ascii\",",
  py"        \"len_type\": 3,",
  py"        \"max_len\": 999,",
  py"        \"desc\": \"Reserved Private\",",
  py"    },",
  py"    \"64\": {",
  py"        \"data_enc\": \"ascii\",",
  py"        \"len_enc\": \"ascii\",",
  py"        \"len_type\": 0,",
  py"        \"max_len\": 16,",
  py"        \"desc\": \"MAC\",",
  py"    },",
  py"    \"65\": {",
  py"        \"data_enc\": \"ascii\",",
  py"        \"len_enc\": \"ascii\",",
  py"        \"len_type\": 0,",
  py"        \"max_len\": 16,",
  py"        \"desc\": \"Bitmap, Extended\",",
  py"    },",
  py"    \"66\": {",
  py"        \"data_enc\": \"ascii\",",
  py"        \"len_enc\": \"ascii\",",
  py"        \"len_type\": 0,",
  py"        \"max_len\": 1,",
  py"        \"desc\": \"Settlement Code\",",
  py"    },",
  py"    \"67\": {",
  py"        \"data_enc\": \"ascii\",",
  py"        \"len_enc\": \"ascii\",",
  py"        \"len_type\": 0,",
  py"        \"max_len\": 2,",
  py"        \"desc\": \"Extended Payment Code\",",
  py"    },",
  py"    \"68\": {",
  py"        \"data_enc\": \"ascii\",",
  py"        \"len_enc\": \"ascii\",",
  py"        \"len_type\": 0,",
  py"        \"max_len\": 3,",
  py"        \"desc\": \"Receiving Institution Country Code\",",
  py"    },",
  py"    \"69\": {",
  py"        \"data_enc\": \"ascii\",",
  py"        \"len_enc\": \"ascii\",",
  py"        \"len_type\": 0,",
  py"        \"max_len\": 3,",
  py"        \"desc\": \"Settlement Institution Country Code\",",
  py"    },"]

/-- specs.py, lines 1901 to 1950. -/
def specsText39 : List Str := [
  py"    \"70\": {",
  py"        \"data_enc\": \"ascii\",",
  py"        \"len_enc\": \"ascii\",",
  py"        \"len_type\": 0,",
  py"        \"max_len\": 3,",
  py"        \"desc\": \"Network Management Information Code\",",
  py"    },",
  py"    \"71\": {",
  py"        \"data_enc\": \"ascii\",",
  py"        \"len_enc\": \"ascii\",",
  py"        \"len_type\": 0,",
  py"        \"max_len\": 4,",
  py"        \"desc\": \"Message Number\",",
  py"    },",
  py"    \"72\": {",
  py"        \"data_enc\": \"ascii\",",
  py"        \"len_enc\": \"ascii\",",
  py"        \"len_type\": 0,",
  py"        \"max_len\": 4,",
  py"        \"desc\": \"Message Number, Last\",",
  py"    },",
  py"    \"73\": {",
  py"        \"data_enc\": \"ascii\",",
  py"        \"len_enc\": \"ascii\",",
  py"        \"len_type\": 0,",
  py"        \"max_len\": 6,",
  py"        \"desc\": \"Date, Action\",",
  py"    },",
  py"    \"74\": {",
  py"        \"data_enc\": \"ascii\",",
  py"        \"len_enc\": \"ascii\",",
  py"        \"len_type\": 0,",
  py"        \"max_len\": 10,",
  py"        \"desc\": \"Credits, Number\",",
  py"    },",
  py"    \"75\": {",
  py"        \"data_enc\": \"ascii\",",
  py"        \"len_enc\": \"ascii\",",
  py"        \"len_type\": 0,",
  py"        \"max_len\": 10,",
  py"        \"desc\": \"Credits, Reversal Number\",",
  py"    },",
  py"    \"76\": {",
  py"        \"data_enc\": \"ascii\",",
  py"        \"len_enc\": \"ascii\",",
  py"        \"len_type\": 0,",
  py"        \"max_len\": 10,",
  py"        \"desc\": \"Debits, Number\",",
  py"    },",
  py"    \"77\": {"]

/-- specs.py, lines 1951 to 2000. -/
def specsText40 : List Str := [
  py"        \"data_enc\": \"ascii\",",
  py"        \"len_enc\": \"ascii\",",
  py"        \"len_type\": 0,",
  py"        \"max_len\": 10,",
  py"        \"desc\": \"Debits, Reversal Number\",",
  py"    },",
  py"    \"78\": {",
  py"        \"data_enc\": \"ascii\",",
  py"        \"len_enc\": \"ascii\",",
  py"        \"len_type\": 0,",
  py"        \"max_len\": 10,",
  py"        \"desc\": \"Transfer, Number\",",
  py"    },",
  py"    \"79\": {",
  py"        \"data_enc\": \"ascii\",",
  py"        \"len_enc\": \"ascii\",",
  py"        \"len_type\": 0,",
  py"        \"max_len\": 10,",
  py"        \"desc\": \"Transfer, Reversal Number\",",
  py"    },",
  py"    \"80\": {",
  py"        \"data_enc\": \"ascii\",",
  py"        \"len_enc\": \"ascii\",",
  py"        \"len_type\": 0,",
  py"        \"max_len\": 10,",
  py"        \"desc\": \"Inquiries, Number\",",
  py"    },",
  py"    \"81\": {",
  py"        \"data_enc\": \"ascii\",",
  py"        \"len_enc\": \"ascii\",",
  py"        \"len_type\": 0,",
  py"        \"max_len\": 10,",
  py"        \"desc\": \"Authorizations, Number\",",
  py"    },",
  py"    \"82\": {",
  py"        \"data_enc\": \"ascii\",",
  py"        \"len_enc\": \"ascii\",",
  py"        \"len_type\": 0,",
  py"        \"max_len\": 12,",
  py"        \"desc\": \"Credits, Processing Fee Amount\",",
  py"    },",
  py"    \"83\": {",
  py"        \"data_enc\": \"ascii\",",
  py"        \"len_enc\": \"ascii\",",
  py"        \"len_type\": 0,",
  py"        \"max_len\": 12,",
  py"        \"desc\": \"Credits, Transaction Fee Amount\",",
  py"    },",
  py"    \"84\": {",
  py"        \"data_enc\": \"ascii\","]

/-- specs.py, lines 2001 to 2050. -/
def specsText41 : List Str := [
  py"        \"len_enc\": \"ascii\",",
  py"        \"len_type\": 0,",
  py"        \"max_len\": 12,",
  py"        \"desc\": \"Debits, Processing Fee Amount\",",
  py"    },",
  py"    \"85\": {",
  py"        \"data_enc\": \"ascii\",",
  py"        \"len_enc\": \"ascii\",",
  py"        \"len_type\": 0,",
  py"        \"max_len\": 12,",
  py"        \"desc\": \"Debits, Transaction Fee Amount\",",
  py"    },",
  py"    \"86\": {",
  py"        \"data_enc\": \"ascii\",",
  py"        \"len_enc\": \"ascii\",",
  py"        \"len_type\": 0,",
  py"        \"max_len\": 16,",
  py"        \"desc\": \"Credits, Amount\",",
  py"    },",
  py"    \"87\": {",
  py"        \"data_enc\": \"ascii\",",
  py"        \"len_enc\": \"ascii\",",
  py"        \"len_type\": 0,",
  py"        \"max_len\": 16,",
  py"        \"desc\": \"Credits, Reversal Amount\",",
  py"    },",
  py"    \"88\": {",
  py"        \"data_enc\": \"ascii\",",
  py"        \"len_enc\": \"ascii\",",
  py"        \"len_type\": 0,",
  py"        \"max_len\": 16,",
  py"        \"desc\": \"Debits, Amount\",",
  py"    },",
  py"    \"89\": {",
  py"        \"data_enc\": \"ascii\",",
  py"        \"len_enc\": \"ascii\",",
  py"        \"len_type\": 0,",
  py"        \"max_len\": 16,",
  py"        \"desc\": \"Debits, Reversal Amount\",",
  py"    },",
  py"    \"90\": {",
  py"        \"data_enc\": \"ascii\",",
  py"        \"len_enc\": \"ascii\",",
  py"        \"len_type\": 0,",
  py"        \"max_len\": 42,",
  py"        \"desc\": \"Original Data Elements\",",
  py"    },",
  py"    \"91\": {",
  py"        \"data_enc\": \"ascii\",",
  py"        \"len_enc\": \"ascii\","]

/-- specs.py, lines 2051 to 2100. -/
def specsText42 : List Str := [
  py"        \"len_type\": 0,",
  py"        \"max_len\": 1,",
  py"        \"desc\": \"File Update Code\",",
  py"    },",
  py"    \"92\": {",
  py"        \"data_enc\": \"ascii\",",
  py"        \"len_enc\": \"ascii\",",
  py"        \"len_type\": 0,",
  py"        \"max_len\": 2,",
  py"        \"desc\": \"File Security Code\",",
  py"    },",
  py"    \"93\": {",
  py"        \"data_enc\": \"ascii\",",
  py"        \"len_enc\": \"ascii\",",
  py"        \"len_type\": 0,",
  py"        \"max_len\": 5,",
  py"        \"desc\": \"Response Indicator\",",
  py"    },",
  py"    \"94\": {",
  py"        \"data_enc\": \"ascii\",",
  py"        \"len_enc\": \"ascii\",",
  py"        \"len_type\": 0,",
  py"        \"max_len\": 7,",
  py"        \"desc\": \"Service Indicator\",",
  py"    },",
  py"    \"95\": {",
  py"        \"data_enc\": \"ascii\",",
  py"        \"len_enc\": \"ascii\",",
  py"        \"len_type\": 0,",
  py"        \"max_len\": 42,",
  py"        \"desc\": \"Replacement Amounts\",",
  py"    },",
  py"    \"96\": {",
  py"        \"data_enc\": \"ascii\",",
  py"        \"len_enc\": \"ascii\",",
  py"        \"len_type\": 0,",
  py"        \"max_len\": 16,",
  py"        \"desc\": \"Message Security Code\",",
  py"    },",
  py"    \"97\": {",
  py"        \"data_enc\": \"ascii\",",
  py"        \"len_enc\": \"ascii\",",
  py"        \"len_type\": 0,",
  py"        \"max_len\": 17,",
  py"        \"desc\": \"Amount, Net Settlement\",",
  py"    },",
  py"    \"98\": {",
  py"        \"data_enc\": \"ascii\",",
  py"        \"len_enc\": \"ascii\",",
  py"        \"len_type\": 0,"]

/-- specs.py, lines 2101 to 2150. -/
def specsText43 : List Str := [
  py"        \"max_len\": 25,",
  py"        \"desc\": \"Payee\",",
  py"    },",
  py"    \"99\": {",
  py"        \"data_enc\": \"ascii\",",
  py"        \"len_enc\": \"ascii\",",
  py"        \"len_type\": 2,",
  py"        \"max_len\": 11,",
  py"        \"desc\": \"Settlement Institution ID Code\",",
  py"    },",
  py"    \"100\": {",
  py"        \"data_enc\": \"ascii\",",
  py"        \"len_enc\": \"ascii\",",
  py"        \"len_type\": 2,",
  py"        \"max_len\": 11,",
  py"        \"desc\": \"Receiving Institution ID Code\",",
  py"    },",
  py"    \"101\": {",
  py"        \"data_enc\": \"ascii\",",
  py"        \"len_enc\": \"ascii\",",
  py"        \"len_type\": 2,",
  py"        \"max_len\": 17,",
  py"        \"desc\": \"File Name\",",
  py"    },",
  py"    \"102\": {",
  py"        \"data_enc\": \"ascii\",",
  py"        \"len_enc\": \"ascii\",",
  py"        \"len_type\": 2,",
  py"        \"max_len\": 28,",
  py"        \"desc\": \"Account ID 1\",",
  py"    },",
  py"    \"103\": {",
  py"        \"data_enc\": \"ascii\",",
  py"        \"len_enc\": \"ascii\",",
  py"        \"len_type\": 2,",
  py"        \"max_len\": 28,",
  py"        \"desc\": \"Account ID 2\",",
  py"    },",
  py"    \"104\": {",
  py"        \"data_enc\": \"ascii\",",
  py"        \"len_enc\": \"ascii\",",
  py"        \"len_type\": 3,",
  py"        \"max_len\": 100,",
  py"        \"desc\": \"Transaction Description\",",
  py"    },",
  py"    \"105\": {",
  py"        \"data_enc\": \"ascii\",",
  py"        \"len_enc\": \"ascii\",",
  py"        \"len_type\": 3,",
  py"        \"max_len\": 999,"]

/-- specs.py, lines 2151 to 2200. -/
def specsText44 : List Str := [
  py"        \"desc\": \"Reserved for ISO Use\",",
  py"    },",
  py"    \"106\": {",
  py"        \"data_enc\": \"ascii\",",
  py"        \"len_enc\": \"ascii\",",
  py"        \"len_type\": 3,",
  py"        \"max_len\": 999,",
  py"        \"desc\": \"Reserved for ISO Use\",",
  py"    },",
  py"    \"107\": {",
  py"        \"data_enc\": \"ascii\",",
  py"        \"len_enc\": \"ascii\",",
  py"        \"len_type\": 3,",
  py"        \"max_len\": 999,",
  py"        \"desc\": \"Reserved for ISO Use\",",
  py"    },",
  py"    \"108\": {",
  py"        \"data_enc\": \"ascii\",",
  py"        \"len_enc\": \"ascii\",",
  py"        \"len_type\": 3,",
  py"        \"max_len\": 999,",
  py"        \"desc\": \"Reserved for ISO Use\",",
  py"    },",
  py"    \"109\": {",
  py"        \"data_enc\": \"ascii\",",
  py"        \"len_enc\": \"ascii\",",
  py"        \"len_type\": 3,",
  py"        \"max_len\": 999,",
  py"        \"desc\": \"Reserved for ISO Use\",",
  py"    },",
  py"    \"110\": {",
  py"        \"data_enc\": \"ascii\",",
  py"        \"len_enc\": \"ascii\",",
  py"        \"len_type\": 3,",
  py"        \"max_len\": 999,",
  py"        \"desc\": \"Reserved for ISO Use\",",
  py"    },",
  py"    \"111\": {",
  py"        \"data_enc\": \"ascii\",",
  py"        \"len_enc\": \"ascii\",",
  py"        \"len_type\": 3,",
  py"        \"max_len\": 999,",
  py"        \"desc\": \"Reserved for ISO Use\",",
  py"    },",
  py"    \"112\": {",
  py"        \"data_enc\": \"ascii\",",
  py"        \"len_enc\": \"ascii\",",
  py"        \"len_type\": 3,",
  py"        \"max_len\": 999,",
  py"        \"desc\": \"Reserved for National Use\","]

/-- specs.py, lines 2201 to 2250. -/
def specsText45 : List Str := [
  py"    },",
  py"    \"113\": {",
  py"        \"data_enc\": \"ascii\",",
  py"        \"len_enc\": \"ascii\",",
  py"        \"len_type\": 3,",
  py"        \"max_len\": 999,",
  py"        \"desc\": \"Reserved for National Use\",",
  py"    },",
  py"    \"114\": {",
  py"        \"data_enc\": \"ascii\",",
  py"        \"len_enc\": \"ascii\",",
  py"        \"len_type\": 3,",
  py"        \"max_len\": 999,",
  py"        \"desc\": \"Reserved for National Use\",",
  py"    },",
  py"    \"115\": {",
  py"        \"data_enc\": \"ascii\",",
  py"        \"len_enc\": \"ascii\",",
  py"        \"len_type\": 3,",
  py"        \"max_len\": 999,",
  py"        \"desc\": \"Reserved for National Use\",",
  py"    },",
  py"    \"116\": {",
  py"        \"data_enc\": \"ascii\",",
  py"        \"len_enc\": \"ascii\",",
  py"        \"len_type\": 3,",
  py"        \"max_len\": 999,",
  py"        \"desc\": \"Reserved for National Use\",",
  py"    },",
  py"    \"117\": {",
  py"        \"data_enc\": \"ascii\",",
  py"        \"len_enc\": \"ascii\",",
  py"        \"len_type\": 3,",
  py"        \"max_len\": 999,",
  py"        \"desc\": \"Reserved for National Use\",",
  py"    },",
  py"    \"118\": {",
  py"        \"data_enc\": \"ascii\",",
  py"        \"len_enc\": \"ascii\",",
  py"        \"len_type\": 3,",
  py"        \"max_len\": 999,",
  py"        \"desc\": \"Reserved for National Use\",",
  py"    },",
  py"    \"119\": {",
  py"        \"data_enc\": \"ascii\",",
  py"        \"len_enc\": \"ascii\",",
  py"        \"len_type\": 3,",
  py"        \"max_len\": 999,",
  py"        \"desc\": \"Reserved for National Use\",",
  py"    },"]

/-- specs.py, lines 2251 to 2300. -/
def specsText46 : List Str := [
  py"    \"120\": {",
  py"        \"data_enc\": \"ascii\",",
  py"        \"len_enc\": \"ascii\",",
  py"        \"len_type\": 3,",
  py"        \"max_len\": 999,",
  py"        \"desc\": \"Reserved for Private Use\",",
  py"    },",
  py"    \"121\": {",
  py"        \"data_enc\": \"ascii\",",
  py"        \"len_enc\": \"ascii\",",
  py"        \"len_type\": 3,",
  py"        \"max_len\": 999,",
  py"        \"desc\": \"Reserved for Private Use\",",
  py"    },",
  py"    \"122\": {",
  py"        \"data_enc\": \"ascii\",",
  py"        \"len_enc\": \"ascii\",",
  py"        \"len_type\": 3,",
  py"        \"max_len\": 999,",
  py"        \"desc\": \"Reserved for Private Use\",",
  py"    },",
  py"    \"123\": {",
  py"        \"data_enc\": \"ascii\",",
  py"        \"len_enc\": \"ascii\",",
  py"        \"len_type\": 3,",
  py"        \"max_len\": 999,",
  py"        \"desc\": \"Reserved for Private Use\",",
  py"    },",
  py"    \"124\": {",
  py"        \"data_enc\": \"ascii\",",
  py"        \"len_enc\": \"ascii\",",
  py"        \"len_type\": 3,",
  py"        \"max_len\": 999,",
  py"        \"desc\": \"Reserved for Private Use\",",
  py"    },",
  py"    \"125\": {",
  py"        \"data_enc\": \"ascii\",",
  py"        \"len_enc\": \"ascii\",",
  py"        \"len_type\": 3,",
  py"        \"max_len\": 999,",
  py"        \"desc\": \"Reserved for Private Use\",",
  py"    },",
  py"    \"126\": {",
  py"        \"data_enc\": \"ascii\",",
  py"        \"len_enc\": \"ascii\",",
  py"        \"len_type\": 3,",
  py"        \"max_len\": 999,",
  py"        \"desc\": \"Reserved for Private Use\",",
  py"    },",
  py"    \"127\": {"]

/-- specs.py, lines 2301 to 2314. -/
def specsText47 : List Str := [
  py"        \"data_enc\": \"ascii\",",
  py"        \"len_enc\": \"ascii\",",
  py"        \"len_type\": 3,",
  py"        \"max_len\": 999,",
  py"        \"desc\": \"Reserved for Private Use\",",
  py"    },",
  py"    \"128\": {",
  py"        \"data_enc\": \"ascii\",",
  py"        \"len_enc\": \"ascii\",",
  py"        \"len_type\": 0,",
  py"        \"max_len\": 16,",
  py"        \"desc\": \"MAC\",",
  py"    },",
  py"}"]

/-- The lines of specs.py. -/
def specsText : List Str :=
  specsText1 ++ specsText2 ++ specsText3 ++ specsText4 ++ specsText5 ++ specsText6 ++ specsText7 ++ specsText8 ++ specsText9 ++ specsText10 ++ specsText11 ++ specsText12 ++ specsText13 ++ specsText14 ++ specsText15 ++ specsText16 ++ specsText17 ++ specsText18 ++ specsText19 ++ specsText20 ++ specsText21 ++ specsText22 ++ specsText23 ++ specsText24 ++ specsText25 ++ specsText26 ++ specsText27 ++ specsText28 ++ specsText29 ++ specsText30 ++ specsText31 ++ specsText32 ++ specsText33 ++ specsText34 ++ specsText35 ++ specsText36 ++ specsText37 ++ specsText38 ++ specsText39 ++ specsText40 ++ specsText41 ++ specsText42 ++ specsText43 ++ specsText44 ++ specsText45 ++ specsText46 ++ specsText47

/-- __init__.py, lines 1 to 50. -/
def initText1 : List Str := [
  py"r\"\"\"`iso8583` package serializes and deserializes ISO8583 data between a",
  py"``bytes`` or ``bytearray`` instance containing ISO8583 data and a Python ``dict``.",
  py"",
  py"`iso8583` package supports custom specifications. See `iso8583.specs` module.",
  py"",
  py"Use `iso8583.decode` to decode raw iso8583 message.",
  py"It returns two dictionaries: one with decoded data and one with encoded data.",
  py"",
  py".. code-block:: python",
  py"",
  py"    >>> import pprint",
  py"    >>> import iso8583",
  py"    >>> from iso8583.specs import default_ascii as spec",
  py"    >>> encoded_raw = b'02004000000000000000101234567890'",
  py"    >>> decoded, encoded = iso8583.decode(encoded_raw, spec)",
  py"    >>> pprint.pprint(decoded)",
  py"    {'2': '1234567890', 'p': '4000000000000000', 't': '0200'}",
  py"    >>> pprint.pprint(encoded)",
  py"    {'2': {'data': b'1234567890', 'len': b'10'},",
  py"     'p': {'data': b'4000000000000000', 'len': b''},",
  py"     't': {'data': b'0200', 'len': b''}}",
  py"",
  py"Use `iso8583.encode` to encode updated ISO8583 message.",
  py"It returns a raw ISO8583 message and a dictionary with encoded data.",
  py"",
  py".. code-block:: python",
  py"",
  py"    >>> import pprint",
  py"    >>> import iso8583",
  py"    >>> from iso8583.specs import default_ascii as spec",
  py"    >>> decoded = {",
  py"    ...     \"t\": \"0200\",",
  py"    ...     \"2\": \"1234567890\",",
  py"    ...     \"39\": \"00\"",
  py"    ... }",
  py"    >>> encoded_raw, encoded = iso8583.encode(decoded, spec)",
  py"    >>> encoded_raw",
  py"    bytearray(b'0200400000000200000010123456789000')",
  py"    >>> pprint.pprint(decoded)",
  py"    {'2': '1234567890', '39': '00', 'p': '4000000002000000', 't': '0200'}",
  py"    >>> pprint.pprint(encoded)",
  py"    {'2': {'data': b'1234567890', 'len': b'10'},",
  py"     '39': {'data': b'00', 'len': b''},",
  py"     'p': {'data': b'4000000002000000', 'len': b''},",
  py"     't': {'data': b'0200', 'len': b''}}",
  py"",
  py"Use `iso8583.pp` to pretty print ISO8583 message.",
  py"",
  py".. code-block:: python",
  py""]

/-- __init__.py, lines 51 to 77. -/
def initText2 : List Str := [
  py"    >>> import iso8583",
  py"    >>> from iso8583.specs import default_ascii as spec",
  py"    >>> encoded_raw = b'02004000000000000000101234567890'",
  py"    >>> decoded, encoded = iso8583.decode(encoded_raw, spec)",
  py"    >>> iso8583.pp(decoded, spec)",
  py"    t   Message Type                  : '0200'",
  py"    p   Bitmap, Primary               : '4000000000000000'",
  py"    2   Primary Account Number (PAN)  : '1234567890'",
  py"    >>> iso8583.pp(encoded, spec)",
  py"    t   Message Type                  : b'0200'",
  py"    p   Bitmap, Primary               : b'4000000000000000'",
  py"    2   Primary Account Number (PAN)  : b'10' b'1234567890'",
  py"\"\"\"",
  py"",
  py"__version__ = \"4.0.1\"",
  py"__all__ = [",
  py"    \"pp\",",
  py"    \"decode\",",
  py"    \"DecodeError\",",
  py"    \"encode\",",
  py"    \"EncodeError\",",
  py"]",
  py"__author__ = \"Konstantin Novichikhin <konstantin.novichikhin@gmail.com>\"",
  py"",
  py"from iso8583.decoder import DecodeError, decode",
  py"from iso8583.encoder import EncodeError, encode",
  py"from iso8583.tools import pp"]

/-- The lines of __init__.py. -/
def initText : List Str :=
  initText1 ++ initText2

end Iso8583.Src
