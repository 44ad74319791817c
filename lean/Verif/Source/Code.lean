import Verif.Source.Syntax
/-!
# The functions of decoder.py, encoder.py and tools.py as data

Written by `tools/gen_source.py` from the text of `/repo/iso8583`; do not edit.
-/

namespace Iso8583.Src

/-- decoder.py:38-38. -/
def decodeErrorInit1 : Stmt :=
  .assign [(.name .errmsg)] (.fstr [(.name .msg), (.str py": field "), (.name .field), (.str py" pos "), (.name .pos)])

/-- decoder.py:39-39. -/
def decodeErrorInit2 : Stmt :=
  .expr (.meth (.name .ValueError) .__init__ [(.name .self), (.name .errmsg)] [] [])

/-- decoder.py:40-40. -/
def decodeErrorInit3 : Stmt :=
  .assign [(.attr (.name .self) .msg)] (.name .msg)

/-- decoder.py:41-41. -/
def decodeErrorInit4 : Stmt :=
  .assign [(.attr (.name .self) .s)] (.name .s)

/-- decoder.py:42-42. -/
def decodeErrorInit5 : Stmt :=
  .assign [(.attr (.name .self) .doc_dec)] (.name .doc_dec)

/-- decoder.py:43-43. -/
def decodeErrorInit6 : Stmt :=
  .assign [(.attr (.name .self) .doc_enc)] (.name .doc_enc)

/-- decoder.py:44-44. -/
def decodeErrorInit7 : Stmt :=
  .assign [(.attr (.name .self) .field)] (.name .field)

/-- decoder.py:45-45. -/
def decodeErrorInit8 : Stmt :=
  .assign [(.attr (.name .self) .pos)] (.name .pos)

/-- decoder.py:29-45 `DecodeError.__init__`. -/
def decodeErrorInitDef : Def :=
  { name := .DecodeError, isClass := true, isGen := false,
    params := [.self, .msg, .s, .doc_dec, .doc_enc, .pos, .field],
    defaults := [],
    locals := [.errmsg],
    body := [decodeErrorInit1, decodeErrorInit2, decodeErrorInit3, decodeErrorInit4, decodeErrorInit5, decodeErrorInit6, decodeErrorInit7, decodeErrorInit8] }

/-- decoder.py:53-56. -/
def decodeErrorReduce1 : Stmt :=
  .ret (.tuple [(.attr (.name .self) .__class__), (.tuple [(.attr (.name .self) .msg), (.attr (.name .self) .s), (.attr (.name .self) .doc_dec), (.attr (.name .self) .doc_enc), (.attr (.name .self) .pos), (.attr (.name .self) .field)])])

/-- decoder.py:47-56 `DecodeError.__reduce__`. -/
def decodeErrorReduceDef : Def :=
  { name := .__reduce__, isClass := false, isGen := false,
    params := [.self],
    defaults := [],
    locals := [],
    body := [decodeErrorReduce1] }

/-- decoder.py:102-105. -/
def decode1 : Stmt :=
  .ite (.not (.call .isinstance [(.name .s), (.tuple [(.name .bytes), (.name .bytearray)])] [] [])) [
    .raise (.call .TypeError [(.fstr [(.str py"Encoded ISO8583 data must be bytes or bytearray, not "), (.attr (.attr (.name .s) .__class__) .__name__)])] [] [])] []

/-- decoder.py:107-107. -/
def decode2 : Stmt :=
  .assign [(.name .doc_dec)] (.dict [] [])

/-- decoder.py:108-108. -/
def decode3 : Stmt :=
  .assign [(.name .doc_enc)] (.dict [] [])

/-- decoder.py:109-109. -/
def decode4 : Stmt :=
  .assign [(.name .fields)] (.call .set [] [] [])

/-- decoder.py:110-110. -/
def decode5 : Stmt :=
  .assign [(.name .idx)] (.int 0)

/-- decoder.py:112-112. -/
def decode6 : Stmt :=
  .assign [(.name .idx)] (.call ._decode_header [(.name .s), (.name .doc_dec), (.name .doc_enc), (.name .idx), (.name .spec)] [] [])

/-- decoder.py:113-113. -/
def decode7 : Stmt :=
  .assign [(.name .idx)] (.call ._decode_type [(.name .s), (.name .doc_dec), (.name .doc_enc), (.name .idx), (.name .spec)] [] [])

/-- decoder.py:114-114. -/
def decode8 : Stmt :=
  .assign [(.name .field)] (.str py"p")

/-- decoder.py:115-125. -/
def decode9 : Stmt :=
  .assign [(.name .idx)] (.call ._decode_bitmap [(.name .s), (.name .doc_dec), (.name .doc_enc), (.name .idx), (.name .field), (.sub (.name .spec) (.name .field)), (.int 0), (.bool false), (.name .fields)] [] [])

/-- decoder.py:127-140. -/
def decode10 : Stmt :=
  .ite (.cmp .mem (.int 1) (.name .fields)) [
    .assign [(.name .field)] (.str py"1"),
    .assign [(.name .idx)] (.call ._decode_bitmap [(.name .s), (.name .doc_dec), (.name .doc_enc), (.name .idx), (.name .field), (.sub (.name .spec) (.name .field)), (.int 64), (.bool false), (.name .fields)] [] []),
    .expr (.meth (.name .fields) .remove [(.int 1)] [] [])] []

/-- decoder.py:142-155. -/
def decode11 : Stmt :=
  .ite (.cmp .mem (.int 65) (.name .fields)) [
    .assign [(.name .idx)] (.call ._decode_bitmap [(.name .s), (.name .doc_dec), (.name .doc_enc), (.name .idx), (.name .field), (.sub (.name .spec) (.name .field)), (.int 128), (.bool true), (.name .fields)] [] []),
    .expr (.meth (.name .fields) .remove [(.int 65)] [] [])] []

/-- decoder.py:157-158. -/
def decode12 : Stmt :=
  .loop [.field] (.comp (.loop [.i] (.call .sorted [(.name .fields)] [] []) (.yield (.call .str [(.name .i)] [] [])))) [
    .assign [(.name .idx)] (.call ._decode_field [(.name .s), (.name .doc_dec), (.name .doc_enc), (.name .idx), (.name .field), (.sub (.name .spec) (.name .field))] [] [])]

/-- decoder.py:160-163. -/
def decode13 : Stmt :=
  .ite (.cmp .ne (.name .idx) (.call .len [(.name .s)] [] [])) [
    .raise (.call .DecodeError [(.str py"Extra data after last field"), (.name .s), (.name .doc_dec), (.name .doc_enc), (.name .idx), (.name .field)] [] [])] []

/-- decoder.py:165-165. -/
def decode14 : Stmt :=
  .ret (.tuple [(.name .doc_dec), (.name .doc_enc)])

/-- decoder.py:59-165 `decode`. -/
def decodeDef : Def :=
  { name := .decode, isClass := false, isGen := false,
    params := [.s, .spec],
    defaults := [],
    locals := [.doc_dec, .doc_enc, .fields, .idx, .field],
    body := [decode1, decode2, decode3, decode4, decode5, decode6, decode7, decode8, decode9, decode10, decode11, decode12, decode13, decode14] }

/-- decoder.py:210-211. -/
def decodeHeader1 : Stmt :=
  .ite (.cmp .le (.sub (.sub (.name .spec) (.str py"h")) (.str py"max_len")) (.int 0)) [
    .ret (.name .idx)] []

/-- decoder.py:213-213. -/
def decodeHeader2 : Stmt :=
  .ret (.call ._decode_field [(.name .s), (.name .doc_dec), (.name .doc_enc), (.name .idx), (.str py"h"), (.sub (.name .spec) (.str py"h"))] [] [])

/-- decoder.py:175-213 `_decode_header`. -/
def decodeHeaderDef : Def :=
  { name := ._decode_header, isClass := false, isGen := false,
    params := [.s, .doc_dec, .doc_enc, .idx, .spec],
    defaults := [],
    locals := [],
    body := [decodeHeader1, decodeHeader2] }

/-- decoder.py:251-254. -/
def decodeType1 : Stmt :=
  .ite (.cmp .eq (.sub (.sub (.name .spec) (.str py"t")) (.str py"data_enc")) (.str py"b")) [
    .assign [(.name .expected_field_len)] (.int 2)] [
    .assign [(.name .expected_field_len)] (.int 4)]

/-- decoder.py:256-256. -/
def decodeType2 : Stmt :=
  .assign [(.name .encoded_field_data)] (.slice (.name .s) (.name .idx) (.bin .add (.name .idx) (.name .expected_field_len)))

/-- decoder.py:257-257. -/
def decodeType3 : Stmt :=
  .assign [(.sub (.name .doc_dec) (.str py"t"))] (.str py"")

/-- decoder.py:258-258. -/
def decodeType4 : Stmt :=
  .assign [(.sub (.name .doc_enc) (.str py"t"))] (.dict [(.str py"len"), (.str py"data")] [(.bytes []), (.call .bytes [(.name .encoded_field_data)] [] [])])

/-- decoder.py:260-268. -/
def decodeType5 : Stmt :=
  .ite (.cmp .ne (.call .len [(.name .encoded_field_data)] [] []) (.name .expected_field_len)) [
    .raise (.call .DecodeError [(.fstr [(.str py"Field data is "), (.call .len [(.name .encoded_field_data)] [] []), (.str py" bytes, expecting "), (.name .expected_field_len)]), (.name .s), (.name .doc_dec), (.name .doc_enc), (.name .idx), (.str py"t")] [] [])] []

/-- decoder.py:270-281. -/
def decodeType6 : Stmt :=
  .ite (.cmp .eq (.sub (.sub (.name .spec) (.str py"t")) (.str py"data_enc")) (.str py"b")) [
    .assign [(.sub (.name .doc_dec) (.str py"t"))] (.meth (.meth (.name .encoded_field_data) .hex [] [] []) .upper [] [] [])] [
    .assign [(.sub (.name .doc_dec) (.str py"t"))] (.call ._decode_text_data [(.name .s), (.name .encoded_field_data), (.name .idx), (.name .doc_dec), (.name .doc_enc), (.str py"t"), (.sub (.name .spec) (.str py"t"))] [] [])]

/-- decoder.py:283-283. -/
def decodeType7 : Stmt :=
  .ret (.bin .add (.name .idx) (.name .expected_field_len))

/-- decoder.py:216-283 `_decode_type`. -/
def decodeTypeDef : Def :=
  { name := ._decode_type, isClass := false, isGen := false,
    params := [.s, .doc_dec, .doc_enc, .idx, .spec],
    defaults := [],
    locals := [.expected_field_len, .encoded_field_data],
    body := [decodeType1, decodeType2, decodeType3, decodeType4, decodeType5, decodeType6, decodeType7] }

/-- decoder.py:333-336. -/
def decodeBitmap1 : Stmt :=
  .ite (.cmp .eq (.sub (.name .field_spec) (.str py"data_enc")) (.str py"b")) [
    .assign [(.name .expected_field_len)] (.int 8)] [
    .assign [(.name .expected_field_len)] (.int 16)]

/-- decoder.py:338-338. -/
def decodeBitmap2 : Stmt :=
  .assign [(.name .encoded_field_data)] (.slice (.name .s) (.name .idx) (.bin .add (.name .idx) (.name .expected_field_len)))

/-- decoder.py:340-346. -/
def decodeBitmap3 : Stmt :=
  .ite (.name .is_extended) [
    .assign [(.sub (.sub (.name .doc_enc) (.name .field_key)) (.str py"data"))] (.bin .add (.sub (.sub (.name .doc_enc) (.name .field_key)) (.str py"data")) (.call .bytes [(.name .encoded_field_data)] [] []))] [
    .assign [(.sub (.name .doc_dec) (.name .field_key))] (.str py""),
    .assign [(.sub (.name .doc_enc) (.name .field_key))] (.dict [(.str py"len"), (.str py"data")] [(.bytes []), (.call .bytes [(.name .encoded_field_data)] [] [])])]

/-- decoder.py:348-356. -/
def decodeBitmap4 : Stmt :=
  .ite (.cmp .ne (.call .len [(.name .encoded_field_data)] [] []) (.name .expected_field_len)) [
    .raise (.call .DecodeError [(.fstr [(.str py"Field data is "), (.call .len [(.sub (.sub (.name .doc_enc) (.name .field_key)) (.str py"data"))] [] []), (.str py" bytes, expecting "), (.ite (.name .is_extended) (.bin .mul (.name .expected_field_len) (.int 2)) (.name .expected_field_len))]), (.name .s), (.name .doc_dec), (.name .doc_enc), (.name .idx), (.name .field_key)] [] [])] []

/-- decoder.py:358-392. -/
def decodeBitmap5 : Stmt :=
  .ite (.cmp .eq (.sub (.name .field_spec) (.str py"data_enc")) (.str py"b")) [
    .assign [(.name .decoded_field_data)] (.meth (.meth (.name .encoded_field_data) .hex [] [] []) .upper [] [] []),
    .assign [(.sub (.name .doc_dec) (.name .field_key))] (.ite (.name .is_extended) (.bin .add (.sub (.name .doc_dec) (.name .field_key)) (.name .decoded_field_data)) (.name .decoded_field_data)),
    .assign [(.name .bitmap)] (.name .encoded_field_data)] [
    .assign [(.name .decoded_field_data)] (.call ._decode_text_data [(.name .s), (.name .encoded_field_data), (.name .idx), (.name .doc_dec), (.name .doc_enc), (.name .field_key), (.name .field_spec)] [] []),
    .assign [(.sub (.name .doc_dec) (.name .field_key))] (.ite (.name .is_extended) (.bin .add (.sub (.name .doc_dec) (.name .field_key)) (.name .decoded_field_data)) (.name .decoded_field_data)),
    .attempt [
      .assign [(.name .bitmap)] (.meth (.name .bytes) .fromhex [(.name .decoded_field_data)] [] [])] [
      .mk .Exception none [
        .raise (.call .DecodeError [(.str py"Failed to decode field, non-hex data"), (.name .s), (.name .doc_dec), (.name .doc_enc), (.name .idx), (.name .field_key)] [] [])]]]

/-- decoder.py:394-401. -/
def decodeBitmap6 : Stmt :=
  .expr (.meth (.name .fields) .update [(.comp (.loop [.bit] (.call .range [(.int 1), (.int 9)] [] []) (.loop [.byte_idx, .byte] (.call .enumerate [(.name .bitmap)] [] []) (.when (.bin .band (.bin .shr (.name .byte) (.bin .sub (.int 8) (.name .bit))) (.int 1)) (.yield (.bin .add (.bin .add (.name .field_offset) (.bin .mul (.name .byte_idx) (.int 8))) (.name .bit)))))))] [] [])

/-- decoder.py:403-403. -/
def decodeBitmap7 : Stmt :=
  .ret (.bin .add (.name .idx) (.name .expected_field_len))

/-- decoder.py:286-403 `_decode_bitmap`. -/
def decodeBitmapDef : Def :=
  { name := ._decode_bitmap, isClass := false, isGen := false,
    params := [.s, .doc_dec, .doc_enc, .idx, .field_key, .field_spec, .field_offset, .is_extended, .fields],
    defaults := [],
    locals := [.expected_field_len, .encoded_field_data, .decoded_field_data, .bitmap],
    body := [decodeBitmap1, decodeBitmap2, decodeBitmap3, decodeBitmap4, decodeBitmap5, decodeBitmap6, decodeBitmap7] }

/-- decoder.py:442-442. -/
def decodeField1 : Stmt :=
  .assign [(.name .len_type)] (.sub (.name .field_spec) (.str py"len_type"))

/-- decoder.py:445-445. -/
def decodeField2 : Stmt :=
  .assign [(.name .len_count)] (.meth (.name .field_spec) .get [(.str py"len_count"), (.str py"bytes")] [] [])

/-- decoder.py:447-447. -/
def decodeField3 : Stmt :=
  .assign [(.sub (.name .doc_dec) (.name .field_key))] (.str py"")

/-- decoder.py:448-448. -/
def decodeField4 : Stmt :=
  .assign [(.sub (.name .doc_enc) (.name .field_key))] (.dict [(.str py"len"), (.str py"data")] [(.call .bytes [(.slice (.name .s) (.name .idx) (.bin .add (.name .idx) (.name .len_type)))] [] []), (.bytes [])])

/-- decoder.py:450-458. -/
def decodeField5 : Stmt :=
  .ite (.cmp .ne (.call .len [(.slice (.name .s) (.name .idx) (.bin .add (.name .idx) (.name .len_type)))] [] []) (.name .len_type)) [
    .raise (.call .DecodeError [(.fstr [(.str py"Field length is "), (.call .len [(.slice (.name .s) (.name .idx) (.bin .add (.name .idx) (.name .len_type)))] [] []), (.str py" bytes wide, expecting "), (.name .len_type)]), (.name .s), (.name .doc_dec), (.name .doc_enc), (.name .idx), (.name .field_key)] [] [])] []

/-- decoder.py:462-540. -/
def decodeField6 : Stmt :=
  .ite (.cmp .eq (.name .len_type) (.int 0)) [
    .assign [(.name .enc_field_len)] (.sub (.name .field_spec) (.str py"max_len"))] [
    .ite (.cmp .eq (.sub (.name .field_spec) (.str py"len_enc")) (.str py"b")) [
      .attempt [
        .assign [(.name .enc_field_len)] (.meth (.name .int) .from_bytes [(.slice (.name .s) (.name .idx) (.bin .add (.name .idx) (.name .len_type))), (.str py"big")] [.signed] [(.bool false)])] [
        .mk .Exception (some .e) [
          .raise (.call .DecodeError [(.fstr [(.str py"Failed to decode field length, "), (.name .e)]), (.name .s), (.name .doc_dec), (.name .doc_enc), (.name .idx), (.name .field_key)] [] [])]]] [
      .ite (.cmp .eq (.sub (.name .field_spec) (.str py"len_enc")) (.str py"bcd")) [
        .attempt [
          .assign [(.name .enc_field_len)] (.call .int [(.meth (.slice (.name .s) (.name .idx) (.bin .add (.name .idx) (.name .len_type))) .hex [] [] []), (.int 10)] [] [])] [
          .mk .Exception none [
            .raise (.call .DecodeError [(.str py"Failed to decode field length, invalid BCD data"), (.name .s), (.name .doc_dec), (.name .doc_enc), (.name .idx), (.name .field_key)] [] [])]]] [
        .attempt [
          .assign [(.name .decoded_length)] (.meth (.slice (.name .s) (.name .idx) (.bin .add (.name .idx) (.name .len_type))) .decode [(.sub (.name .field_spec) (.str py"len_enc"))] [] [])] [
          .mk .LookupError none [
            .raise (.call .DecodeError [(.str py"Failed to decode field length, unknown encoding specified"), (.name .s), (.name .doc_dec), (.name .doc_enc), (.name .idx), (.name .field_key)] [] [])],
          .mk .Exception none [
            .raise (.call .DecodeError [(.str py"Failed to decode field length, invalid data"), (.name .s), (.name .doc_dec), (.name .doc_enc), (.name .idx), (.name .field_key)] [] [])]],
        .attempt [
          .assign [(.name .enc_field_len)] (.call .int [(.name .decoded_length)] [] [])] [
          .mk .Exception none [
            .raise (.call .DecodeError [(.str py"Failed to decode field length, non-numeric data"), (.name .s), (.name .doc_dec), (.name .doc_enc), (.name .idx), (.name .field_key)] [] [])]]]],
    .ite (.cmp .gt (.name .enc_field_len) (.sub (.name .field_spec) (.str py"max_len"))) [
      .raise (.call .DecodeError [(.fstr [(.str py"Field data is "), (.name .enc_field_len), (.str py" "), (.name .len_count), (.str py", larger than maximum "), (.sub (.name .field_spec) (.str py"max_len"))]), (.name .s), (.name .doc_dec), (.name .doc_enc), (.name .idx), (.name .field_key)] [] [])] []]

/-- decoder.py:542-542. -/
def decodeField7 : Stmt :=
  .aug (.name .idx) .add (.name .len_type)

/-- decoder.py:545-546. -/
def decodeField8 : Stmt :=
  .ite (.cmp .eq (.name .enc_field_len) (.int 0)) [
    .ret (.name .idx)] []

/-- decoder.py:550-556. -/
def decodeField9 : Stmt :=
  .ite (.cmp .eq (.name .len_count) (.str py"nibbles")) [
    .ite (.bin .band (.name .enc_field_len) (.int 1)) [
      .assign [(.name .byte_field_len)] (.bin .floordiv (.bin .add (.name .enc_field_len) (.int 1)) (.int 2))] [
      .assign [(.name .byte_field_len)] (.bin .floordiv (.name .enc_field_len) (.int 2))]] [
    .assign [(.name .byte_field_len)] (.name .enc_field_len)]

/-- decoder.py:559-559. -/
def decodeField10 : Stmt :=
  .assign [(.sub (.sub (.name .doc_enc) (.name .field_key)) (.str py"data"))] (.call .bytes [(.slice (.name .s) (.name .idx) (.bin .add (.name .idx) (.name .byte_field_len)))] [] [])

/-- decoder.py:560-573. -/
def decodeField11 : Stmt :=
  .ite (.cmp .ne (.call .len [(.sub (.sub (.name .doc_enc) (.name .field_key)) (.str py"data"))] [] []) (.name .byte_field_len)) [
    .ite (.cmp .eq (.name .len_count) (.str py"nibbles")) [
      .assign [(.name .actual_field_len)] (.bin .mul (.call .len [(.sub (.sub (.name .doc_enc) (.name .field_key)) (.str py"data"))] [] []) (.int 2))] [
      .assign [(.name .actual_field_len)] (.call .len [(.sub (.sub (.name .doc_enc) (.name .field_key)) (.str py"data"))] [] [])],
    .raise (.call .DecodeError [(.fstr [(.str py"Field data is "), (.name .actual_field_len), (.str py" "), (.name .len_count), (.str py", expecting "), (.name .enc_field_len)]), (.name .s), (.name .doc_dec), (.name .doc_enc), (.name .idx), (.name .field_key)] [] [])] []

/-- decoder.py:575-596. -/
def decodeField12 : Stmt :=
  .ite (.cmp .eq (.sub (.name .field_spec) (.str py"data_enc")) (.str py"b")) [
    .assign [(.sub (.name .doc_dec) (.name .field_key))] (.meth (.meth (.sub (.sub (.name .doc_enc) (.name .field_key)) (.str py"data")) .hex [] [] []) .upper [] [] []),
    .ite (.and (.cmp .eq (.name .len_count) (.str py"nibbles")) (.bin .band (.name .enc_field_len) (.int 1))) [
      .assign [(.sub (.name .doc_dec) (.name .field_key))] (.call ._remove_pad_field [(.name .s), (.name .idx), (.name .doc_dec), (.name .doc_enc), (.name .field_key), (.name .field_spec), (.name .enc_field_len)] [] [])] []] [
    .assign [(.sub (.name .doc_dec) (.name .field_key))] (.call ._decode_text_data [(.name .s), (.sub (.sub (.name .doc_enc) (.name .field_key)) (.str py"data")), (.name .idx), (.name .doc_dec), (.name .doc_enc), (.name .field_key), (.name .field_spec)] [] [])]

/-- decoder.py:598-598. -/
def decodeField13 : Stmt :=
  .ret (.bin .add (.name .idx) (.name .byte_field_len))

/-- decoder.py:406-598 `_decode_field`. -/
def decodeFieldDef : Def :=
  { name := ._decode_field, isClass := false, isGen := false,
    params := [.s, .doc_dec, .doc_enc, .idx, .field_key, .field_spec],
    defaults := [],
    locals := [.len_type, .len_count, .enc_field_len, .e, .decoded_length, .byte_field_len, .actual_field_len],
    body := [decodeField1, decodeField2, decodeField3, decodeField4, decodeField5, decodeField6, decodeField7, decodeField8, decodeField9, decodeField10, decodeField11, decodeField12, decodeField13] }

/-- decoder.py:640-640. -/
def removePadField1 : Stmt :=
  .assign [(.name .pad)] (.slice (.meth (.name .field_spec) .get [(.str py"left_pad"), (.str py"")] [] []) .none (.int 1))

/-- decoder.py:641-642. -/
def removePadField2 : Stmt :=
  .ite (.and (.cmp .gt (.call .len [(.name .pad)] [] []) (.int 0)) (.cmp .eq (.slice (.sub (.name .doc_dec) (.name .field_key)) .none (.int 1)) (.name .pad))) [
    .ret (.slice (.sub (.name .doc_dec) (.name .field_key)) (.int 1) .none)] []

/-- decoder.py:644-644. -/
def removePadField3 : Stmt :=
  .assign [(.name .pad)] (.slice (.meth (.name .field_spec) .get [(.str py"right_pad"), (.str py"")] [] []) .none (.int 1))

/-- decoder.py:645-646. -/
def removePadField4 : Stmt :=
  .ite (.and (.cmp .gt (.call .len [(.name .pad)] [] []) (.int 0)) (.cmp .eq (.slice (.sub (.name .doc_dec) (.name .field_key)) (.neg (.int 1)) .none) (.name .pad))) [
    .ret (.slice (.sub (.name .doc_dec) (.name .field_key)) .none (.neg (.int 1)))] []

/-- decoder.py:648-655. -/
def removePadField5 : Stmt :=
  .raise (.call .DecodeError [(.fstr [(.str py"Field data is "), (.call .len [(.sub (.name .doc_dec) (.name .field_key))] [] []), (.str py" nibbles, expecting "), (.name .enc_field_len)]), (.name .s), (.name .doc_dec), (.name .doc_enc), (.name .idx), (.name .field_key)] [] [])

/-- decoder.py:601-655 `_remove_pad_field`. -/
def removePadFieldDef : Def :=
  { name := ._remove_pad_field, isClass := false, isGen := false,
    params := [.s, .idx, .doc_dec, .doc_enc, .field_key, .field_spec, .enc_field_len],
    defaults := [],
    locals := [.pad],
    body := [removePadField1, removePadField2, removePadField3, removePadField4, removePadField5] }

/-- decoder.py:699-718. -/
def decodeTextData1 : Stmt :=
  .attempt [
    .ret (.meth (.name .data) .decode [(.sub (.name .field_spec) (.str py"data_enc"))] [] [])] [
    .mk .LookupError none [
      .raise (.call .DecodeError [(.str py"Failed to decode field, unknown encoding specified"), (.name .s), (.name .doc_dec), (.name .doc_enc), (.name .idx), (.name .field_key)] [] [])],
    .mk .Exception none [
      .raise (.call .DecodeError [(.str py"Failed to decode field, invalid data"), (.name .s), (.name .doc_dec), (.name .doc_enc), (.name .idx), (.name .field_key)] [] [])]]

/-- decoder.py:658-718 `_decode_text_data`. -/
def decodeTextDataDef : Def :=
  { name := ._decode_text_data, isClass := false, isGen := false,
    params := [.s, .data, .idx, .doc_dec, .doc_enc, .field_key, .field_spec],
    defaults := [],
    locals := [],
    body := [decodeTextData1] }

/-- decoder.py: the module's own statements that its functions refer to. -/
def decoderModule : List Stmt := []

/-- decoder.py: functions in source order, then classes; each calls only later ones. -/
def decoderDefs : List Def :=
  [decodeDef, decodeHeaderDef, decodeTypeDef, decodeBitmapDef, decodeFieldDef, removePadFieldDef, decodeTextDataDef, decodeErrorInitDef]

/-- encoder.py:29-29. -/
def encodeErrorInit1 : Stmt :=
  .assign [(.name .errmsg)] (.fstr [(.name .msg), (.str py": field "), (.name .field)])

/-- encoder.py:30-30. -/
def encodeErrorInit2 : Stmt :=
  .expr (.meth (.name .ValueError) .__init__ [(.name .self), (.name .errmsg)] [] [])

/-- encoder.py:31-31. -/
def encodeErrorInit3 : Stmt :=
  .assign [(.attr (.name .self) .msg)] (.name .msg)

/-- encoder.py:32-32. -/
def encodeErrorInit4 : Stmt :=
  .assign [(.attr (.name .self) .doc_dec)] (.name .doc_dec)

/-- encoder.py:33-33. -/
def encodeErrorInit5 : Stmt :=
  .assign [(.attr (.name .self) .doc_enc)] (.name .doc_enc)

/-- encoder.py:34-34. -/
def encodeErrorInit6 : Stmt :=
  .assign [(.attr (.name .self) .field)] (.name .field)

/-- encoder.py:26-34 `EncodeError.__init__`. -/
def encodeErrorInitDef : Def :=
  { name := .EncodeError, isClass := true, isGen := false,
    params := [.self, .msg, .doc_dec, .doc_enc, .field],
    defaults := [],
    locals := [.errmsg],
    body := [encodeErrorInit1, encodeErrorInit2, encodeErrorInit3, encodeErrorInit4, encodeErrorInit5, encodeErrorInit6] }

/-- encoder.py:39-39. -/
def encodeErrorReduce1 : Stmt :=
  .ret (.tuple [(.attr (.name .self) .__class__), (.tuple [(.attr (.name .self) .msg), (.attr (.name .self) .doc_dec), (.attr (.name .self) .doc_enc), (.attr (.name .self) .field)])])

/-- encoder.py:36-39 `EncodeError.__reduce__`. -/
def encodeErrorReduceDef : Def :=
  { name := .__reduce__, isClass := false, isGen := false,
    params := [.self],
    defaults := [],
    locals := [],
    body := [encodeErrorReduce1] }

/-- encoder.py:80-83. -/
def encode1 : Stmt :=
  .ite (.not (.call .isinstance [(.name .doc_dec), (.name .dict)] [] [])) [
    .raise (.call .TypeError [(.fstr [(.str py"Decoded ISO8583 data must be dict, not "), (.attr (.attr (.name .doc_dec) .__class__) .__name__)])] [] [])] []

/-- encoder.py:85-85. -/
def encode2 : Stmt :=
  .assign [(.name .s)] (.call .bytearray [] [] [])

/-- encoder.py:86-86. -/
def encode3 : Stmt :=
  .assign [(.name .doc_enc)] (.dict [] [])

/-- encoder.py:89-89. -/
def encode4 : Stmt :=
  .expr (.meth (.name .doc_dec) .pop [(.str py"1"), .none] [] [])

/-- encoder.py:91-91. -/
def encode5 : Stmt :=
  .expr (.meth (.name .doc_dec) .pop [(.str py"65"), .none] [] [])

/-- encoder.py:93-93. -/
def encode6 : Stmt :=
  .aug (.name .s) .add (.call ._encode_header [(.name .doc_dec), (.name .doc_enc), (.name .spec)] [] [])

/-- encoder.py:94-94. -/
def encode7 : Stmt :=
  .aug (.name .s) .add (.call ._encode_type [(.name .doc_dec), (.name .doc_enc), (.name .spec)] [] [])

/-- encoder.py:96-104. -/
def encode8 : Stmt :=
  .attempt [
    .assign [(.name .fields)] (.call .set [(.comp (.loop [.k] (.meth (.name .doc_dec) .keys [] [] []) (.when (.meth (.name .k) .isnumeric [] [] []) (.yield (.call .int [(.name .k)] [] [])))))] [] [])] [
    .mk .AttributeError none [
      .raise (.call .EncodeError [(.fstr [(.str py"Dictionary contains invalid fields "), (.comp (.loop [.k] (.meth (.name .doc_dec) .keys [] [] []) (.when (.not (.call .isinstance [(.name .k), (.name .str)] [] [])) (.yield (.name .k)))))]), (.name .doc_dec), (.name .doc_enc), (.str py"p")] [] [])]]

/-- encoder.py:107-113. -/
def encode9 : Stmt :=
  .ite (.not (.meth (.name .fields) .issubset [(.call .range [(.int 1), (.int 193)] [] [])] [] [])) [
    .raise (.call .EncodeError [(.fstr [(.str py"Dictionary contains fields outside of 1-192 range "), (.call .sorted [(.meth (.name .fields) .difference [(.call .range [(.int 1), (.int 193)] [] [])] [] [])] [] [])]), (.name .doc_dec), (.name .doc_enc), (.str py"p")] [] [])] []

/-- encoder.py:116-116. -/
def encode10 : Stmt :=
  .assign [(.name .tertiary_fields)] (.meth (.name .fields) .intersection [(.call .range [(.int 129), (.int 193)] [] [])] [] [])

/-- encoder.py:117-118. -/
def encode11 : Stmt :=
  .ite (.name .tertiary_fields) [
    .expr (.meth (.name .fields) .add [(.int 65)] [] [])] []

/-- encoder.py:121-121. -/
def encode12 : Stmt :=
  .assign [(.name .secondary_fields)] (.meth (.name .fields) .intersection [(.call .range [(.int 65), (.int 129)] [] [])] [] [])

/-- encoder.py:122-123. -/
def encode13 : Stmt :=
  .ite (.name .secondary_fields) [
    .expr (.meth (.name .fields) .add [(.int 1)] [] [])] []

/-- encoder.py:125-133. -/
def encode14 : Stmt :=
  .aug (.name .s) .add (.call ._encode_bitmap [(.name .doc_dec), (.name .doc_enc), (.str py"p"), (.sub (.name .spec) (.str py"p")), (.int 0), (.bool false), (.meth (.name .fields) .intersection [(.call .range [(.int 1), (.int 65)] [] [])] [] [])] [] [])

/-- encoder.py:135-145. -/
def encode15 : Stmt :=
  .ite (.cmp .mem (.int 1) (.name .fields)) [
    .aug (.name .s) .add (.call ._encode_bitmap [(.name .doc_dec), (.name .doc_enc), (.str py"1"), (.sub (.name .spec) (.str py"1")), (.int 64), (.bool false), (.name .secondary_fields)] [] []),
    .expr (.meth (.name .fields) .remove [(.int 1)] [] [])] []

/-- encoder.py:147-157. -/
def encode16 : Stmt :=
  .ite (.cmp .mem (.int 65) (.name .fields)) [
    .aug (.name .s) .add (.call ._encode_bitmap [(.name .doc_dec), (.name .doc_enc), (.str py"1"), (.sub (.name .spec) (.str py"1")), (.int 128), (.bool true), (.name .tertiary_fields)] [] []),
    .expr (.meth (.name .fields) .remove [(.int 65)] [] [])] []

/-- encoder.py:159-160. -/
def encode17 : Stmt :=
  .loop [.field_key] (.comp (.loop [.i] (.call .sorted [(.name .fields)] [] []) (.yield (.call .str [(.name .i)] [] [])))) [
    .aug (.name .s) .add (.call ._encode_field [(.name .doc_dec), (.name .doc_enc), (.name .field_key), (.sub (.name .spec) (.name .field_key))] [] [])]

/-- encoder.py:162-162. -/
def encode18 : Stmt :=
  .ret (.tuple [(.name .s), (.name .doc_enc)])

/-- encoder.py:42-162 `encode`. -/
def encodeDef : Def :=
  { name := .encode, isClass := false, isGen := false,
    params := [.doc_dec, .spec],
    defaults := [],
    locals := [.s, .doc_enc, .fields, .tertiary_fields, .secondary_fields, .field_key],
    body := [encode1, encode2, encode3, encode4, encode5, encode6, encode7, encode8, encode9, encode10, encode11, encode12, encode13, encode14, encode15, encode16, encode17, encode18] }

/-- encoder.py:201-202. -/
def encodeHeader1 : Stmt :=
  .ite (.cmp .le (.sub (.sub (.name .spec) (.str py"h")) (.str py"max_len")) (.int 0)) [
    .ret (.bytes [])] []

/-- encoder.py:205-208. -/
def encodeHeader2 : Stmt :=
  .ite (.cmp .notMem (.str py"h") (.name .doc_dec)) [
    .raise (.call .EncodeError [(.str py"Field data is required according to specifications"), (.name .doc_dec), (.name .doc_enc), (.str py"h")] [] [])] []

/-- encoder.py:210-210. -/
def encodeHeader3 : Stmt :=
  .ret (.call ._encode_field [(.name .doc_dec), (.name .doc_enc), (.str py"h"), (.sub (.name .spec) (.str py"h"))] [] [])

/-- encoder.py:172-210 `_encode_header`. -/
def encodeHeaderDef : Def :=
  { name := ._encode_header, isClass := false, isGen := false,
    params := [.doc_dec, .doc_enc, .spec],
    defaults := [],
    locals := [],
    body := [encodeHeader1, encodeHeader2, encodeHeader3] }

/-- encoder.py:242-243. -/
def encodeType1 : Stmt :=
  .ite (.cmp .notMem (.str py"t") (.name .doc_dec)) [
    .raise (.call .EncodeError [(.str py"Field data is required"), (.name .doc_dec), (.name .doc_enc), (.str py"t")] [] [])] []

/-- encoder.py:246-249. -/
def encodeType2 : Stmt :=
  .ite (.cmp .eq (.sub (.sub (.name .spec) (.str py"t")) (.str py"data_enc")) (.str py"b")) [
    .assign [(.name .expected_field_len)] (.int 2)] [
    .assign [(.name .expected_field_len)] (.int 4)]

/-- encoder.py:251-251. -/
def encodeType3 : Stmt :=
  .assign [(.sub (.name .doc_enc) (.str py"t"))] (.dict [(.str py"len"), (.str py"data")] [(.bytes []), (.bytes [])])

/-- encoder.py:253-270. -/
def encodeType4 : Stmt :=
  .ite (.cmp .eq (.sub (.sub (.name .spec) (.str py"t")) (.str py"data_enc")) (.str py"b")) [
    .assign [(.sub (.sub (.name .doc_enc) (.str py"t")) (.str py"data")), (.name .enc_field_len)] (.call ._encode_bindary_field [(.name .doc_dec), (.name .doc_enc), (.sub (.name .doc_dec) (.str py"t")), (.str py"t"), (.sub (.name .spec) (.str py"t")), (.str py"bytes")] [] [])] [
    .assign [(.sub (.sub (.name .doc_enc) (.str py"t")) (.str py"data")), (.name .enc_field_len)] (.call ._encode_text_field [(.name .doc_dec), (.name .doc_enc), (.sub (.name .doc_dec) (.str py"t")), (.str py"t"), (.sub (.name .spec) (.str py"t")), (.str py"bytes")] [] [])]

/-- encoder.py:272-278. -/
def encodeType5 : Stmt :=
  .ite (.cmp .ne (.name .enc_field_len) (.name .expected_field_len)) [
    .raise (.call .EncodeError [(.fstr [(.str py"Field data is "), (.name .enc_field_len), (.str py" bytes, expecting "), (.name .expected_field_len)]), (.name .doc_dec), (.name .doc_enc), (.str py"t")] [] [])] []

/-- encoder.py:280-280. -/
def encodeType6 : Stmt :=
  .ret (.sub (.sub (.name .doc_enc) (.str py"t")) (.str py"data"))

/-- encoder.py:213-280 `_encode_type`. -/
def encodeTypeDef : Def :=
  { name := ._encode_type, isClass := false, isGen := false,
    params := [.doc_dec, .doc_enc, .spec],
    defaults := [],
    locals := [.expected_field_len, .enc_field_len],
    body := [encodeType1, encodeType2, encodeType3, encodeType4, encodeType5, encodeType6] }

/-- encoder.py:323-323. -/
def encodeBitmap1 : Stmt :=
  .assign [(.name .bitmap)] (.call .bytearray [(.bytes [0, 0, 0, 0, 0, 0, 0, 0])] [] [])

/-- encoder.py:325-337. -/
def encodeBitmap2 : Stmt :=
  .loop [.field] (.name .fields) [
    .aug (.name .field) .sub (.bin .add (.int 1) (.name .field_offset)),
    .assign [(.name .byte)] (.bin .floordiv (.name .field) (.int 8)),
    .assign [(.name .bit)] (.bin .sub (.int 7) (.bin .sub (.name .field) (.bin .mul (.name .byte) (.int 8)))),
    .aug (.sub (.name .bitmap) (.name .byte)) .bor (.bin .shl (.int 1) (.name .bit))]

/-- encoder.py:339-339. -/
def encodeBitmap3 : Stmt :=
  .assign [(.name .hex_bitmap)] (.meth (.meth (.name .bitmap) .hex [] [] []) .upper [] [] [])

/-- encoder.py:341-345. -/
def encodeBitmap4 : Stmt :=
  .ite (.name .is_extended) [
    .assign [(.sub (.name .doc_dec) (.name .field_key))] (.bin .add (.sub (.name .doc_dec) (.name .field_key)) (.name .hex_bitmap))] [
    .assign [(.sub (.name .doc_dec) (.name .field_key))] (.name .hex_bitmap),
    .assign [(.sub (.name .doc_enc) (.name .field_key))] (.dict [(.str py"len"), (.str py"data")] [(.bytes []), (.bytes [])])]

/-- encoder.py:347-357. -/
def encodeBitmap5 : Stmt :=
  .ite (.cmp .eq (.sub (.name .field_spec) (.str py"data_enc")) (.str py"b")) [
    .assign [(.name .encoded_data)] (.call .bytes [(.name .bitmap)] [] [])] [
    .assign [(.name .encoded_data), (.name .underscore)] (.call ._encode_text_field [(.name .doc_dec), (.name .doc_enc), (.name .hex_bitmap), (.name .field_key), (.name .field_spec), (.str py"bytes")] [] [])]

/-- encoder.py:359-362. -/
def encodeBitmap6 : Stmt :=
  .ite (.name .is_extended) [
    .assign [(.sub (.sub (.name .doc_enc) (.name .field_key)) (.str py"data"))] (.bin .add (.sub (.sub (.name .doc_enc) (.name .field_key)) (.str py"data")) (.name .encoded_data))] [
    .assign [(.sub (.sub (.name .doc_enc) (.name .field_key)) (.str py"data"))] (.name .encoded_data)]

/-- encoder.py:364-364. -/
def encodeBitmap7 : Stmt :=
  .ret (.name .encoded_data)

/-- encoder.py:283-364 `_encode_bitmap`. -/
def encodeBitmapDef : Def :=
  { name := ._encode_bitmap, isClass := false, isGen := false,
    params := [.doc_dec, .doc_enc, .field_key, .field_spec, .field_offset, .is_extended, .fields],
    defaults := [],
    locals := [.bitmap, .field, .byte, .bit, .hex_bitmap, .encoded_data, .underscore],
    body := [encodeBitmap1, encodeBitmap2, encodeBitmap3, encodeBitmap4, encodeBitmap5, encodeBitmap6, encodeBitmap7] }

/-- encoder.py:399-399. -/
def encodeField1 : Stmt :=
  .assign [(.sub (.name .doc_enc) (.name .field_key))] (.dict [(.str py"len"), (.str py"data")] [(.bytes []), (.bytes [])])

/-- encoder.py:402-402. -/
def encodeField2 : Stmt :=
  .assign [(.name .len_count)] (.meth (.name .field_spec) .get [(.str py"len_count"), (.str py"bytes")] [] [])

/-- encoder.py:405-423. -/
def encodeField3 : Stmt :=
  .ite (.cmp .eq (.sub (.name .field_spec) (.str py"data_enc")) (.str py"b")) [
    .assign [(.sub (.sub (.name .doc_enc) (.name .field_key)) (.str py"data")), (.name .enc_field_len)] (.call ._encode_bindary_field [(.name .doc_dec), (.name .doc_enc), (.sub (.name .doc_dec) (.name .field_key)), (.name .field_key), (.name .field_spec), (.name .len_count)] [] [])] [
    .assign [(.sub (.sub (.name .doc_enc) (.name .field_key)) (.str py"data")), (.name .enc_field_len)] (.call ._encode_text_field [(.name .doc_dec), (.name .doc_enc), (.sub (.name .doc_dec) (.name .field_key)), (.name .field_key), (.name .field_spec), (.name .len_count)] [] [])]

/-- encoder.py:425-425. -/
def encodeField4 : Stmt :=
  .assign [(.name .len_type)] (.sub (.name .field_spec) (.str py"len_type"))

/-- encoder.py:428-438. -/
def encodeField5 : Stmt :=
  .ite (.cmp .eq (.name .len_type) (.int 0)) [
    .ite (.cmp .ne (.name .enc_field_len) (.sub (.name .field_spec) (.str py"max_len"))) [
      .raise (.call .EncodeError [(.fstr [(.str py"Field data is "), (.name .enc_field_len), (.str py" "), (.name .len_count), (.str py", expecting "), (.sub (.name .field_spec) (.str py"max_len"))]), (.name .doc_dec), (.name .doc_enc), (.name .field_key)] [] [])] [],
    .assign [(.sub (.sub (.name .doc_enc) (.name .field_key)) (.str py"len"))] (.bytes []),
    .ret (.sub (.sub (.name .doc_enc) (.name .field_key)) (.str py"data"))] []

/-- encoder.py:442-448. -/
def encodeField6 : Stmt :=
  .ite (.cmp .gt (.name .enc_field_len) (.sub (.name .field_spec) (.str py"max_len"))) [
    .raise (.call .EncodeError [(.fstr [(.str py"Field data is "), (.name .enc_field_len), (.str py" "), (.name .len_count), (.str py", larger than maximum "), (.sub (.name .field_spec) (.str py"max_len"))]), (.name .doc_dec), (.name .doc_enc), (.name .field_key)] [] [])] []

/-- encoder.py:451-511. -/
def encodeField7 : Stmt :=
  .ite (.cmp .eq (.sub (.name .field_spec) (.str py"len_enc")) (.str py"b")) [
    .attempt [
      .assign [(.sub (.sub (.name .doc_enc) (.name .field_key)) (.str py"len"))] (.meth (.name .enc_field_len) .to_bytes [(.name .len_type), (.str py"big")] [.signed] [(.bool false)])] [
      .mk .OverflowError none [
        .raise (.call .EncodeError [(.str py"Failed to encode field length, field length does not fit into configured field size"), (.name .doc_dec), (.name .doc_enc), (.name .field_key)] [] [])]]] [
    .ite (.cmp .eq (.sub (.name .field_spec) (.str py"len_enc")) (.str py"bcd")) [
      .assign [(.name .bcd_field_len)] (.meth (.str py"{:0{len_type}d}") .format [(.name .enc_field_len)] [.len_type] [(.bin .mul (.name .len_type) (.int 2))]),
      .ite (.cmp .gt (.call .len [(.name .bcd_field_len)] [] []) (.bin .mul (.name .len_type) (.int 2))) [
        .raise (.call .EncodeError [(.str py"Failed to encode field length, field length does not fit into configured field size"), (.name .doc_dec), (.name .doc_enc), (.name .field_key)] [] [])] [],
      .assign [(.sub (.sub (.name .doc_enc) (.name .field_key)) (.str py"len"))] (.meth (.name .binascii) .a2b_hex [(.name .bcd_field_len)] [] [])] [
      .attempt [
        .assign [(.sub (.sub (.name .doc_enc) (.name .field_key)) (.str py"len"))] (.call .bytes [(.meth (.str py"{:0{len_type}d}") .format [(.name .enc_field_len)] [.len_type] [(.name .len_type)]), (.sub (.name .field_spec) (.str py"len_enc"))] [] [])] [
        .mk .LookupError none [
          .raise (.call .EncodeError [(.str py"Failed to encode field length, unknown encoding specified"), (.name .doc_dec), (.name .doc_enc), (.name .field_key)] [] [])],
        .mk .Exception (some .e) [
          .raise (.call .EncodeError [(.fstr [(.str py"Failed to encode field length, "), (.name .e)]), (.name .doc_dec), (.name .doc_enc), (.name .field_key)] [] [])]],
      .ite (.cmp .gt (.call .len [(.sub (.sub (.name .doc_enc) (.name .field_key)) (.str py"len"))] [] []) (.name .len_type)) [
        .raise (.call .EncodeError [(.str py"Failed to encode field length, field length does not fit into configured field size"), (.name .doc_dec), (.name .doc_enc), (.name .field_key)] [] [])] []]]

/-- encoder.py:513-513. -/
def encodeField8 : Stmt :=
  .ret (.bin .add (.sub (.sub (.name .doc_enc) (.name .field_key)) (.str py"len")) (.sub (.sub (.name .doc_enc) (.name .field_key)) (.str py"data")))

/-- encoder.py:367-513 `_encode_field`. -/
def encodeFieldDef : Def :=
  { name := ._encode_field, isClass := false, isGen := false,
    params := [.doc_dec, .doc_enc, .field_key, .field_spec],
    defaults := [],
    locals := [.len_count, .enc_field_len, .len_type, .bcd_field_len, .e],
    body := [encodeField1, encodeField2, encodeField3, encodeField4, encodeField5, encodeField6, encodeField7, encodeField8] }

/-- encoder.py:550-577. -/
def encodeBindaryField1 : Stmt :=
  .attempt [
    .ite (.and (.cmp .eq (.name .len_count) (.str py"nibbles")) (.bin .band (.call .len [(.name .field_data)] [] []) (.int 1))) [
      .assign [(.name .data_to_encode)] (.call ._add_pad_field [(.name .field_data), (.name .field_spec)] [] [])] [
      .assign [(.name .data_to_encode)] (.name .field_data)],
    .assign [(.name .encoded_data)] (.meth (.name .binascii) .a2b_hex [(.name .data_to_encode)] [] [])] [
    .mk .Exception none [
      .ite (.and (.cmp .eq (.name .len_count) (.str py"nibbles")) (.cmp .eq (.bin .mod (.call .len [(.name .data_to_encode)] [] []) (.int 2)) (.int 1))) [
        .raise (.call .EncodeError [(.str py"Failed to encode field, odd-length nibble data, specify pad"), (.name .doc_dec), (.name .doc_enc), (.name .field_key)] [] [])] [],
      .ite (.cmp .eq (.bin .mod (.call .len [(.name .data_to_encode)] [] []) (.int 2)) (.int 1)) [
        .raise (.call .EncodeError [(.str py"Failed to encode field, odd-length hex data"), (.name .doc_dec), (.name .doc_enc), (.name .field_key)] [] [])] [],
      .raise (.call .EncodeError [(.str py"Failed to encode field, non-hex data"), (.name .doc_dec), (.name .doc_enc), (.name .field_key)] [] [])]]

/-- encoder.py:581-584. -/
def encodeBindaryField2 : Stmt :=
  .ite (.cmp .eq (.name .len_count) (.str py"nibbles")) [
    .ret (.tuple [(.name .encoded_data), (.call .len [(.name .field_data)] [] [])])] [
    .ret (.tuple [(.name .encoded_data), (.call .len [(.name .encoded_data)] [] [])])]

/-- encoder.py:516-584 `_encode_bindary_field`. -/
def encodeBindaryFieldDef : Def :=
  { name := ._encode_bindary_field, isClass := false, isGen := false,
    params := [.doc_dec, .doc_enc, .field_data, .field_key, .field_spec, .len_count],
    defaults := [],
    locals := [.data_to_encode, .encoded_data],
    body := [encodeBindaryField1, encodeBindaryField2] }

/-- encoder.py:610-610. -/
def addPadField1 : Stmt :=
  .assign [(.name .pad)] (.slice (.meth (.name .field_spec) .get [(.str py"left_pad"), (.str py"")] [] []) .none (.int 1))

/-- encoder.py:611-612. -/
def addPadField2 : Stmt :=
  .ite (.cmp .gt (.call .len [(.name .pad)] [] []) (.int 0)) [
    .ret (.bin .add (.name .pad) (.name .field_data))] []

/-- encoder.py:614-614. -/
def addPadField3 : Stmt :=
  .assign [(.name .pad)] (.slice (.meth (.name .field_spec) .get [(.str py"right_pad"), (.str py"")] [] []) .none (.int 1))

/-- encoder.py:615-616. -/
def addPadField4 : Stmt :=
  .ite (.cmp .gt (.call .len [(.name .pad)] [] []) (.int 0)) [
    .ret (.bin .add (.name .field_data) (.name .pad))] []

/-- encoder.py:618-618. -/
def addPadField5 : Stmt :=
  .ret (.name .field_data)

/-- encoder.py:587-618 `_add_pad_field`. -/
def addPadFieldDef : Def :=
  { name := ._add_pad_field, isClass := false, isGen := false,
    params := [.field_data, .field_spec],
    defaults := [],
    locals := [.pad],
    body := [addPadField1, addPadField2, addPadField3, addPadField4, addPadField5] }

/-- encoder.py:655-670. -/
def encodeTextField1 : Stmt :=
  .attempt [
    .assign [(.name .encoded_data)] (.meth (.name .field_data) .encode [(.sub (.name .field_spec) (.str py"data_enc"))] [] [])] [
    .mk .LookupError none [
      .raise (.call .EncodeError [(.str py"Failed to encode field, unknown encoding specified"), (.name .doc_dec), (.name .doc_enc), (.name .field_key)] [] [])],
    .mk .Exception none [
      .raise (.call .EncodeError [(.str py"Failed to encode field, invalid data"), (.name .doc_dec), (.name .doc_enc), (.name .field_key)] [] [])]]

/-- encoder.py:674-677. -/
def encodeTextField2 : Stmt :=
  .ite (.cmp .eq (.name .len_count) (.str py"nibbles")) [
    .ret (.tuple [(.name .encoded_data), (.bin .mul (.call .len [(.name .encoded_data)] [] []) (.int 2))])] [
    .ret (.tuple [(.name .encoded_data), (.call .len [(.name .encoded_data)] [] [])])]

/-- encoder.py:621-677 `_encode_text_field`. -/
def encodeTextFieldDef : Def :=
  { name := ._encode_text_field, isClass := false, isGen := false,
    params := [.doc_dec, .doc_enc, .field_data, .field_key, .field_spec, .len_count],
    defaults := [],
    locals := [.encoded_data],
    body := [encodeTextField1, encodeTextField2] }

/-- encoder.py: the module's own statements that its functions refer to. -/
def encoderModule : List Stmt := []

/-- encoder.py: functions in source order, then classes; each calls only later ones. -/
def encoderDefs : List Def :=
  [encodeDef, encodeHeaderDef, encodeTypeDef, encodeBitmapDef, encodeFieldDef, encodeBindaryFieldDef, addPadFieldDef, encodeTextFieldDef, encodeErrorInitDef]

/-- tools.py:58-58. -/
def pp1 : Stmt :=
  .assign [(.name .desc_width)] (.call .int [(.name .desc_width)] [] [])

/-- tools.py:59-59. -/
def pp2 : Stmt :=
  .assign [(.name .line_width)] (.call .int [(.name .line_width)] [] [])

/-- tools.py:61-62. -/
def pp3 : Stmt :=
  .ite (.cmp .is (.name .stream) .none) [
    .assign [(.name .stream)] (.attr (.name ._sys) .stdout)] []

/-- tools.py:64-65. -/
def pp4 : Stmt :=
  .ite (.and (.cmp .mem (.str py"h") (.name .doc)) (.cmp .gt (.sub (.sub (.name .spec) (.str py"h")) (.str py"max_len")) (.int 0))) [
    .expr (.call ._pp_field [(.name .doc), (.name .spec), (.name .desc_width), (.name .stream), (.name .line_width), (.str py"h")] [] [])] []

/-- tools.py:67-68. -/
def pp5 : Stmt :=
  .ite (.cmp .mem (.str py"t") (.name .doc)) [
    .expr (.call ._pp_field [(.name .doc), (.name .spec), (.name .desc_width), (.name .stream), (.name .line_width), (.str py"t")] [] [])] []

/-- tools.py:70-71. -/
def pp6 : Stmt :=
  .ite (.cmp .mem (.str py"p") (.name .doc)) [
    .expr (.call ._pp_field [(.name .doc), (.name .spec), (.name .desc_width), (.name .stream), (.name .line_width), (.str py"p")] [] [])] []

/-- tools.py:73-76. -/
def pp7 : Stmt :=
  .loop [.field_key] (.call .sorted [(.comp (.loop [.k] (.meth (.name .doc) .keys [] [] []) (.when (.and (.call .isinstance [(.name .k), (.name .str)] [] []) (.meth (.name .k) .isnumeric [] [] [])) (.yield (.name .k)))))] [.key] [(.name .int)]) [
    .expr (.call ._pp_field [(.name .doc), (.name .spec), (.name .desc_width), (.name .stream), (.name .line_width), (.name .field_key)] [] [])]

/-- tools.py:11-76 `pp`. -/
def ppDef : Def :=
  { name := .pp, isClass := false, isGen := false,
    params := [.doc, .spec, .desc_width, .stream, .line_width],
    defaults := [(.int 30), .none, (.int 80)],
    locals := [.field_key],
    body := [pp1, pp2, pp3, pp4, pp5, pp6, pp7] }

/-- tools.py:87-87. -/
def ppField1 : Stmt :=
  .assign [(.name .indent)] (.int 5)

/-- tools.py:88-88. -/
def ppField2 : Stmt :=
  .expr (.meth (.name .stream) .write [(.meth (.str py"{index:3s}") .format [] [.index] [(.call .str [(.name .field_key)] [] [])])] [] [])

/-- tools.py:90-97. -/
def ppField3 : Stmt :=
  .ite (.cmp .gt (.name .desc_width) (.int 0)) [
    .expr (.meth (.name .stream) .write [(.meth (.str py" {desc: <{desc_width}}") .format [] [.desc, .desc_width] [(.slice (.sub (.sub (.name .spec) (.name .field_key)) (.str py"desc")) .none (.name .desc_width)), (.name .desc_width)])] [] []),
    .aug (.name .indent) .add (.bin .add (.name .desc_width) (.int 1))] []

/-- tools.py:99-99. -/
def ppField4 : Stmt :=
  .expr (.meth (.name .stream) .write [(.str py": ")] [] [])

/-- tools.py:101-101. -/
def ppField5 : Stmt :=
  .assign [(.name .doc_field)] (.sub (.name .doc) (.name .field_key))

/-- tools.py:103-111. -/
def ppField6 : Stmt :=
  .ite (.call .isinstance [(.name .doc_field), (.name .dict)] [] []) [
    .assign [(.name .field_length)] (.meth (.name .doc_field) .get [(.str py"len"), (.bytes [])] [] []),
    .ite (.cmp .gt (.call .len [(.name .field_length)] [] []) (.int 0)) [
      .expr (.meth (.name .stream) .write [(.meth (.str py"{} ") .format [(.call .repr [(.name .field_length)] [] [])] [] [])] [] []),
      .aug (.name .indent) .add (.bin .add (.call .len [(.call .repr [(.name .field_length)] [] [])] [] []) (.int 1))] [],
    .assign [(.name .obj)] (.meth (.name .doc_field) .get [(.str py"data"), (.bytes [])] [] [])] [
    .assign [(.name .obj)] (.name .doc_field)]

/-- tools.py:113-113. -/
def ppField7 : Stmt :=
  .assign [(.name .rep)] (.call .repr [(.name .obj)] [] [])

/-- tools.py:114-119. -/
def ppField8 : Stmt :=
  .ite (.cmp .gt (.bin .add (.call .len [(.name .rep)] [] []) (.name .indent)) (.name .line_width)) [
    .assign [(.name .p)] (.meth (.name ._dispatch) .get [(.attr (.call .type [(.name .obj)] [] []) .__repr__), .none] [] []),
    .ite (.cmp .isNot (.name .p) .none) [
      .expr (.call .p [(.name .obj), (.name .stream), (.name .indent), (.name .line_width)] [] []),
      .expr (.meth (.name .stream) .write [(.str py"\n")] [] []),
      .ret .none] []] []

/-- tools.py:121-121. -/
def ppField9 : Stmt :=
  .expr (.meth (.name .stream) .write [(.meth (.str py"{}\n") .format [(.call .repr [(.name .obj)] [] [])] [] [])] [] [])

/-- tools.py:79-121 `_pp_field`. -/
def ppFieldDef : Def :=
  { name := ._pp_field, isClass := false, isGen := false,
    params := [.doc, .spec, .desc_width, .stream, .line_width, .field_key],
    defaults := [],
    locals := [.indent, .doc_field, .field_length, .obj, .rep, .p],
    body := [ppField1, ppField2, ppField3, ppField4, ppField5, ppField6, ppField7, ppField8, ppField9] }

/-- tools.py:128-130. -/
def pprintStr1 : Stmt :=
  .ite (.cmp .le (.call .len [(.name .obj)] [] []) (.int 1)) [
    .expr (.meth (.name .stream) .write [(.call .repr [(.name .obj)] [] [])] [] []),
    .ret .none] []

/-- tools.py:132-132. -/
def pprintStr2 : Stmt :=
  .assign [(.name .delim)] (.str py"")

/-- tools.py:133-137. -/
def pprintStr3 : Stmt :=
  .loop [.rep] (.call ._wrap_str_repr [(.name .obj), (.bin .sub (.name .width) (.name .indent))] [] []) [
    .expr (.meth (.name .stream) .write [(.name .delim)] [] []),
    .expr (.meth (.name .stream) .write [(.name .rep)] [] []),
    .ite (.not (.name .delim)) [
      .assign [(.name .delim)] (.bin .add (.str py"\n") (.bin .mul (.str py" ") (.name .indent)))] []]

/-- tools.py:127-137 `_pprint_str`. -/
def pprintStrDef : Def :=
  { name := ._pprint_str, isClass := false, isGen := false,
    params := [.obj, .stream, .indent, .width],
    defaults := [],
    locals := [.delim, .rep],
    body := [pprintStr1, pprintStr2, pprintStr3] }

/-- tools.py:144-146. -/
def pprintBytes1 : Stmt :=
  .ite (.cmp .le (.call .len [(.name .obj)] [] []) (.int 1)) [
    .expr (.meth (.name .stream) .write [(.call .repr [(.name .obj)] [] [])] [] []),
    .ret .none] []

/-- tools.py:148-148. -/
def pprintBytes2 : Stmt :=
  .assign [(.name .delim)] (.str py"")

/-- tools.py:149-153. -/
def pprintBytes3 : Stmt :=
  .loop [.rep] (.call ._wrap_bytes_repr [(.name .obj), (.bin .sub (.name .width) (.name .indent))] [] []) [
    .expr (.meth (.name .stream) .write [(.name .delim)] [] []),
    .expr (.meth (.name .stream) .write [(.name .rep)] [] []),
    .ite (.not (.name .delim)) [
      .assign [(.name .delim)] (.bin .add (.str py"\n") (.bin .mul (.str py" ") (.name .indent)))] []]

/-- tools.py:143-153 `_pprint_bytes`. -/
def pprintBytesDef : Def :=
  { name := ._pprint_bytes, isClass := false, isGen := false,
    params := [.obj, .stream, .indent, .width],
    defaults := [],
    locals := [.delim, .rep],
    body := [pprintBytes1, pprintBytes2, pprintBytes3] }

/-- tools.py:162-165. -/
def wrapStrRepr1 : Stmt :=
  .ite (.cmp .gt (.name .width) (.int 3)) [
    .aug (.name .width) .sub (.int 2)] [
    .assign [(.name .width)] (.int 1)]

/-- tools.py:167-168. -/
def wrapStrRepr2 : Stmt :=
  .loop [.i] (.call .range [(.int 0), (.call .len [(.name .obj)] [] []), (.name .width)] [] []) [
    .yield (.call .repr [(.slice (.name .obj) (.name .i) (.bin .add (.name .i) (.name .width)))] [] [])]

/-- tools.py:159-168 `_wrap_str_repr`. -/
def wrapStrReprDef : Def :=
  { name := ._wrap_str_repr, isClass := false, isGen := true,
    params := [.obj, .width],
    defaults := [],
    locals := [.i],
    body := [wrapStrRepr1, wrapStrRepr2] }

/-- tools.py:172-172. -/
def wrapBytesRepr1 : Stmt :=
  .assign [(.name .current)] (.bytes [])

/-- tools.py:174-183. -/
def wrapBytesRepr2 : Stmt :=
  .loop [.i] (.call .range [(.int 0), (.call .len [(.name .obj)] [] [])] [] []) [
    .assign [(.name .part)] (.slice (.name .obj) (.name .i) (.bin .add (.name .i) (.int 1))),
    .assign [(.name .candidate)] (.bin .add (.name .current) (.name .part)),
    .ite (.cmp .gt (.call .len [(.call .repr [(.name .candidate)] [] [])] [] []) (.name .width)) [
      .ite (.name .current) [
        .yield (.call .repr [(.name .current)] [] [])] [],
      .assign [(.name .current)] (.name .part)] [
      .assign [(.name .current)] (.name .candidate)]]

/-- tools.py:185-186. -/
def wrapBytesRepr3 : Stmt :=
  .ite (.name .current) [
    .yield (.call .repr [(.name .current)] [] [])] []

/-- tools.py:171-186 `_wrap_bytes_repr`. -/
def wrapBytesReprDef : Def :=
  { name := ._wrap_bytes_repr, isClass := false, isGen := true,
    params := [.obj, .width],
    defaults := [],
    locals := [.current, .i, .part, .candidate],
    body := [wrapBytesRepr1, wrapBytesRepr2, wrapBytesRepr3] }

/-- tools.py: the module's own statements that its functions refer to. -/
def toolsModule : List Stmt := [
  .assign [(.name ._dispatch)] (.dict [] []),
  .assign [(.sub (.name ._dispatch) (.attr (.name .str) .__repr__))] (.name ._pprint_str),
  .assign [(.sub (.name ._dispatch) (.attr (.name .bytes) .__repr__))] (.name ._pprint_bytes)]

/-- tools.py: functions in source order, then classes; each calls only later ones. -/
def toolsDefs : List Def :=
  [ppDef, ppFieldDef, pprintStrDef, pprintBytesDef, wrapStrReprDef, wrapBytesReprDef]

end Iso8583.Src
