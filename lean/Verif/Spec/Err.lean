/-! RFC 9114 section 8.1 and RFC 9204 section 6: the error codes, and which one each documented library error (nghttp3.h:99-287)
stands for. -/
namespace Nghttp3.Spec

/-- RFC 9114 section 8.1 (0x0100-0x0110) and RFC 9204 section 6 (0x0200-0x0202) -/
def DefinedCode (c : Nat) : Prop := (0x0100 ≤ c ∧ c ≤ 0x0110) ∨ (0x0200 ≤ c ∧ c ≤ 0x0202)

/-- library errors named after a protocol error code, with the value of that code in the RFCs -/
def namedAfter : List (Int × Nat) :=
  [(0, 0x0100), (-606, 0x0101), (-604, 0x0102), (-609, 0x0103), (-605, 0x0104), (-601, 0x0105), (-602, 0x0106), (-607, 0x0108), (-608, 0x0109),
   (-603, 0x010a), (-401, 0x0200), (-402, 0x0201), (-403, 0x0202)]

/-- the numbers of the errors in the public header (nghttp3.h:105-287; they are part of the binary interface), what nghttp3_strerror calls
them and the application error code to close the connection or stream with -/
def documented : List (Int × String × Nat) :=
  [(-101, "ERR_INVALID_ARGUMENT", 0x0101), (-102, "ERR_INVALID_STATE", 0x0101), (-103, "ERR_WOULDBLOCK", 0x0101), (-104, "ERR_STREAM_IN_USE", 0x0101),
   (-105, "ERR_MALFORMED_HTTP_HEADER", 0x010e), (-106, "ERR_REMOVE_HTTP_HEADER", 0x0101), (-107, "ERR_MALFORMED_HTTP_MESSAGING", 0x010e),
   (-108, "ERR_QPACK_FATAL", 0x0102), (-109, "ERR_QPACK_HEADER_TOO_LARGE", 0x0102), (-110, "ERR_STREAM_NOT_FOUND", 0x0101),
   (-111, "ERR_CONN_CLOSING", 0x0101), (-112, "ERR_STREAM_DATA_OVERFLOW", 0x0102), (-401, "ERR_QPACK_DECOMPRESSION_FAILED", 0x0200),
   (-402, "ERR_QPACK_ENCODER_STREAM_ERROR", 0x0201), (-403, "ERR_QPACK_DECODER_STREAM_ERROR", 0x0202), (-601, "ERR_H3_FRAME_UNEXPECTED", 0x0105),
   (-602, "ERR_H3_FRAME_ERROR", 0x0106), (-603, "ERR_H3_MISSING_SETTINGS", 0x010a), (-604, "ERR_H3_INTERNAL_ERROR", 0x0102),
   (-605, "ERR_CLOSED_CRITICAL_STREAM", 0x0104), (-606, "ERR_H3_GENERAL_PROTOCOL_ERROR", 0x0101), (-607, "ERR_H3_ID_ERROR", 0x0108),
   (-608, "ERR_H3_SETTINGS_ERROR", 0x0109), (-609, "ERR_H3_STREAM_CREATION_ERROR", 0x0103), (-901, "ERR_NOMEM", 0x0102), (-902, "ERR_CALLBACK_FAILURE", 0x0102)]

end Nghttp3.Spec
