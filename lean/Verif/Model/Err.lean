/-! Model of lib/nghttp3_err.c. -/
namespace Nghttp3
namespace Err

/-- nghttp3.h:105-287 -/
def INVALID_ARGUMENT : Int := -101
def INVALID_STATE : Int := -102
def WOULDBLOCK : Int := -103
def STREAM_IN_USE : Int := -104
def MALFORMED_HTTP_HEADER : Int := -105
def REMOVE_HTTP_HEADER : Int := -106
def MALFORMED_HTTP_MESSAGING : Int := -107
def QPACK_FATAL : Int := -108
def QPACK_HEADER_TOO_LARGE : Int := -109
def STREAM_NOT_FOUND : Int := -110
def CONN_CLOSING : Int := -111
def STREAM_DATA_OVERFLOW : Int := -112
def QPACK_DECOMPRESSION_FAILED : Int := -401
def QPACK_ENCODER_STREAM_ERROR : Int := -402
def QPACK_DECODER_STREAM_ERROR : Int := -403
def H3_FRAME_UNEXPECTED : Int := -601
def H3_FRAME_ERROR : Int := -602
def H3_MISSING_SETTINGS : Int := -603
def H3_INTERNAL_ERROR : Int := -604
def H3_CLOSED_CRITICAL_STREAM : Int := -605
def H3_GENERAL_PROTOCOL_ERROR : Int := -606
def H3_ID_ERROR : Int := -607
def H3_SETTINGS_ERROR : Int := -608
def H3_STREAM_CREATION_ERROR : Int := -609
def FATAL : Int := -900
def NOMEM : Int := -901
def CALLBACK_FAILURE : Int := -902

/-- a C `switch` over constants: the cases in order -/
def switch {α : Type} (cases : List (Int × α)) (default : α) (e : Int) : α :=
  match cases.find? fun c => c.1 == e with
  | some c => c.2
  | none => default

/-- the cases of nghttp3_err_infer_quic_app_error_code, nghttp3_err.c:86-125, with the codes of nghttp3.h:301-434 -/
def appErrorCases : List (Int × Nat) :=
  [(0, 0x0100), (QPACK_DECOMPRESSION_FAILED, 0x0200), (QPACK_ENCODER_STREAM_ERROR, 0x0201), (QPACK_DECODER_STREAM_ERROR, 0x0202),
   (H3_FRAME_UNEXPECTED, 0x0105), (H3_FRAME_ERROR, 0x0106), (H3_MISSING_SETTINGS, 0x010a), (H3_INTERNAL_ERROR, 0x0102), (NOMEM, 0x0102),
   (CALLBACK_FAILURE, 0x0102), (QPACK_FATAL, 0x0102), (QPACK_HEADER_TOO_LARGE, 0x0102), (STREAM_DATA_OVERFLOW, 0x0102),
   (H3_CLOSED_CRITICAL_STREAM, 0x0104), (H3_GENERAL_PROTOCOL_ERROR, 0x0101), (H3_ID_ERROR, 0x0108), (H3_SETTINGS_ERROR, 0x0109),
   (H3_STREAM_CREATION_ERROR, 0x0103), (MALFORMED_HTTP_HEADER, 0x010e), (MALFORMED_HTTP_MESSAGING, 0x010e)]

/-- nghttp3_err_infer_quic_app_error_code, nghttp3_err.c:86-125 -/
def appErrorCode (e : Int) : Nat := switch appErrorCases 0x0101 e

/-- nghttp3_err_is_fatal, nghttp3_err.c:127 -/
def isFatal (e : Int) : Bool := decide (e < FATAL)

/-- the cases of nghttp3_strerror, nghttp3_err.c:28-83 -/
def strerrorCases : List (Int × String) :=
  [(INVALID_ARGUMENT, "ERR_INVALID_ARGUMENT"), (INVALID_STATE, "ERR_INVALID_STATE"), (WOULDBLOCK, "ERR_WOULDBLOCK"),
   (STREAM_IN_USE, "ERR_STREAM_IN_USE"), (MALFORMED_HTTP_HEADER, "ERR_MALFORMED_HTTP_HEADER"), (REMOVE_HTTP_HEADER, "ERR_REMOVE_HTTP_HEADER"),
   (MALFORMED_HTTP_MESSAGING, "ERR_MALFORMED_HTTP_MESSAGING"), (QPACK_FATAL, "ERR_QPACK_FATAL"),
   (QPACK_HEADER_TOO_LARGE, "ERR_QPACK_HEADER_TOO_LARGE"), (STREAM_NOT_FOUND, "ERR_STREAM_NOT_FOUND"), (CONN_CLOSING, "ERR_CONN_CLOSING"),
   (STREAM_DATA_OVERFLOW, "ERR_STREAM_DATA_OVERFLOW"), (QPACK_DECOMPRESSION_FAILED, "ERR_QPACK_DECOMPRESSION_FAILED"),
   (QPACK_ENCODER_STREAM_ERROR, "ERR_QPACK_ENCODER_STREAM_ERROR"), (QPACK_DECODER_STREAM_ERROR, "ERR_QPACK_DECODER_STREAM_ERROR"),
   (H3_FRAME_UNEXPECTED, "ERR_H3_FRAME_UNEXPECTED"), (H3_FRAME_ERROR, "ERR_H3_FRAME_ERROR"), (H3_MISSING_SETTINGS, "ERR_H3_MISSING_SETTINGS"),
   (H3_INTERNAL_ERROR, "ERR_H3_INTERNAL_ERROR"), (H3_CLOSED_CRITICAL_STREAM, "ERR_CLOSED_CRITICAL_STREAM"),
   (H3_GENERAL_PROTOCOL_ERROR, "ERR_H3_GENERAL_PROTOCOL_ERROR"), (H3_ID_ERROR, "ERR_H3_ID_ERROR"), (H3_SETTINGS_ERROR, "ERR_H3_SETTINGS_ERROR"),
   (H3_STREAM_CREATION_ERROR, "ERR_H3_STREAM_CREATION_ERROR"), (NOMEM, "ERR_NOMEM"), (CALLBACK_FAILURE, "ERR_CALLBACK_FAILURE")]

/-- nghttp3_strerror, nghttp3_err.c:27-84 -/
def strerror (e : Int) : String := switch strerrorCases "(unknown)" e

end Err
end Nghttp3
