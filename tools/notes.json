{
 "C46": {
  "status": "partial",
  "note": "False in general (C46_fails: set 1000, 2000, 1000 leaves 2000 in force). Proved when the last value differs from the earlier unannounced ones and no section is outstanding."
 },
 "C16": {
  "status": "proved",
  "note": "For every schedule; names/values within the decoder's own string limits, at most 128 KiB of encoder stream between two reads of a request stream."
 },
 "C17": {
  "status": "proved",
  "note": "For every schedule; equal MaxEntries on both sides, Required Insert Count at most MaxEntries ahead of the decoder (C18_fails_if_encoder_runs_ahead shows the library's encoder can violate this)."
 },
 "C18": {
  "status": "proved",
  "note": "Exactness with equal limits proved; failure with differing limits and with an encoder running ahead proved as counterexamples."
 },
 "C47": {
  "status": "partial",
  "note": "Proved for clients and for the buffer bound. False on servers (C47_fails_on_server: a call ending right after the element ID of a PRIORITY_UPDATE fails an assertion); C47_server_partial confines the failure to that packet boundary."
 },
 "C49": {
  "status": "proved",
  "note": "For all histories of the 28 modelled operations under the stated conditions; two conditions are shown necessary by counterexamples (C49_fails_for_closed_streams, C49_fails_for_second_shutdown)."
 },
 "C34": {
  "status": "proved",
  "note": "The clause about blocked streams needs a condition; C34_fails_for_blocked is the counterexample."
 },
 "C35": {
  "status": "proved",
  "note": "Bounded service among streams of one urgency; C35_needs_no_arrivals shows the bound needs no stream to re-enter at the smallest cycle."
 },
 "C33": {
  "status": "proved",
  "note": "C33_unsent_not_refused: acknowledging bytes never sent is not refused."
 },
 "C40": {
  "status": "proved",
  "note": "Two defects proved as negations: a critical stream whose FIN comes with exactly its type bytes is not reported (C40_fails_for_short_streams); closing a peer's stream whose type has not arrived is refused as critical (C40_fails_for_unidentified_close)."
 },
 "C31": {
  "status": "proved",
  "note": "Allocation succeeds, callbacks return 0. C31_truncation_unnoticed_while_blocked: the end of a truncated stream is not noticed if it is blocked with nothing buffered."
 },
 "C42": {
  "status": "proved",
  "note": "For histories of one request stream with arbitrary use of the decoder by others; callbacks return 0."
 },
 "C52": {
  "status": "proved",
  "note": "The QPACK decoder is not used by others while the bytes of this stream arrive (it may be, arbitrarily, before). Allocation succeeds, callbacks return 0."
 }
}