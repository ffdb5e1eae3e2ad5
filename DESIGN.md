# Formal model of nghttp3 in Lean 4 — design

## Trusted base

* Lean 4.33.0's kernel. No axioms of our own; theorems depend at most on `propext`,
  `Classical.choice` and `Quot.sound` (Lean's three standard axioms). `decide +kernel`
  is used only over whole finite tables (256-entry character tables, the 257x16 Huffman
  automaton, the 99-entry static table), for concrete witnesses and for concrete counterexamples
  (`Cxx_fails_*`, `Cxx_witness*`): the kernel itself evaluates the decision procedure.
  No `native_decide`, no `bv_decide`.
* The transcription from C to Lean is by hand (except the constant tables, extracted
  mechanically from the C text by `tools/gen_chars.py`, `tools/gen_huff.py` and `tools/gen_static.py` into `lean/Verif/Gen/*.lean`).
  Each definition cites the file and lines it transcribes. Nothing checks the transcription
  mechanically: that, and the C compiler/`size_t`=64 bit assumption, are trusted.
* The C memory model is not modelled. Buffers are lists of bytes, pointers are indices or
  values. Where C could read/write out of bounds or fail an `assert`, the model has a
  distinct outcome (`.abort` / `none` / "assert"), so that absence of such an outcome is a theorem.

## What is modelled / not modelled

| file of lib/ | model | modelled | not modelled |
|---|---|---|---|
| nghttp3_conv | Model/Conv, Rd | all varint readers/writers, `nghttp3_read_varint` | byte-order helpers for 16/32 bits are folded into arithmetic |
| nghttp3_frame | Model/Frame | all writers and length functions; `nghttp3_nva_copy` in Model/Nva | - |
| nghttp3_gaptr, idtr, range | Model/Gaptr | all | the gap list is a sorted list here; the B+-tree below it is Model/Ksl |
| nghttp3_ringbuf, pq, map, ksl | Model/Ringbuf, Pq, Map, Ksl | all operations | allocation failure; byte layout of ksl blocks |
| nghttp3_tnode | Model/Conn | schedule, unschedule, cycle arithmetic | - |
| nghttp3_qpack_huffman(+data) | Model/Huffman, Gen/* | encoder, decoder, both tables | - |
| nghttp3_qpack | Model/QpackCtx, QpackInt, QpackEnc, QpackDec, StaticTable | dynamic table, encoder (all paths), decoder (encoder stream, field sections), decoder stream, static table and token lookup | allocation failure; containers are represented by their contents (C05-C08); counters are unbounded numbers with `none` for SIZE_MAX/UINT64_MAX |
| nghttp3_http | Model/Http, Message, Priority | header checks, content-length, name/value/method/path/scheme/authority checks, message state machine, priority members | the structured-field parser itself (sfparse is an empty submodule): priority values enter as a parsed list of members |
| nghttp3_stream | Model/Outq, Conn, Bidi, Message | frame queue, write_header/data, outq, chunks as byte strings, partial writes, acks, buffering of blocked data, HTTP state transitions | chunk memory is reduced to byte strings |
| nghttp3_conn | Model/PayloadLeft (get_frame_payload_left), Model/Control (control stream bytes), Model/Bidi (request stream bytes), Model/BidiCb (the same if callbacks fail), Model/Conn (28 API operations over all streams) | read_control, read_bidi, read_uni, scheduling, writev/add_write_offset/add_ack_offset, open/close/shutdown, priorities, GOAWAY | callbacks that re-enter the library; callbacks that fail, except those of the control stream (Model/Control) and read_data; allocation failure |
| nghttp3_err, rcbuf, balloc, objalloc, opl, vec, str | Model/Err, Rcbuf, Balloc, Nva | all used functions | - |
| nghttp3_debug, version, settings defaults | - | - | trivial |

Models of connection behaviour exist at different resolutions because each property needs another one:
`Control`/`Bidi` work on bytes of one stream; `Conn` works on whole frames of all streams; `Outq` works on the output
bytes of one stream; `Endpoint` joins them into one connection that gets bytes (C60).  Where a finer model replaces a parameter of a coarser one this is said in the coarser file.

Not modelled anywhere: `examples/`, `tests/`, build files, the C memory model, the C compiler.

## Conventions

* `uint64_t` quantities are `Nat` when a bound below 2^64 is an invariant or hypothesis, with
  explicit `% 2^64` where the C relies on wrap-around.
* Bytes are `UInt8`; byte strings are `List UInt8`.
* Model files: `Verif/Model/*.lean`. Independent specifications: `Verif/Spec/*.lean`.
  Helper lemmas: `Verif/Lemmas/*.lean`. Property theorems: `Verif/Props/*.lean`, each with a
  non-vacuity `example` or `_witness` theorem.
* A name `Cxx_fails_*` (or one listed under Findings) is a proved negation: the English claim, without the condition the positive theorem
  has, is false of the code, with a concrete history as witness.

## Per-property plan

| id | modelled | proof |
|---|---|---|
| C01 | put/get varint, lengths | arithmetic; minimality over the four size classes |
| C02 | `nghttp3_read_varint` with (acc,left) state over chunks | induction over chunk list against a whole-string reader |
| C03 | frame writers and length functions | append lemmas over C01; parser is a small spec (RFC 9114 §7) |
| C04 | gap list, push/is_pushed/first_gap, idtr | invariant: gaps sorted, disjoint, non-empty; complement = set of pushed offsets |
| C05 | ring buffer with array storage, mask arithmetic | refinement to list |
| C06 | array heap + back-pointers | heap invariant, permutation, any strict weak order |
| C07 | Robin-Hood table | refinement to finite map; invariant on probe distances |
| C08 | B+-tree like structure | in-order list refinement |
| C09-C11 | tables + encode/decode loops | automaton state = node of code tree (checked for the whole table by the kernel), induction over input |
| C12 | prefix integers | strong induction on value; chunking by state composition |
| C13-C17,C19,C22,C46 | instruction-level encoder/decoder + byte codecs | two-party invariant by induction over histories |
| C18 | arithmetic of RIC | modular arithmetic; negative result when limits differ |
| C20,C21 | byte-level state machines | generic resumable-machine lemma (Lemmas/Machine) + invariant |
| C23-C26 | http.c flag machine, char tables, rx state machine | invariant by induction over header list; table by `decide +kernel`; equivalence with a grammar |
| C27-C30,C47 | read_control on bytes | resumable machine; refinement to a frame-level reader; abort reachability witnesses |
| C31,C42,C51 | read_bidi on bytes with the QPACK decoder and HTTP layer | resumable machine; canonical form of states (buffers merged); simulation of whole histories; conservation invariant |
| C52 | the same model; specification: frames of RFC 9114 (Spec/WireMsg.lean) and the message rules of Model/Message.lean | each frame is run through the byte machine (one lemma per frame type), then induction over the frames; truncation: induction over the bytes |
| C53 | the decoder model of C20; specification: RFC 9204 sections 3.2, 4.3, 4.5 as a table, instructions and lines (Spec/QpackWire.lean) | one-shot readers proved equivalent to the wire relations, each instruction/line run through the resumable machine, induction over the sequence; invariant over API histories: the decoder is where one run over all accepted bytes would be |
| C54 | a sender (QPACK encoder, frames) and a receiver (Model/Bidi, Model/QpackDec) joined by byte queues (Spec/Net.lean); modelled: any number of streams, blocking and unblocking of streams, Stream Cancellation; the sender's output scheduling, flow control and control streams are not part of it, decoder instructions reach the sender whole | invariant per stream: position of the receiver within the frames submitted; invariant of the QPACK loop (C17-C19); the limit of blocked streams from C15; induction over operations |
| C55 | Model/Conn.lean; each call's effect on the four flags of every stream (Lemmas/ConnFlags.lean, case analysis over all calls), then induction over the history; Spec/Writable.lean reads the history; the converse (WOULDBLOCK makes the stream wait) is stated for the write of that stream, `C55_wouldblock_waits`
| C56 | Model/Conn.lean; Spec/Sent.lean keeps a ledger of the calls and of what they return (frames asked for, bytes taken, offered, acknowledged); the invariant (Lemmas/ConnSent*.lean) says for every stream which items it carries and composes C32's queue invariant with the effect of each call on every stream; the log of what each writev call used is existential, constrained by what was available to that call; between calls what arrives from the peer (SETTINGS, the decoder stream) may change the encoder, by any relation `peer` |
| C57 | Spec/Codes.lean tabulates the documented return values over the ledger of C56; case analysis over the calls with C56's invariant for what the end of a stream depends on |
| C58 | composition of C56 (what the sender's control stream carries; an invariant that what was asked for there is SETTINGS, then GOAWAYs with falling identifiers and priority updates) with C27 (the receiver); runs of the ideal receiver on a prefix report a prefix |
| C59 | joint system of a connection that sends (Model/Conn.lean with the QPACK encoder of Model/QpackEnc.lean) and the receiver of C54 (Spec/Duo.lean); its steps are the calls of the sender's application and transport, and the receiver's operations; simulation: after every step, the state is one that C54's system reaches when messages come into being as far as the sender has served them (Lemmas/Duo*.lean), with the bytes not yet taken by the transport added to those on their way; `C59_end_to_end` names the log of read_data answers, `C59_whatever_read_data_answers` does not need it.  Not part of it: at one endpoint the sending and the receiving half run separately (the receiver's own control stream and GOAWAY are in C58), decoder instructions reach the sender whole, ids of streams are not used again after the sender has closed them (QUIC guarantees it) |
| C60 | Model/Endpoint.lean composes the models of the streams and scheduler (Conn), the request readers (Bidi), the control stream reader (Control) and the QPACK encoder and decoder on one state; the code that connects them (nghttp3_conn_read_stream, the routing of unidirectional streams, the queue of blocked streams and its release loop, creation by PRIORITY_UPDATE, rejection after GOAWAY) is modelled there.  Invariant over histories of permitted calls (Lemmas/Endpoint*.lean): the invariants of the parts, the two views of each stream agree, the queue is a heap that holds exactly the blocked streams, and all of them wait for entries that have not arrived; the release loop ends because each pass removes a stream whose entries have arrived.  `Permitted` (Spec/Endpoint.lean) asks more than the documentation in one point: a server does not close a stream that is blocked (see finding on C49); `C60_fails_on_server` shows the exception of `C60_safe` is real |
| C61 | Spec/Cut.lean says what can be seen of a sequence of calls of a whole connection (Model/Endpoint.lean): callbacks of all streams in order with body bytes one by one, results of all calls other than read_stream (so also every byte offered by writev_stream), flow-control credit per stream, connection error.  Proof: connections whose request streams differ only in how buffered bytes and half-read integers are stored are bisimilar for every call (Lemmas/EndpointSame*.lean; the control stream reader by naturality, Lemmas/ControlMap.lean; the queue of waiting streams by congruence of the heap), and one call equals two calls up to that relation (Lemmas/EndpointCut.lean, from the per-stream result C31).  The QPACK encoder stream is shown not to have the property (`C61_encoder_stream_differs`).  Not covered: cuts of unidirectional streams. |
| C62 | Model/Endpoint.lean.  What a call does to one request stream of a connection is a chain of steps of the per-stream model (created, refused, bytes received, released, shut down, closed: `Move`, `Chain`, `step_chain` in Lemmas/EndpointLife.lean, for every call); each step keeps the balance received + buffered before = returned + deferred_consume + recv_data + buffered after (from the simulation behind C54); induction on the history (Lemmas/EndpointLog.lean).  Bytes are buffered only in a stream that waits. |
| C63 | Model/Endpoint.lean.  The chain of C62 (`Chain`, for one request stream of a connection) is cut at the deletions of the stream (`Chain.lives`, Lemmas/EndpointLives.lean); within one life it is an execution of the per-stream model of C26, so the theorems on messages in progress apply (`request_life`, `response_life`); for a client `submitRequest` fixes the method. |
| C64 | Model/Endpoint.lean.  Every history of a connection is a history of its sending side (`hist_bridge`, Lemmas/EndpointBridge.lean; each read is a sequence of the operations that received data causes, `read_path`, Lemmas/EndpointOps.lean), so C29 and C43 hold for it; how each life of a stream began is recorded in the chain of C62/C63 (`QL`), and whether it was refused is `rejects` in the state at that moment (`rejects_hist`).  Chains that start with the reading side shut down are silent (`Chain.silent`, Lemmas/EndpointShut.lean). |
| C65 | Model/Endpoint.lean.  `CJ` (Lemmas/EndpointCtrl.lean) relates a history to the pieces of the control stream that its reader got: the bytes that arrived on each unidirectional stream of the peer determine its type (`UState`, Lemmas/ConnArrive.lean; no other operation touches it, `Part`, Lemmas/ConnPart.lean), and running the reader on the pieces in isolation, without the rest of the connection, gives its state (`read_agree`, Lemmas/ControlErase.lean).  C27, C29 and C30 then apply; the order of callbacks is an invariant of the reader (`Ph`, Lemmas/ControlOrder.lean).  Whole frames with PRIORITY_UPDATE values of at most 8 bytes in C65_reports; the code of the error for an unacceptable frame is in C27. |
| C66 | Model/Endpoint.lean with the ledger of C56 (Spec/Kept.lean).  Each read is a sequence of operations of the sending side of which first some may open streams and then some may remove them (`read_path`), so that the books of existing streams are untouched (`path_grow`, `path_shrink`, Lemmas/EndpointKept.lean) and C56, C57 and C58 apply (`kept_run`); the receiver's half of the control stream is C65. |
| C67 | Model/Endpoint.lean.  The history of a whole connection is a history of its sending side (`hist_bridge`), to which C34, C41, C50 and C55 apply; received data is made of operations that leave the flags of a stream alone (`fresh_path`, `flags_calls`, Lemmas/EndpointAlive.lean), and a request stream that was not closed by the application is not removed (`open_run`) |
| C68 | Model/BidiCb.lean: the functions of Model/Bidi.lean once more, with every callback at its place in the code, an early return if it fails, and the callbacks of a failing call kept.  Every such function is natural in the behaviour of the callbacks: it equals its run without failures cut at the first failing callback (closed under sequencing; induction over the loops); the run without failures equals Model/Bidi.lean (simulation, function by function), so C31, C42, C51 and C56 speak about what happens before the failure.  The one place that swallows a failure (finding 3) is excluded by a hypothesis and shown by `C68_deferred_unreported` |
| C69 | Model/Endpoint.lean, instructions in Spec/Feedback.lean.  An invariant (`Spoken`, Lemmas/Feedback4.lean) kept by every call: the bytes written and the buffer of the decoder parse into instructions, whose Known Received Count is the decoder's count of written insertions; every path of the request-stream reader that completes a section adds its acknowledgment (Lemmas/Feedback2.lean), every other path leaves the buffer alone; the bytes that calls put on the stream are exactly those that the decoder gave up (`flushes_reached`, and `Tallies` of C56 with equality).  The insertions it speaks of are those of the bytes that have arrived on the peer's encoder stream: what the routing of unidirectional streams passes on is, over the whole history, what arrived after the stream type (`Fed`), and the decoder's state is that of one run over it (`Tab`, Lemmas/EndpointTable.lean), to which C53 applies |
| C70 | Model/Endpoint.lean and Model/Bidi.lean; the meaning of frames from Spec/WireMsg.lean with a decoder without table, what has arrived in Spec/Alone.lean.  A section with Required Insert Count 0 read by a decoder without table is read the same by any decoder (`readRequest_like`, Lemmas/QpackZero.lean, by the passes of the parser), so is a stream (`aBidi_like`, Lemmas/BidiZero.lean), up to the priority signal, which is no callback; then induction over the life of the stream (`Chain`, of C61) that the pieces so far have been read as by one call with that decoder (`chain_fate`, Lemmas/EndpointZero.lean). |
| C71 | Model/Endpoint.lean on both sides.  The sender: the account of C66 says that the bytes of the stream are the frames of what was submitted, each field section being what the encoder made of it; an encoder without table writes sections with Required Insert Count 0 that any decoder reads as what was encoded (`EncZero`, Lemmas/EncZero.lean, by C49's simulation of a section), which SETTINGS and the peer's decoder stream do not change.  The receiver: C70, with the meaning of these frames turned into the rules for messages (`plain_frames`, `plain_stream`, Lemmas/Whole.lean) |
| C72 | Spec/Fault.lean lists, for every error, what has happened.  Every path of Model/Endpoint.lean's `read` that ends in an error is classified (`read_blame`, Lemmas/ControlFault, ConnFault, EndpointFault-3): the bytes of a stream are those of the log (C65, C61), an error of the encoder stream leaves the parser where no continuation is valid (C49's simulation).  Conversely (EndpointFault4): what arrives on the only stream of a critical type gets to the reader of that type, in order; the reader's verdict is that of C27 and C49 |
| C73 | The bytes of the stream are those of the log; `enter_uni` (Lemmas/EndpointFault4) shows that the call gets to nghttp3_conn_read_uni with the reader where the bytes say, and that opening changes nothing but the stream (`But`); the rest is C40's reader of stream types (Lemmas/EndpointUnknown) |
| C74 | `suffix_bridge` turns the log after the decision into a history of the sending side, in which the stream stays (`open_run`, as in C67) and C36's step theorem keeps a priority that the server has set; with C67_offered for the order |
| C75 | `kept_joint`: along every history that sends, two invariants are carried together: that of C66 (`Conn.RInv`, the log of what each write used, unchanged by what is received: `rinv_grow`, `rinv_shrink`) and `EncHist`: the encoder of the connection is tracked by a history of the encoder system of C14/C15/C19 (`Trk`: equal up to the reader of the decoder stream, whose unfinished bytes are kept), with the decoder instructions spelled so far (`dsLoop_trk`), the limits determined by the settings read so far (`ctl_stableD`), and exactly the sections of the log (`Dict.chain`). So one history (`Story`) has the instructions, the limits and the sections in their true interleaving. C14, C15, C19 then apply; `capped_run` bounds the table and the written capacities |
| C76 | the two ends proved apart are joined by nothing but bytes: `C75_sections` gives the sender's encoder one history `ops` whose sections, with their bytes, are those of the log of the connection, and `Account` says that their encoder bytes are what the encoder stream carries; `hist_tab` says that the receiver's decoder is a new one that has read what arrived. `pair_follow`/`pair_at` (Lemmas/EncPair.lean) replay `ops` in the encoder/decoder system of C16–C18 and cut the bytes where they have arrived, which gives its invariant `PairOk` for these two endpoints; `agree_of` reads off `Agree`. Sections are outstanding in the sender's state `s`, and histories are any: take the sender's history up to the moment at which the receiver reads. Reading is a call of the model of `nghttp3_qpack_decoder_read_request` in the loop of `conn_decode_headers`, with the decoder of the connection, not a step of the receiving connection (which reads in pieces: C17). C71, on messages, is still without dynamic table |
| C77 | the specification (`Spec/Left.lean`) is about the bytes alone: `PayloadLeft bs n` reads `bs` as complete frames followed by no header (`n = 0`) or by a header and a part of its payload; `C77_unique` shows that it determines `n`. `Pos s seen` (Lemmas/BidiLeft) says of the reader in state `s` where in `seen` it is; it is kept by every pass of the loop of nghttp3_conn_read_bidi (`step_pos`), hence by `readStream` and by the wake-up of a stream that waited, in which the bytes read before are those of the buffers (`Chain.live`). `hist_chain` (C61) turns the history of a connection into such steps, and the sum of C62 identifies how many bytes have been read. For the control stream, `hist_cj` (C65) gives the run of its reader; complete frames leave it idle (C27), and in a frame of which bytes are missing after all that arrived (`Mid`, Lemmas/ControlLeft) no state of the reader ends the frame, so `left` is what is missing. Not covered there: GOAWAY, and on a server MAX_PUSH_ID and PRIORITY_UPDATE, once the identifier is complete, except PRIORITY_UPDATE for request streams while at most 8 bytes of its value have arrived (`loop_pri`). |
| C32,C33 | outq, chunks abstracted to byte strings | ghost "everything queued" list, invariant; its length is below 2^62 (`C32_limit`, `C32_overflow_only`) |
| C34,C35,C50 | pq + tnode + conn scheduling | invariant over histories + potential argument |
| C36 | priority parsing over parsed members, all ways to set priorities | induction over histories |
| C37,C44,C45,C38,C39 | err, vec, str/nva_copy, rcbuf, balloc | direct |
| (C29,C34-C36,C40-C43,C49,C50,C55) | histories of Model/Conn (`Conn.Reach`, `Conn.Hist` in Spec/Conn.lean) | in all of these histories the encoder state may be replaced by any other one between two calls (constructor `peer`), so whatever SETTINGS and decoder-stream instructions of the peer do to the encoder is covered |
| C40,C41 | read_uni, stream creation by id | invariant over histories of the 28 operations |
| C43 | stream counters, drained | invariant over histories |
| C48 | token lookup + static table | kernel evaluation of whole table + soundness for all names |
| C49 | the 28 operations, asserts as outcomes, stream pointers as ids that must exist | invariant over histories |

Every property could be expressed in a model; C46 and C47 are false of the code in general and are proved with the exact exception
(`_partial`), together with the counterexample.

## Findings

Behaviour of the code at this commit that differs from what a user would expect.  Each line names the theorem that proves it of the model,
or says that it was only read.

1. `nghttp3_conn_read_control`: a server fails an assertion when a call ends right after the element ID of a PRIORITY_UPDATE frame whose
   value follows in the next packet (`C47_fails_on_server`).
2. An over-long Priority Field Value leaves stale bytes that the next PRIORITY_UPDATE is appended to (`C30_fails_after_long_value`).
3. `conn_process_blocked_stream_data` returns 0 when the deferred_consume callback fails: the failure is not reported, the rest of the
   buffered data stays, and a stream that was closed meanwhile is never deleted (`C68_deferred_unreported`).
4. `nghttp3_conn_shutdown`: a second shutdown, or a shutdown notice after a shutdown, can fail an assertion (`C49_fails_for_second_shutdown`).
5. The end of a stream that is blocked on QPACK with nothing buffered is never processed: no end_stream, no error for a truncated frame
   (`C31_truncation_unnoticed_while_blocked`).
6. `ksl_split_head`: running out of memory loses half of the entries (read only).
7. `nghttp3_check_header_name` accepts capitals (`C25_name_accepts_capitals`); received names are checked separately (`C25_received_name`).
8. Duplicate SETTINGS identifiers are only detected for some identifiers (read only; visible in the specification of C28).
9. The encoder uses its own table limit, not the peer's, as MaxEntries: with different limits the Required Insert Count is decoded wrongly or
   refused (`C18_fails_if_limits_differ`, `C18_wrong_if_limits_differ`).
10. `nghttp3_qpack_encoder_set_max_dtable_capacity` with the capacity in force returns early and leaves a pending update (`C46_fails`).
11. The encoder can run more than MaxEntries insertions ahead of the decoder, making the Required Insert Count ambiguous
    (`C18_fails_if_encoder_runs_ahead`).
12. The return value of `nghttp3_qpack_encoder_write_field_section_prefix` is ignored (read only, out of memory).
13. `nghttp3_gaptr_push` of the full range forgets that anything was pushed (`C04_full_range_forgets`).
14. `nghttp3_ksl_update_key` to a smaller key can make an element unreachable (`C08_update_key_down_loses_element`).
15. The encoder can emit names over 256 or values over 65536 bytes, which its own decoder refuses (hypothesis `NvFits` of C16/C17).
16. The block allocator needs `malloc` results aligned to 16 bytes (`C39_needs_aligned_malloc`).
17. content-length of a response to CONNECT other than 2xx is not enforced (visible in the specification of C24).
18. A critical unidirectional stream whose FIN comes with exactly its type bytes is not reported (`C40_fails_for_short_streams`).
19. A HEADERS frame for an empty field section is not sent, or fails an assertion (`C32_empty_section_not_sent`, `C32_empty_section_crash`).
20. A stream that is flow-control blocked or shut for writing is scheduled again when something is queued on it (`C34_fails_for_blocked`).
21. Acknowledging bytes that were never sent is not refused (`C33_unsent_not_refused`).
22. Trailing bytes in the payload of GOAWAY/MAX_PUSH_ID are read as the next frame (`C27_goaway_trailing_bytes`); nghttp3_conn_get_frame_payload_left then tells 0 for the control stream although bytes of the payload are missing (`C77_control_counterexample`), so C77_control_inside excludes these frames once the identifier has arrived.
23. A client ignores SETTINGS_ENABLE_CONNECT_PROTOCOL (read only).
24. A stream closed while blocked on QPACK is put back on the schedule and then freed while still scheduled: use after free that a peer can
    trigger (`C49_fails_for_closed_streams`).
25. `nghttp3_conn_writev_stream` offers nothing if the most urgent stream's read_data says WOULDBLOCK, even if other streams have data
    (`C50_fails_when_data_is_not_ready`).
26. Closing an incoming unidirectional stream whose type has not arrived is refused as H3_CLOSED_CRITICAL_STREAM
    (`C40_fails_for_unidentified_close`).
27. A stream that blocks and unblocks between turns re-enters with the smallest cycle and can starve other incremental streams
    (`C35_needs_no_arrivals`).
28. `nghttp3_conn_read_stream` on a server re-creates a request stream whose id was already closed (read only; QUIC is trusted not to do this).
29. An `authorization` field (or a short `cookie`) submitted without NGHTTP3_NV_FLAG_NEVER_INDEX is kept out of the dynamic table
    (`C22_credentials_not_indexed`) but its literal does not carry the never-index bit, so an intermediary may index it.
30. `nghttp3_conn_shutdown_stream_read` for a stream blocked on QPACK sends a Stream Cancellation but leaves the stream in the queue of
    blocked streams; the peer, which may then block another stream, gets the connection error QPACK_DECOMPRESSION_FAILED although it
    kept to the limit (`C54_stop_of_blocked_stream_fails_connection`).  `nghttp3_conn_close_stream` of a blocked stream keeps it queued
    too (conn.c:2431-2454).
31. `nghttp3_conn_bind_qpack_streams` can return NGHTTP3_ERR_INVALID_ARGUMENT and leave the encoder stream bound; a second attempt is then
    refused with NGHTTP3_ERR_INVALID_STATE (`C57_bind_qpack_half`).
32. What a connection does with the QPACK encoder stream depends on where its packets end: waiting streams are released at the end of a
    call, so an entry that is inserted and evicted within one call of nghttp3_conn_read_stream cannot be used by them
    (`C61_encoder_stream_differs`; a peer that keeps to RFC 9204 section 2.1.1 does not evict such an entry).
