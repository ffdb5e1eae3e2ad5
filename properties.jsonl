{"id": "C01", "title": "QUIC variable-length integers survive a write/read round trip", "statement": "Writing any integer 0..2^62-1 as a QUIC variable-length integer produces exactly the advertised number of bytes (1, 2, 4 or 8, and no shorter legal form exists), the length announced by the first byte equals it, and reading those bytes back, whatever follows them in the buffer, yields the same integer.", "quantifier": "every integer 0 <= n < 2^62 and every byte string following the encoding", "why_tests_cant": "2^62 values; the carry/mask mistakes that break this live at arbitrary bit patterns", "anchors": ["lib/nghttp3_conv.c:nghttp3_put_varint", "lib/nghttp3_conv.c:nghttp3_put_varintlen", "lib/nghttp3_conv.c:nghttp3_get_varint", "lib/nghttp3_conv.c:nghttp3_get_varintlen"]}
{"id": "C02", "title": "Reading a varint from a stream does not depend on packetisation", "statement": "A variable-length integer on a control or request stream decodes to the same value, and consumes the same total number of bytes, however its bytes are split over successive nghttp3_conn_read_stream calls; a stream that ends inside an integer is reported as an error, never as a value.", "quantifier": "every integer, every split of its encoding into non-empty chunks", "why_tests_cant": "there are exponentially many splits of a stream and the reader keeps state between calls", "anchors": ["lib/nghttp3_stream.c:nghttp3_read_varint", "lib/nghttp3_conv.c:nghttp3_get_varint"]}
{"id": "C03", "title": "Frames written by the library parse back to themselves", "statement": "SETTINGS, GOAWAY and PRIORITY_UPDATE frames and frame headers occupy exactly the number of bytes computed beforehand for the buffer reservation (so no write past the reservation), and parsing the written bytes recovers the frame type, the length, and every field.", "quantifier": "every frame whose fields fit in 62 bits, any number of settings", "why_tests_cant": "unbounded lists of settings and 62-bit fields; an off-by-one in the length computation overflows a heap buffer only for some values", "anchors": ["lib/nghttp3_frame.c:nghttp3_frame_write_hd", "lib/nghttp3_frame.c:nghttp3_frame_write_settings", "lib/nghttp3_frame.c:nghttp3_frame_write_settings_len", "lib/nghttp3_frame.c:nghttp3_frame_write_goaway", "lib/nghttp3_frame.c:nghttp3_frame_write_priority_update"]}
{"id": "C04", "title": "Stream ID tracker remembers exactly the IDs it was told", "statement": "After any sequence of opens, a stream ID is reported open iff it was opened before, opening an ID twice fails with STREAM_IN_USE the second time and never the first, and the smallest-unseen offset is exactly the least value never pushed.", "quantifier": "every sequence of pushes/opens of arbitrary ranges and IDs", "why_tests_cant": "the interval set has unboundedly many shapes: splits, merges and removals interact across the history", "anchors": ["lib/nghttp3_gaptr.c:nghttp3_gaptr_push", "lib/nghttp3_gaptr.c:nghttp3_gaptr_is_pushed", "lib/nghttp3_gaptr.c:nghttp3_gaptr_first_gap_offset", "lib/nghttp3_idtr.c:nghttp3_idtr_open", "lib/nghttp3_idtr.c:nghttp3_idtr_is_open"]}
{"id": "C05", "title": "Ring buffers behave as double-ended queues", "statement": "Any sequence of push_front/push_back/pop_front/pop_back/reserve on a ring buffer keeps the sequence of stored elements an ideal deque would hold; reserving more space never loses, duplicates or reorders elements.", "quantifier": "every operation sequence, every capacity that is a power of two", "why_tests_cant": "wrap-around plus re-linearisation on growth only misbehaves for particular head/length/capacity combinations", "anchors": ["lib/nghttp3_ringbuf.c:nghttp3_ringbuf_push_front", "lib/nghttp3_ringbuf.c:nghttp3_ringbuf_push_back", "lib/nghttp3_ringbuf.c:nghttp3_ringbuf_pop_front", "lib/nghttp3_ringbuf.c:nghttp3_ringbuf_pop_back", "lib/nghttp3_ringbuf.c:nghttp3_ringbuf_reserve", "lib/nghttp3_ringbuf.c:nghttp3_ringbuf_get"]}
{"id": "C06", "title": "Priority queue always yields a minimum and loses nothing", "statement": "After any sequence of push, pop and remove of arbitrary members, the queue holds exactly the elements pushed and not removed, its top is least under the comparison (for any strict weak order), and every member's recorded position is its actual position so that removal removes that member.", "quantifier": "every operation sequence, every strict weak order, any number of elements", "why_tests_cant": "heap order bugs (e.g. sifting the wrong way after a mid-heap removal) need particular heap shapes", "anchors": ["lib/nghttp3_pq.c:nghttp3_pq_push", "lib/nghttp3_pq.c:nghttp3_pq_top", "lib/nghttp3_pq.c:nghttp3_pq_pop", "lib/nghttp3_pq.c:nghttp3_pq_remove"]}
{"id": "C07", "title": "The stream map is a finite map", "statement": "After any sequence of insert, find and remove, looking a key up returns the value last inserted and not removed, inserting a present key is refused without change, removing reports whether the key was present, and the size is the number of keys, including across every table growth.", "quantifier": "every operation sequence over 64-bit keys, any table size and any collisions", "why_tests_cant": "Robin-Hood displacement and backward-shift deletion depend on collision chains that wrap around the table", "anchors": ["lib/nghttp3_map.c:nghttp3_map_insert", "lib/nghttp3_map.c:nghttp3_map_find", "lib/nghttp3_map.c:nghttp3_map_remove", "lib/nghttp3_map.c:map_resize"]}
{"id": "C08", "title": "The ordered index is a sorted map", "statement": "After any sequence of insertions and removals the ordered index (skip-list-like tree) enumerates exactly the keys present, in strictly increasing order; lower-bound returns the first key not less than the argument; removing an absent key is refused.", "quantifier": "every operation sequence, any number of keys, any strict total order", "why_tests_cant": "node splits, merges and shifts between siblings only occur for large particular shapes", "anchors": ["lib/nghttp3_ksl.c:nghttp3_ksl_insert", "lib/nghttp3_ksl.c:nghttp3_ksl_remove", "lib/nghttp3_ksl.c:nghttp3_ksl_lower_bound_search"]}
{"id": "C09", "title": "Huffman coding is lossless", "statement": "Decoding the Huffman encoding of any byte string with fin yields exactly that byte string.", "quantifier": "every byte string of every length", "why_tests_cant": "256^n strings; a single wrong entry among 4112 table entries only shows for particular neighbouring symbols", "anchors": ["lib/nghttp3_qpack_huffman.c:nghttp3_qpack_huffman_encode", "lib/nghttp3_qpack_huffman.c:nghttp3_qpack_huffman_decode", "lib/nghttp3_qpack_huffman_data.c:qpack_huffman_decode_table"]}
{"id": "C10", "title": "Huffman length prediction is exact", "statement": "The number of bytes the Huffman encoder writes equals the number predicted by the length function used to reserve the buffer, for every input, so the encoder never writes past its reservation; likewise the decoder never emits more than twice the number of input bytes it reserved.", "quantifier": "every byte string", "why_tests_cant": "a misprediction is a heap overflow that appears only for some bit-length residues", "anchors": ["lib/nghttp3_qpack_huffman.c:nghttp3_qpack_huffman_encode_count", "lib/nghttp3_qpack_huffman.c:nghttp3_qpack_huffman_encode", "lib/nghttp3_qpack_huffman.c:nghttp3_qpack_huffman_decode"]}
{"id": "C11", "title": "Huffman decoding accepts exactly the canonical encodings, in any chunking", "statement": "The Huffman decoder accepts a complete input iff it is the encoding of some byte string (so EOS symbols, non-one padding and padding of 8 or more bits are all rejected), and feeding the input in pieces gives the same output and verdict as feeding it whole.", "quantifier": "every byte string as decoder input and every split of it", "why_tests_cant": "rejection must hold for all malformed strings, not a list of them", "anchors": ["lib/nghttp3_qpack_huffman.c:nghttp3_qpack_huffman_decode", "lib/nghttp3_qpack_huffman.c:nghttp3_qpack_huffman_decode_failure_state"]}
{"id": "C12", "title": "QPACK prefixed integers round trip and never overflow", "statement": "Writing n < 2^62 with any prefix size 3..8 produces exactly the predicted number of bytes and keeps the flag bits of the first byte; reading them returns n; every byte sequence the reader accepts denotes its mathematical value and that value is at most 2^62-1 (anything larger is refused); the result does not depend on chunking.", "quantifier": "every n, every prefix size, every first-byte flag pattern, every input, every split", "why_tests_cant": "shift/overflow guards matter only at extreme values, and resumption state only at particular splits", "anchors": ["lib/nghttp3_qpack.c:nghttp3_qpack_put_varint", "lib/nghttp3_qpack.c:nghttp3_qpack_put_varint_len", "lib/nghttp3_qpack.c:qpack_read_varint"]}
{"id": "C13", "title": "QPACK dynamic table never exceeds its capacity", "statement": "After any history of calls the decoder's dynamic table occupies exactly the sum of its entries' sizes (name + value + 32), never more than the capacity in force, which never exceeds the advertised limit; insertion evicts only the oldest entries and only as many as needed.", "quantifier": "every sequence of encoder-stream instructions, valid or not", "why_tests_cant": "memory bound against an adversarial peer over unbounded histories", "anchors": ["lib/nghttp3_qpack.c:nghttp3_qpack_context_dtable_add", "lib/nghttp3_qpack.c:nghttp3_qpack_decoder_set_max_dtable_capacity", "lib/nghttp3_qpack.c:nghttp3_qpack_encoder_shrink_dtable"]}
{"id": "C14", "title": "The encoder never evicts an entry that an unacknowledged field section refers to", "statement": "In every history, every dynamic-table entry referenced by a field section that has been encoded but neither acknowledged nor cancelled is still in the encoder's table.", "quantifier": "every interleaving of encode calls, capacity changes and decoder-stream feedback", "why_tests_cant": "depends on the full history of references, acknowledgements and insertions", "anchors": ["lib/nghttp3_qpack.c:qpack_encoder_can_index", "lib/nghttp3_qpack.c:nghttp3_qpack_encoder_shrink_dtable", "lib/nghttp3_qpack.c:nghttp3_qpack_encoder_encode", "lib/nghttp3_qpack.c:nghttp3_qpack_encoder_ack_header"]}
{"id": "C15", "title": "The encoder respects the peer's blocked-streams limit", "statement": "At every point of every history, the number of streams having an outstanding field section that requires more insertions than the peer has acknowledged does not exceed the limit set with nghttp3_qpack_encoder_set_max_blocked_streams (when the limit is not lowered afterwards), and the reported number of blocked streams is exactly that number.", "quantifier": "every interleaving of encodes, acknowledgements, increments and cancellations", "why_tests_cant": "history property with an index structure kept consistent across all events", "anchors": ["lib/nghttp3_qpack.c:nghttp3_qpack_encoder_encode", "lib/nghttp3_qpack.c:qpack_encoder_add_stream_ref", "lib/nghttp3_qpack.c:nghttp3_qpack_encoder_unblock", "lib/nghttp3_qpack.c:nghttp3_qpack_encoder_get_num_blocked_streams"]}
{"id": "C16", "title": "Encoder and decoder dynamic tables stay synchronised", "statement": "Whatever the application encodes and however capacities change, when the decoder has read the whole encoder stream its dynamic table agrees with the encoder's on every entry the encoder holds, and has received the same number of insertions; no instruction the encoder writes is rejected by a decoder with at least the same capacity limit.", "quantifier": "every sequence of header lists, capacity changes and feedback", "why_tests_cant": "two cooperating state machines over unbounded histories", "anchors": ["lib/nghttp3_qpack.c:nghttp3_qpack_encoder_encode_nv", "lib/nghttp3_qpack.c:nghttp3_qpack_decoder_read_encoder", "lib/nghttp3_qpack.c:nghttp3_qpack_context_dtable_add", "lib/nghttp3_qpack.c:nghttp3_qpack_encoder_process_dtable_update"]}
{"id": "C17", "title": "Field sections decode to exactly the headers that were encoded", "statement": "Every field section produced by the encoder, decoded at any later time before it is acknowledged or cancelled and after the decoder has seen its required insertions, yields the same names, values and never-index flags in the same order.", "quantifier": "every header list, every encoder history, every decoder schedule between the required insert count and the acknowledgement", "why_tests_cant": "the encoder's choice of representation depends on its entire history and the decoder may lag or lead", "anchors": ["lib/nghttp3_qpack.c:nghttp3_qpack_encoder_encode", "lib/nghttp3_qpack.c:nghttp3_qpack_decoder_read_request", "lib/nghttp3_qpack.c:nghttp3_qpack_encoder_write_field_section_prefix"]}
{"id": "C18", "title": "Required Insert Count reconstruction is exact when both sides use the same table limit", "statement": "If encoder and decoder were created with table limits giving the same maximum number of entries, the decoder recovers exactly the Required Insert Count the encoder wrote whenever the difference to its own insert count is less than that maximum; if the limits differ (which the documented 'effective maximum is the minimum' configuration allows) recovery can be wrong.", "quantifier": "every insert count, every table limit, every decoder lag within the window", "why_tests_cant": "modular wrap-around only appears after hundreds of insertions", "anchors": ["lib/nghttp3_qpack.c:nghttp3_qpack_encoder_write_field_section_prefix", "lib/nghttp3_qpack.c:nghttp3_qpack_decoder_reconstruct_ricnt", "lib/nghttp3_conn.c:nghttp3_conn_on_settings_entry_received", "lib/nghttp3_conn.c:conn_new"]}
{"id": "C19", "title": "Honest decoder feedback is never rejected and acknowledgement state never runs ahead", "statement": "The encoder's known-received count never exceeds the number of insertions it has made and never decreases; section acknowledgements, cancellations and increments emitted by a decoder that follows the protocol are always accepted; unmatched acknowledgements and zero or excessive increments are always refused.", "quantifier": "every decoder-stream byte sequence; every honest interleaving", "why_tests_cant": "history property over two endpoints", "anchors": ["lib/nghttp3_qpack.c:nghttp3_qpack_encoder_read_decoder", "lib/nghttp3_qpack.c:nghttp3_qpack_encoder_add_icnt", "lib/nghttp3_qpack.c:nghttp3_qpack_encoder_ack_header", "lib/nghttp3_qpack.c:nghttp3_qpack_decoder_write_decoder"]}
{"id": "C20", "title": "The QPACK decoder never touches a table slot that does not exist", "statement": "For arbitrary bytes on the encoder stream and on request streams, arbitrarily chunked and interleaved, every table access made by the decoder is to an existing static or dynamic entry (no internal assertion fails), and processing always terminates with either an error or all bytes consumed up to an emitted header or blockage.", "quantifier": "every pair of byte streams and every interleaving of chunks", "why_tests_cant": "adversarial inputs are unbounded; entries may be evicted while a representation is half read", "anchors": ["lib/nghttp3_qpack.c:nghttp3_qpack_decoder_read_encoder", "lib/nghttp3_qpack.c:nghttp3_qpack_decoder_read_request", "lib/nghttp3_qpack.c:qpack_decoder_validate_index", "lib/nghttp3_qpack.c:nghttp3_qpack_context_dtable_get"]}
{"id": "C21", "title": "QPACK decoding does not depend on how bytes are chunked", "statement": "Splitting the encoder stream or a field section into chunks at arbitrary points does not change the resulting table, the emitted headers or the error.", "quantifier": "every byte string and every split", "why_tests_cant": "resumable state machine with a dozen states; split points are exponentially many", "anchors": ["lib/nghttp3_qpack.c:nghttp3_qpack_decoder_read_encoder", "lib/nghttp3_qpack.c:nghttp3_qpack_decoder_read_request"]}
{"id": "C22", "title": "Never-indexed fields stay out of the dynamic table", "statement": "A field submitted with NGHTTP3_NV_FLAG_NEVER_INDEX is always written as a literal carrying the never-index bit and is never inserted in the dynamic table, in every encoder state. Whatever their flags, an authorization field and a cookie field with a value shorter than 20 bytes are never inserted either.", "quantifier": "every field, every encoder state", "why_tests_cant": "confidentiality property over all encoder states", "anchors": ["lib/nghttp3_qpack.c:qpack_encoder_decide_indexing_mode", "lib/nghttp3_qpack.c:nghttp3_qpack_encoder_encode_nv"]}
{"id": "C23", "title": "Malformed request and response header sections are rejected", "statement": "A header section delivered to the application as complete contained only legal field names and values; pseudo-header fields precede all others and each occurs at most once; a request has :method and (unless CONNECT) :scheme and a non-empty :path plus an authority; CONNECT carries no :scheme/:path; a response has exactly one 3-digit :status and no other pseudo-header; connection-specific fields are absent; trailers have no pseudo-headers.", "quantifier": "every list of header fields and values", "why_tests_cant": "combinatorial space of header lists; the check is a flag machine whose order sensitivity matters", "anchors": ["lib/nghttp3_http.c:nghttp3_http_on_header", "lib/nghttp3_http.c:nghttp3_http_on_request_headers", "lib/nghttp3_http.c:nghttp3_http_on_response_headers", "lib/nghttp3_http.c:http_request_on_header", "lib/nghttp3_http.c:http_response_on_header"]}
{"id": "C24", "title": "Declared content-length is enforced", "statement": "If a message declared a content-length, then completion is reported without error only if the total number of DATA bytes equals it (except where HTTP forbids a body: HEAD, 304, 1xx/204 rules as coded), no matter how data is split, and excess data is refused as soon as it arrives.", "quantifier": "every content-length value, every sequence of data chunk sizes", "why_tests_cant": "arithmetic over unbounded chunk sequences with 63-bit counters", "anchors": ["lib/nghttp3_http.c:nghttp3_http_on_data_chunk", "lib/nghttp3_http.c:nghttp3_http_on_remote_end_stream", "lib/nghttp3_http.c:parse_uint"]}
{"id": "C25", "title": "Field names and values are checked against the RFC 9110 grammar", "statement": "A received field name is accepted iff it is a non-empty token in lower case (optionally a single leading ':'), and a value iff it has no leading/trailing whitespace... precisely the octets HTAB, SP, VCHAR, obs-text as coded; the public nghttp3_check_header_name/value functions decide the same sets up to their documented case handling.", "quantifier": "every byte string", "why_tests_cant": "256-entry tables and boundary conditions on first/last byte", "anchors": ["lib/nghttp3_http.c:nghttp3_check_header_name", "lib/nghttp3_http.c:nghttp3_check_header_value", "lib/nghttp3_http.c:VALID_HD_NAME_CHARS"]}
{"id": "C26", "title": "HTTP message framing: HEADERS, DATA and trailers only in legal order", "statement": "On a request stream the only frame sequences accepted are: for a request HEADERS DATA* [HEADERS]; for a response (1xx HEADERS)* HEADERS DATA* [HEADERS]; anything else is H3_FRAME_UNEXPECTED, end of stream is accepted only after the final HEADERS, and begin/end callbacks are invoked accordingly.", "quantifier": "every sequence of frame events on a request stream", "why_tests_cant": "sequences are unbounded; acceptance is a language inclusion", "anchors": ["lib/nghttp3_stream.c:nghttp3_stream_transit_rx_http_state", "lib/nghttp3_stream.h:nghttp3_stream_http_state"]}
{"id": "C27", "title": "Control stream grammar", "statement": "On the peer's control stream the first frame must be SETTINGS and it occurs once; DATA, HEADERS, PUSH_PROMISE and reserved HTTP/2 frame types are refused; role-specific frames are refused on the wrong side; unknown types are skipped; frames too short for their identifier are refused with H3_FRAME_ERROR. For well-formed frames the outcome (accepted frames, callbacks, error code) is a function of the frame sequence, whatever the packetisation. (PRIORITY_UPDATE field values of at most 8 bytes; longer ones are skipped.)", "quantifier": "every sequence of frames", "why_tests_cant": "language-acceptance over unbounded sequences", "anchors": ["lib/nghttp3_conn.c:nghttp3_conn_read_control"]}
{"id": "C28", "title": "SETTINGS are applied faithfully", "statement": "The settings reported through recv_settings are the peer's values (last write for repeatable ids, defaults for absent ones); reserved HTTP/2 ids, invalid boolean values and the checked duplicates are refused; unknown ids are ignored; the effective encoder table capacity is min(peer limit, local limit) and the blocked-stream limit is min(100, peer limit).", "quantifier": "every sequence of settings entries", "why_tests_cant": "sequences of id/value pairs are unbounded", "anchors": ["lib/nghttp3_conn.c:nghttp3_conn_on_settings_entry_received"]}
{"id": "C29", "title": "GOAWAY identifiers never increase", "statement": "A received GOAWAY with an identifier larger than a previous one is refused, so the values passed to the shutdown callback never increase; the GOAWAY identifiers this library sends never increase either, as long as its documented call order is followed.", "quantifier": "every sequence of received GOAWAY frames / local shutdown calls and stream arrivals", "why_tests_cant": "history property", "anchors": ["lib/nghttp3_conn.c:nghttp3_conn_read_control", "lib/nghttp3_conn.c:nghttp3_conn_submit_shutdown_notice", "lib/nghttp3_conn.c:nghttp3_conn_shutdown"]}
{"id": "C30", "title": "Control-stream processing does not depend on packetisation", "statement": "Feeding the control stream in one piece or in arbitrarily many pieces results in the same sequence of callbacks, the same state and the same error: on a client for all bytes; on a server for all calls that return, as long as no PRIORITY_UPDATE field value is longer than 8 bytes (beyond that it is false, see the negation theorem).", "quantifier": "every byte string and every split", "why_tests_cant": "resumable parser with several partially accumulated fields", "anchors": ["lib/nghttp3_conn.c:nghttp3_conn_read_control", "lib/nghttp3_stream.c:nghttp3_read_varint"]}
{"id": "C31", "title": "Request-stream processing does not depend on packetisation", "statement": "Feeding the bytes of a request stream in arbitrarily many pieces delivers the same callbacks with the same fields and body bytes in the same order, returns the same flow-control credit in total and leaves the same bytes for the QPACK decoder stream as feeding them in one piece, or ends in the same error code; whatever happens before and after, including blocking on QPACK, unblocking, shutdown and close. (Callbacks made before an error may stop at a different point.)", "quantifier": "every byte string, every split, at every point of every history", "why_tests_cant": "resumable parser nested with a resumable QPACK decoder", "anchors": ["lib/nghttp3_conn.c:nghttp3_conn_read_bidi", "lib/nghttp3_conn.c:nghttp3_conn_on_data"]}
{"id": "C32", "title": "Outgoing bytes are handed to QUIC in order, each exactly once", "statement": "The concatenation of the bytes accepted through add_write_offset over the life of a stream is a prefix of the concatenation of everything queued on it (frame headers, header blocks, body bytes in submission order), with no byte lost, repeated or reordered, for every pattern of partial writes; fin is offered only with the last bytes. (Field sections have at least one field; a HEADERS frame for an empty one is not sent.)", "quantifier": "every sequence of queued buffers and of partial write sizes", "why_tests_cant": "partial-write patterns are unbounded; buffer merging and index adjustment interact", "anchors": ["lib/nghttp3_stream.c:nghttp3_stream_outq_add", "lib/nghttp3_stream.c:nghttp3_stream_writev", "lib/nghttp3_stream.c:nghttp3_stream_add_outq_offset"]}
{"id": "C33", "title": "Acknowledged application bytes are reported exactly once", "statement": "The sum of acked_stream_data lengths equals the number of application-supplied bytes within the acknowledged prefix of the stream, in every acknowledgement pattern; buffers are released only when wholly acknowledged; an acknowledgement offset that goes backwards is refused. (Acknowledging bytes that were never sent is not refused.)", "quantifier": "every sequence of writes and acknowledgement offsets", "why_tests_cant": "acks may cover parts of several buffers in any pattern", "anchors": ["lib/nghttp3_stream.c:nghttp3_stream_update_ack_offset", "lib/nghttp3_stream.c:stream_pop_outq_entry", "lib/nghttp3_conn.c:nghttp3_conn_update_ack_offset"]}
{"id": "C34", "title": "The scheduler serves the most urgent schedulable stream", "statement": "The stream chosen for writing is always one of minimal urgency value among the scheduled streams, after control, QPACK decoder and QPACK encoder streams that have data; a stream with nothing queued and no body to read is never chosen. (A stream that is flow-control blocked or shut for writing is not chosen as long as nothing was queued on it afterwards; otherwise it may be, see the negation theorem.)", "quantifier": "every scheduling history", "why_tests_cant": "depends on queue contents accumulated over the whole history", "anchors": ["lib/nghttp3_conn.c:conn_get_next_tx_stream", "lib/nghttp3_conn.c:nghttp3_conn_get_next_tx_stream", "lib/nghttp3_stream.c:nghttp3_stream_require_schedule"]}
{"id": "C35", "title": "No starvation among streams of equal urgency", "statement": "Within one urgency level, an incremental stream that stays scheduled is served after a bounded number of turns of the others: service proceeds in order of accumulated cycles, and each turn strictly increases the served stream's cycle.", "quantifier": "every history of turns with arbitrary write sizes", "why_tests_cant": "liveness over unbounded schedules, with wrapping 64-bit cycle counters", "anchors": ["lib/nghttp3_tnode.c:nghttp3_tnode_schedule", "lib/nghttp3_conn.c:cycle_less"]}
{"id": "C36", "title": "Priority signals are applied as specified", "statement": "A priority field value changes urgency only to 0..7 and incremental only to 0/1, unknown or out-of-range members are ignored, malformed values leave priorities unchanged; the server-set priority is not overridden by the client once set by the application. The priority fields of a request are parsed one into the other, starting from urgency 3 and not incremental; a value that is not acceptable makes the server ignore all of them.", "quantifier": "every parsed dictionary", "why_tests_cant": "depends on member order and repetition", "anchors": ["lib/nghttp3_http.c:nghttp3_http_parse_priority", "lib/nghttp3_conn.c:nghttp3_conn_on_stream_priority_update", "lib/nghttp3_conn.c:nghttp3_conn_set_server_stream_priority_versioned"]}
{"id": "C37", "title": "Library errors map to defined QUIC application error codes", "statement": "For every int, the inferred application error code is one of the HTTP/3 or QPACK codes, success maps to H3_NO_ERROR, distinct protocol errors map to their own code, and the fatal range is exactly the codes below the documented boundary.", "quantifier": "every int", "why_tests_cant": "2^32 inputs; also the table must agree with the header", "anchors": ["lib/nghttp3_err.c:nghttp3_err_infer_quic_app_error_code", "lib/nghttp3_err.c:nghttp3_err_is_fatal"]}
{"id": "C38", "title": "Reference-counted buffers are freed exactly once, when the last owner lets go", "statement": "For every sequence of increments and decrements in which each owner releases at most what it holds, a buffer is freed exactly when the count of owners reaches zero and never used after; static buffers are never freed.", "quantifier": "every sequence of incref/decref", "why_tests_cant": "use-after-free and leaks are history dependent", "anchors": ["lib/nghttp3_rcbuf.c:nghttp3_rcbuf_incref", "lib/nghttp3_rcbuf.c:nghttp3_rcbuf_decref"]}
{"id": "C39", "title": "Block allocator returns disjoint, aligned, in-bounds memory", "statement": "Between clears, every allocation from the block allocator returns a 16-byte aligned region lying inside one of its blocks and disjoint from every earlier region.", "quantifier": "every sequence of allocation sizes within the block length", "why_tests_cant": "overlap needs particular size sequences", "anchors": ["lib/nghttp3_balloc.c:nghttp3_balloc_get", "lib/nghttp3_objalloc.c:nghttp3_objalloc_init"]}
{"id": "C40", "title": "Unidirectional stream types are enforced", "statement": "At most one control, one QPACK encoder and one QPACK decoder stream are accepted from the peer for the life of the connection; a push stream is refused; an unknown type causes a stop-sending request and its bytes are discarded; closing a critical stream is an error.", "quantifier": "every sequence of incoming unidirectional streams and type values", "why_tests_cant": "history property", "anchors": ["lib/nghttp3_conn.c:nghttp3_conn_read_uni", "lib/nghttp3_conn.c:conn_read_type"]}
{"id": "C41", "title": "Stream IDs are validated by role", "statement": "No stream with a server-initiated bidirectional ID ever exists on either side; bytes arriving on an ID that is illegal for the role (a server-initiated bidirectional one, one's own unidirectional one that was not bound, or on a client a request it never made) are refused with H3_STREAM_CREATION_ERROR without creating anything; a PRIORITY_UPDATE naming anything but a client-initiated bidirectional stream within the advertised limit is refused with H3_ID_ERROR, and never brings back a stream that existed and was closed.", "quantifier": "every stream id", "why_tests_cant": "62-bit ids", "anchors": ["lib/nghttp3_conn.c:nghttp3_conn_read_stream", "lib/nghttp3_conn.c:nghttp3_conn_submit_request", "lib/nghttp3_conv.h:nghttp3_client_stream_bidi"]}
{"id": "C42", "title": "Received bytes are accounted for exactly once for flow control", "statement": "For every request stream, the bytes reported consumed by read_stream, plus bytes delivered through recv_data, plus bytes reported through deferred_consume, plus bytes still buffered because the stream is blocked on QPACK, equal the number of bytes received.", "quantifier": "every byte string, every split, every blocking/unblocking schedule", "why_tests_cant": "conservation law over unbounded histories", "anchors": ["lib/nghttp3_conn.c:nghttp3_conn_read_bidi", "lib/nghttp3_conn.c:conn_process_blocked_stream_data", "lib/nghttp3_stream.c:nghttp3_stream_buffer_data"]}
{"id": "C43", "title": "Graceful shutdown: drained exactly when no request remains", "statement": "A server connection reports drained iff shutdown was called, everything queued on the control stream (GOAWAY included) was handed to QUIC, and no client request stream is alive; the stream counter equals the number of live client request streams in every history.", "quantifier": "every open/close/shutdown history", "why_tests_cant": "counter-vs-set consistency over histories", "anchors": ["lib/nghttp3_conn.c:nghttp3_conn_is_drained", "lib/nghttp3_conn.c:conn_delete_stream", "lib/nghttp3_conn.c:nghttp3_conn_create_stream"]}
{"id": "C44", "title": "Vector length sums never overflow", "statement": "The total length of a scatter list offered by the application is either the exact mathematical sum, which fits a 62-bit frame length, or reported as an error.", "quantifier": "every list of lengths", "why_tests_cant": "overflow needs extreme values", "anchors": ["lib/nghttp3_vec.c:nghttp3_vec_len_varint", "lib/nghttp3_vec.c:nghttp3_vec_len"]}
{"id": "C45", "title": "Header lists are copied faithfully, names lower-cased", "statement": "The internal copy of a submitted header list has the same order, values and flags, names equal to the originals with A-Z lower-cased (unless NO_COPY_NAME), and the single allocation is filled exactly, NUL-terminated and without overlap.", "quantifier": "every header list and flag combination", "why_tests_cant": "single-buffer packing with per-entry copy flags", "anchors": ["lib/nghttp3_frame.c:nghttp3_nva_copy", "lib/nghttp3_str.c:nghttp3_downcase"]}
{"id": "C46", "title": "The setting of the encoder's table capacity takes effect", "statement": "After any sequence of nghttp3_qpack_encoder_set_max_dtable_capacity calls followed by an encode that is not held up by outstanding references, the capacity in force and announced to the peer is the last value set (truncated to the hard limit).", "quantifier": "every sequence of capacity settings", "why_tests_cant": "the pending-update state machine has an early-return path that only some sequences reach", "anchors": ["lib/nghttp3_qpack.c:nghttp3_qpack_encoder_set_max_dtable_capacity", "lib/nghttp3_qpack.c:nghttp3_qpack_encoder_process_dtable_update"]}
{"id": "C47", "title": "Bytes on the control stream can never crash the process", "statement": "For arbitrary bytes, arbitrarily chunked, processing the control stream fails no internal assertion and stays inside its fixed-size priority field buffer.", "quantifier": "every byte string and every split", "why_tests_cant": "adversarial input at arbitrary packet boundaries", "anchors": ["lib/nghttp3_conn.c:nghttp3_conn_read_control"]}
{"id": "C48", "title": "Static table and token lookup are consistent", "statement": "Token lookup returns a token iff the name is one of the known names, equal tokens mean equal names, the static table entry chosen for a field has the field's name (and value for an exact match), and the name-hash constants equal the hash of the name.", "quantifier": "every byte string as a field name", "why_tests_cant": "lookup is a hand-unrolled decision tree; soundness is about all names, not the listed ones", "anchors": ["lib/nghttp3_qpack.c:qpack_lookup_token", "lib/nghttp3_qpack.c:token_stable", "lib/nghttp3_qpack.c:stable", "lib/nghttp3_qpack.c:nghttp3_qpack_lookup_stable"]}
{"id": "C49", "title": "No documented use of the API fails an internal assertion or touches a freed stream", "statement": "In any history of API calls that respects the documented preconditions, with any bytes and any callback behaviour, no assertion fails and the scheduler queues never refer to a stream that was deleted. Streams that are closed while blocked on QPACK, and shutting down twice, are excluded: for both the claim is false (negation theorems).", "quantifier": "every history of API calls and every reachable connection state", "why_tests_cant": "use-after-free needs a particular interleaving of scheduling, closing and unblocking", "anchors": ["lib/nghttp3_conn.c:nghttp3_conn_close_stream", "lib/nghttp3_conn.c:nghttp3_conn_writev_stream", "lib/nghttp3_conn.c:nghttp3_conn_ensure_stream_scheduled", "lib/nghttp3_conn.c:nghttp3_conn_shutdown"]}
{"id": "C50", "title": "What it means that writev_stream offers nothing", "statement": "If nghttp3_conn_writev_stream offers no stream and no bytes, then either no stream has anything ready to send, or the application just said that the most urgent stream has no data yet (in which case that stream is taken off the schedule).", "quantifier": "every reachable connection state", "why_tests_cant": "depends on the state of all streams and queues", "anchors": ["lib/nghttp3_conn.c:nghttp3_conn_writev_stream", "lib/nghttp3_conn.c:conn_writev_stream"]}
{"id": "C51", "title": "Bytes on a request stream can never crash the process", "statement": "For arbitrary bytes on a request stream, arbitrarily chunked and interleaved with arbitrary bytes on the QPACK encoder stream and on other streams, with unblocking, shutdown and close at any time, no internal assertion of the request-stream reader fails and every call returns.", "quantifier": "every byte string, every split and every interleaving", "why_tests_cant": "adversarial input at arbitrary packet boundaries, nested resumable parsers", "anchors": ["lib/nghttp3_conn.c:nghttp3_conn_read_bidi", "lib/nghttp3_conn.c:conn_decode_headers", "lib/nghttp3_conn.c:conn_process_blocked_stream_data"]}
{"id": "C52", "title": "The bytes of a request stream mean what the rules for messages say", "statement": "If the bytes of a request stream are a sequence of HTTP/3 frames, then, in whatever pieces they arrive and whatever the QPACK decoder was used for before, the callbacks (begin/header/end of sections, body bytes, trailers, end of stream), connection errors and stream resets are exactly those the HTTP message rules give for the decoded frames: frames of unknown types are skipped, frames of types not allowed on a request stream are a connection error H3_FRAME_UNEXPECTED, and the end of the message is reported only if the bytes are whole frames that form a complete message.", "quantifier": "every sequence of frames, every split into calls, every earlier use of the decoder", "why_tests_cant": "unbounded message structure and packet boundaries; truncation can be at any byte", "anchors": ["lib/nghttp3_conn.c:nghttp3_conn_read_bidi", "lib/nghttp3_conn.c:conn_on_headers", "lib/nghttp3_stream.c:nghttp3_stream_transit_rx_http_state", "lib/nghttp3_http.c:nghttp3_http_on_header"]}
{"id": "C53", "title": "The QPACK decoder does what RFC 9204 says with the bytes of any peer", "statement": "For arbitrary bytes of a peer, in any interleaving: as long as the decoder has not failed, its dynamic table is the result of applying, as RFC 9204 sections 3.2 and 4.3 define it, the complete instructions among the encoder-stream bytes it accepted; valid instructions are accepted and invalid ones (unknown index, entry larger than the capacity, capacity above the announced limit) are refused with QPACK_ENCODER_STREAM_ERROR. A field section made of a prefix and field lines is decoded as section 4.5 says: an impossible Required Insert Count, a negative Base, or a reference that is not to an entry below the Required Insert Count is QPACK_DECOMPRESSION_FAILED, a section that needs more insertions is blocked and resumes later with the same meaning, all others report exactly the fields of the lines; nothing else is reported as final.", "quantifier": "every byte string on the encoder stream and on request streams, every interleaving and packetisation", "why_tests_cant": "adversarial peers are not limited to what the library's own encoder writes; the meaning depends on the whole history of instructions", "anchors": ["lib/nghttp3_qpack.c:nghttp3_qpack_decoder_read_encoder", "lib/nghttp3_qpack.c:nghttp3_qpack_decoder_read_request", "lib/nghttp3_qpack.c:nghttp3_qpack_decoder_reconstruct_ricnt", "lib/nghttp3_qpack.c:nghttp3_qpack_decoder_brel2abs"]}
{"id": "C54", "title": "End to end: two endpoints of this library exchange messages without errors, and everything submitted is delivered", "statement": "Connect a sender and a receiver of this library by a network that keeps the order of bytes within each stream (request streams, QPACK encoder stream, QPACK decoder stream) and nothing else. If the sender's application submits well-formed messages, and header tables, blocked streams and buffers stay within the announced limits, then in every interleaving and packetisation: no call fails at either end; at every moment the callbacks of the receiver for a stream are a prefix of those the message rules demand for what was submitted on it and the body is a prefix of the body submitted; the receiver never has more blocked streams than it permits; when all bytes have arrived, all callbacks have been made, the whole body handed over and no stream is blocked; and when the decoder stream has been read too, the sender has no outstanding sections and knows all insertions to be received.", "quantifier": "every set of streams and messages, every packetisation, every interleaving of sending, reading of request streams, of the encoder stream and of the decoder stream, and cancellations of streams", "why_tests_cant": "the property is about all schedules of several streams that depend on each other through the QPACK tables; tests see one schedule", "anchors": ["lib/nghttp3_conn.c:nghttp3_conn_read_stream", "lib/nghttp3_conn.c:nghttp3_conn_read_qpack_encoder", "lib/nghttp3_conn.c:nghttp3_conn_shutdown_stream_read", "lib/nghttp3_qpack.c:nghttp3_qpack_encoder_encode", "lib/nghttp3_qpack.c:nghttp3_qpack_decoder_read_request", "lib/nghttp3_stream.c:nghttp3_stream_write_headers"]}
{"id": "C55", "title": "nghttp3_conn_is_stream_writable reports what the calls made for the stream imply", "statement": "From the creation of a request stream to its deletion, nghttp3_conn_is_stream_writable reports it as writable exactly if the last of nghttp3_conn_block_stream and nghttp3_conn_unblock_stream for it was not the former, nghttp3_conn_shutdown_stream_write and nghttp3_conn_close_stream were not called for it, and it is not waiting for its data source after NGHTTP3_ERR_WOULDBLOCK; such waiting ends with nghttp3_conn_resume_stream and not before. Calls for other streams, received data, priorities and writing do not matter.", "quantifier": "every history of calls and received data on any number of streams", "why_tests_cant": "every later call could clear or set a flag that it should not; only an induction over all histories excludes that", "anchors": ["lib/nghttp3_conn.c:nghttp3_conn_is_stream_writable", "lib/nghttp3_conn.c:nghttp3_conn_block_stream", "lib/nghttp3_conn.c:nghttp3_conn_unblock_stream", "lib/nghttp3_conn.c:nghttp3_conn_shutdown_stream_write", "lib/nghttp3_conn.c:nghttp3_conn_resume_stream", "lib/nghttp3_conn.c:nghttp3_conn_close_stream"]}
{"id": "C56", "title": "What each stream of a connection carries, over all histories of API calls", "statement": "Over every history of documented API calls on a connection, with any QPACK encoder, any answers of read_data and any schedule of partial writes: the bytes that nghttp3_conn_writev_stream hands out for a stream, in the order in which nghttp3_conn_add_write_offset consumes them, are the wire image of what was submitted on this stream \u2014 on a request stream the HEADERS frames of the field sections submitted for it and DATA frames with exactly the answers of read_data for it, in the order of submission and each once; on the control stream its type, SETTINGS, and the GOAWAY and PRIORITY_UPDATE frames asked for; on the QPACK encoder stream its type and the encoder's bytes for all field sections in the order in which they were encoded; on the decoder stream its type and the decoder's bytes. Nothing is lost, repeated, reordered or put on another stream when streams are blocked, closed, reopened, rescheduled or served in turn. fin is set only when everything submitted is served, the application has announced the end, and the bytes complete the stream.", "quantifier": "every history of calls on any number of streams, every encoder, every answer of read_data, every partial write and acknowledgement", "why_tests_cant": "bytes of several streams are made in one call and taken piecewise in others, under any schedule; only an induction over all histories excludes a byte on the wrong stream", "anchors": ["lib/nghttp3_conn.c:nghttp3_conn_writev_stream", "lib/nghttp3_conn.c:conn_writev_stream", "lib/nghttp3_conn.c:nghttp3_conn_add_write_offset", "lib/nghttp3_conn.c:conn_submit_headers_data", "lib/nghttp3_conn.c:nghttp3_conn_bind_qpack_streams", "lib/nghttp3_stream.c:nghttp3_stream_fill_outq", "lib/nghttp3_stream.c:nghttp3_stream_write_qpack_decoder_stream"]}
{"id": "C57", "title": "API calls return the documented codes, and a refused call changes nothing", "statement": "Over every history of documented calls: submit_request returns CONN_CLOSING after a GOAWAY was received, STREAM_IN_USE for an existing stream and 0 otherwise; submit_info/response/trailers return STREAM_NOT_FOUND for an unknown stream; submit_trailers returns INVALID_STATE exactly if the end of the stream has been announced, by a call without a body, by trailers, or by an answer of read_data with EOF and without NO_END_STREAM; close_stream reports unknown and critical streams; update_ack_offset returns INVALID_ARGUMENT exactly if the offset is below the acknowledged length; the priority setters report non-request and unknown streams; the bind calls report a second binding and an existing stream; block, unblock, resume, shutdown and write-offset calls return 0. A call that returns an error leaves the connection as it was (except nghttp3_conn_bind_qpack_streams, which can leave the encoder stream bound).", "quantifier": "every history of calls on any number of streams, every encoder and data source", "why_tests_cant": "whether the end was announced depends on everything that happened on the stream, including answers given during writes of an arbitrary schedule", "anchors": ["lib/nghttp3_conn.c:nghttp3_conn_submit_request", "lib/nghttp3_conn.c:nghttp3_conn_submit_trailers", "lib/nghttp3_conn.c:nghttp3_conn_submit_response", "lib/nghttp3_conn.c:nghttp3_conn_close_stream", "lib/nghttp3_conn.c:nghttp3_conn_update_ack_offset", "lib/nghttp3_conn.c:nghttp3_conn_bind_qpack_streams", "lib/includes/nghttp3/nghttp3.h"]}
{"id": "C58", "title": "The control stream of one endpoint, read by the other, announces exactly what the calls asked for", "statement": "Take any history of documented API calls at one endpoint (any settings, submissions, shutdown notices, shutdowns, priority updates, partial writes), and a peer whose callbacks succeed and that takes the priority updates, which is fed any first part of the bytes the transport took for the control stream, in packets of any sizes. Then no nghttp3_conn_read_stream call of the peer reports an error; recv_settings is called first, with the sender's settings, and shutdown then once for each nghttp3_conn_submit_shutdown_notice and nghttp3_conn_shutdown, in order, as far as the bytes go; when all bytes of all frames have arrived, everything has been reported and all priority updates have been applied, in order. In particular, once nghttp3_conn_is_drained is true on a server, a client that got the bytes has been told of the final GOAWAY.", "quantifier": "all settings, histories of calls, encoders and schedules at the sender; all cut points and packetisations at the receiver; both roles", "why_tests_cant": "The statement joins two endpoints: unit tests check the bytes of single frames and feed hand-written frames in one piece.", "anchors": ["lib/nghttp3_conn.c:nghttp3_conn_submit_shutdown_notice", "lib/nghttp3_conn.c:nghttp3_conn_shutdown", "lib/nghttp3_conn.c:nghttp3_conn_is_drained", "lib/nghttp3_conn.c:nghttp3_conn_read_control", "lib/nghttp3_conn.c:nghttp3_conn_set_client_stream_priority", "lib/nghttp3_stream.c:nghttp3_stream_fill_outq"]}
{"id": "C59", "title": "From the sender's API calls to the receiver's callbacks: what arrives is what was submitted", "statement": "Join two endpoints by the network. At the sender any history of documented API calls (submissions, writev_stream, add_write_offset with any partial takes, acks, blocking, resuming, priorities, closing), any answers of read_data, any schedule; between them the bytes of the request streams and of the QPACK encoder stream arrive in any pieces and any relative order; SETTINGS and decoder-stream instructions arrive at the sender at any time. If the submitted messages are well-formed, then no nghttp3_conn_read_stream call at the receiver fails and the sender accepts every decoder-stream instruction; of every stream the receiver's application has been told a first part of exactly the callbacks that the submitted field sections and the bytes read_data gave demand, in order, without loss, duplication or mixing between streams; once the end of the stream has arrived (and the stream is not waiting for the encoder stream), all of it; and no stream waits any more once the receiver has read all of the encoder stream.", "quantifier": "all histories of sender calls, read_data answers, schedules, partial writes, fragmentations and interleavings of all streams; any number of streams; any settings in range", "why_tests_cant": "The statement ranges over joint executions of two endpoints and a network; unit tests drive one endpoint with fixed inputs.", "anchors": ["lib/nghttp3_conn.c:nghttp3_conn_submit_request", "lib/nghttp3_conn.c:nghttp3_conn_submit_response", "lib/nghttp3_conn.c:nghttp3_conn_writev_stream", "lib/nghttp3_conn.c:nghttp3_conn_add_write_offset", "lib/nghttp3_conn.c:nghttp3_conn_read_stream", "lib/nghttp3_stream.c:nghttp3_stream_fill_outq", "lib/nghttp3_qpack.c:nghttp3_qpack_encoder_encode", "lib/nghttp3_qpack.c:nghttp3_qpack_decoder_read_request"]}
{"id": "C60", "title": "A whole connection: whatever the peer sends and the program calls, no assertion fails, and no stream waits in vain", "statement": "Take a whole connection, client or server, with any valid settings. Let the peer send any bytes on any streams, in any packets and order (nghttp3_conn_read_stream routes them to the readers of the control stream, the QPACK streams and the request streams, creates and deletes streams), and let the program make any documented calls in between. (a) On a client no call fails an assertion or uses a freed stream; on a server the only failing assertion is that of C47, in a call of nghttp3_conn_read_stream that would not have failed had it got one byte more. (b) Never more streams wait for the QPACK encoder stream than the endpoint announced in SETTINGS_QPACK_BLOCKED_STREAMS. (c) A stream waits only for table entries that have not arrived: as soon as the entry is there the stream is released and its buffered bytes are processed, and a stream closed meanwhile is deleted; no wakeup is lost. (d) The encoder can encode any fields at any time.", "quantifier": "all settings, histories of permitted calls, received byte strings, packetisations and interleavings of streams; both roles; all results of the callbacks of the control stream", "why_tests_cant": "Every component has its tests, but the interplay (blocked streams released by one stream while others are closed, priorities changed by headers of released streams, streams created by PRIORITY_UPDATE frames, rejected by GOAWAY) has unboundedly many interleavings.", "anchors": ["lib/nghttp3_conn.c:nghttp3_conn_read_stream", "lib/nghttp3_conn.c:nghttp3_conn_read_uni", "lib/nghttp3_conn.c:nghttp3_conn_read_qpack_encoder", "lib/nghttp3_conn.c:nghttp3_conn_qpack_blocked_streams_push", "lib/nghttp3_conn.c:conn_process_blocked_stream_data", "lib/nghttp3_conn.c:nghttp3_conn_close_stream", "lib/nghttp3_conn.c:nghttp3_conn_shutdown_stream_read", "lib/nghttp3_conn.c:nghttp3_conn_on_priority_update"]}
{"id": "C61", "title": "How the bytes of a request stream are cut into packets makes no difference to the whole connection, then or later", "statement": "At any time in the life of a connection, with any other streams open, blocked on QPACK, or waiting to send, handing the bytes of a request stream to nghttp3_conn_read_stream in one call or in any number of calls (empty ones included, the fin flag on the last) gives the same connection error, or the same callbacks for all streams in the same order (body bytes counted one by one), the same results of all later calls including every byte nghttp3_conn_writev_stream offers, and the same flow-control credit for each stream - also for any calls and received data that follow. The QPACK encoder stream does not have this property: a concrete counterexample is proved.", "quantifier": "all settings, roles, histories of permitted calls and received bytes before; all byte strings, cut points and following calls", "why_tests_cant": "The number of cuts and of connection states is unbounded; a test fixes a few cut points of a few messages on a fresh connection.", "anchors": ["lib/nghttp3_conn.c:nghttp3_conn_read_stream", "lib/nghttp3_conn.c:nghttp3_conn_read_bidi", "lib/nghttp3_conn.c:conn_process_blocked_stream_data", "lib/nghttp3_conn.c:nghttp3_conn_read_qpack_encoder", "lib/nghttp3_stream.c:nghttp3_stream_buffer_data", "lib/nghttp3_conn.c:nghttp3_conn_qpack_blocked_streams_push"]}
{"id": "C62", "title": "No byte of a stream is credited twice or withheld, in any history of a whole connection", "statement": "At any moment of the life of a connection (either role, any settings, any permitted calls, any data received on any stream), the number of bytes of a request stream given to nghttp3_conn_read_stream is at least the sum of what nghttp3_conn_read_stream returned for it, what deferred_consume reported for it and what recv_data delivered on it; the two are equal unless the stream waits for entries of the QPACK encoder stream. For a unidirectional stream everything is returned at once.", "quantifier": "all connections: roles, settings, all histories of permitted calls and received bytes, all streams, at every moment", "why_tests_cant": "Depends on how streams interleave: blocked streams are released by data of another stream, closed while blocked, shut down while blocked, refused after GOAWAY, opened again; tests check a few traces.", "anchors": ["lib/nghttp3_conn.c:nghttp3_conn_read_stream", "lib/nghttp3_conn.c:conn_process_blocked_stream_data", "lib/nghttp3_conn.c:nghttp3_conn_read_qpack_encoder", "lib/nghttp3_conn.c:conn_delete_stream", "lib/nghttp3_conn.c:nghttp3_conn_close_stream", "lib/nghttp3_stream.c:nghttp3_stream_buffer_data"]}
{"id": "C63", "title": "In each life of a request stream the application sees a well-formed message so far, a complete one, a malformed section, or a refusal - whatever the peer sends on any stream", "statement": "Take a whole connection and any history of permitted calls, with arbitrary bytes of the peer on all streams. Cut the callbacks of a request stream at stream_close. On a server each life is: the beginning of a well-formed request; a complete well-formed request whose last callback is end_stream; the beginning of one that stops within a header or trailer section, followed by stop_sending and reset_stream with H3_MESSAGE_ERROR; or only stop_sending and reset_stream with H3_REQUEST_REJECTED. On a client each life is empty, or belongs to a request submitted on that stream, and is the beginning of a well-formed response to it, a complete one, or one that stops within a section with H3_MESSAGE_ERROR. After the last of these callbacks only deferred_consume follows. This also holds when the stream waited for the QPACK encoder stream and was processed during reads of other streams.", "quantifier": "all settings, both roles, all histories of permitted calls and received bytes on all streams; any number of lives of each stream id", "why_tests_cant": "What is delivered for one stream depends on calls for other streams (the QPACK encoder stream, priorities, GOAWAY); the number of interleavings is unbounded.", "anchors": ["lib/nghttp3_conn.c:nghttp3_conn_read_stream", "lib/nghttp3_conn.c:nghttp3_conn_read_bidi", "lib/nghttp3_conn.c:conn_process_blocked_stream_data", "lib/nghttp3_conn.c:nghttp3_conn_shutdown_stream_read", "lib/nghttp3_conn.c:nghttp3_conn_reject_stream", "lib/nghttp3_http.c:nghttp3_http_on_header", "lib/nghttp3_stream.c:nghttp3_stream_transit_rx_http_state"]}
{"id": "C64", "title": "The graceful shutdown of a whole connection keeps its promises; a stream whose reading side is shut down stays silent", "statement": "In any history of a whole connection: each nghttp3_conn_submit_shutdown_notice and nghttp3_conn_shutdown queues exactly one GOAWAY frame, the identifiers never increase, and a server's is a request stream identifier. On a server the GOAWAY of nghttp3_conn_shutdown covers every existing request stream; afterwards nothing of a request stream from that identifier on reaches the application, it is refused with H3_REQUEST_REJECTED whatever arrives in whatever order on all streams (also through PRIORITY_UPDATE and QPACK-blocked data); and no stream is ever refused unless a GOAWAY with an identifier not above its own had been queued. nghttp3_conn_is_drained says yes exactly if nghttp3_conn_shutdown was called, no request stream exists and everything on the control stream was written. After nghttp3_conn_shutdown_stream_read no callback but deferred_consume is made for the stream until its stream_close.", "quantifier": "all settings, all histories of permitted calls and received bytes on all streams before, between and after the shutdown calls", "why_tests_cant": "A promise about everything that arrives after the shutdown, on any stream and in any order; tests replay a few orders.", "anchors": ["lib/nghttp3_conn.c:nghttp3_conn_submit_shutdown_notice", "lib/nghttp3_conn.c:nghttp3_conn_shutdown", "lib/nghttp3_conn.c:nghttp3_conn_read_stream", "lib/nghttp3_conn.c:nghttp3_conn_reject_stream", "lib/nghttp3_conn.c:nghttp3_conn_on_priority_update", "lib/nghttp3_conn.c:nghttp3_conn_is_drained", "lib/nghttp3_conn.c:nghttp3_conn_shutdown_stream_read"]}
{"id": "C65", "title": "The application hears exactly what the peer put on its control stream, whatever else happens on the connection", "statement": "In any history of a whole connection, whatever calls bring the bytes and whatever happens in between on other streams: if what arrived on the unidirectional stream of the peer that began with stream type 0 is a sequence of complete frames, then each of them is acceptable after those before it, and recv_settings and shutdown were called for the SETTINGS and GOAWAY frames among them, with their contents, in order, once each, and for nothing else. For arbitrary bytes recv_settings is called at most once and before any shutdown, the identifiers given to shutdown never increase, and on a client they are request stream identifiers. Nothing is reported without such a stream; there is never a second control, QPACK encoder or QPACK decoder stream and never a push stream. On a client nghttp3_conn_submit_request returns NGHTTP3_ERR_CONN_CLOSING exactly when shutdown was called before, and the callbacks are a function of the bytes of the control stream alone.", "quantifier": "all settings, all histories of permitted calls and received bytes on all streams, all ways to divide and interleave them", "why_tests_cant": "The control stream can be cut anywhere and interleaved with anything; tests use a few cuts of one stream in isolation.", "anchors": ["lib/nghttp3_conn.c:nghttp3_conn_read_stream", "lib/nghttp3_conn.c:nghttp3_conn_read_uni", "lib/nghttp3_conn.c:conn_read_type", "lib/nghttp3_conn.c:nghttp3_conn_read_control", "lib/nghttp3_conn.c:nghttp3_conn_close_stream", "lib/nghttp3_conn.c:nghttp3_conn_submit_request"]}
{"id": "C66", "title": "A whole connection sends exactly what was asked for, and the peer is told exactly what was announced", "statement": "In any history of a whole connection that receives arbitrary bytes on all streams, with arbitrary partial writes: every stream carries the bytes of the frames that the calls asked for (SETTINGS, HEADERS, DATA from read_data, GOAWAY, PRIORITY_UPDATE), in order, each once; the transport has taken a first part of them and was offered the next; the encoder stream carries the instructions of every field section encoded, in order; fin is offered only with the last byte of a stream whose end was announced; each call returns what its documentation says, and one that fails changes nothing. If another whole connection receives a first part of the bytes taken from the control stream, in any pieces and whatever happens on the other streams at both ends, its application is told a first part of what was announced: the settings, then the shutdowns in order; all of it once everything has arrived, in particular when the sender says it is drained.", "quantifier": "all settings of both endpoints, all histories of calls and received bytes at both endpoints, all schedules, partial writes, answers of read_data and packetisations", "why_tests_cant": "The sending side is driven by the scheduler, partial writes, acknowledgements and by what arrives; tests fix one order of all of these.", "anchors": ["lib/nghttp3_conn.c:nghttp3_conn_writev_stream", "lib/nghttp3_conn.c:nghttp3_conn_add_write_offset", "lib/nghttp3_conn.c:nghttp3_conn_read_stream", "lib/nghttp3_conn.c:nghttp3_conn_read_control", "lib/nghttp3_conn.c:nghttp3_conn_is_drained", "lib/nghttp3_stream.c:nghttp3_stream_fill_outq", "lib/nghttp3_stream.c:nghttp3_stream_writev"]}
{"id": "C67", "title": "Which stream a whole connection offers, and which streams are writable", "statement": "In any history of a whole connection that receives arbitrary bytes on all streams: when nghttp3_conn_writev_stream offers a request stream, that stream has bytes or its end to send, no request stream that can send is more urgent, and the control and QPACK streams have nothing left to send or are blocked; when it offers nothing, no request stream can send anything or the one whose turn it was had no data. After nghttp3_conn_block_stream or nghttp3_conn_shutdown_stream_write a stream is not offered before data is received or a call names it. A request stream exists until the application closes it, whatever is received; while it exists nghttp3_conn_is_stream_writable depends only on the calls of block, unblock, shutdown_stream_write and resume for it (and on read_data having answered WOULDBLOCK), not on what is received. A client has no request stream that it did not submit; there are no server-initiated bidirectional streams.", "quantifier": "all settings, all histories of calls and received bytes, all schedules and partial writes", "why_tests_cant": "The scheduler is driven by calls and by received frames (requests, priority updates, QPACK instructions that wake streams) in any interleaving.", "anchors": ["lib/nghttp3_conn.c:nghttp3_conn_writev_stream", "lib/nghttp3_conn.c:nghttp3_conn_is_stream_writable", "lib/nghttp3_conn.c:nghttp3_conn_block_stream", "lib/nghttp3_conn.c:nghttp3_conn_shutdown_stream_write", "lib/nghttp3_conn.c:nghttp3_conn_read_stream", "lib/nghttp3_conn.c:nghttp3_conn_close_stream"]}
{"id": "C68", "title": "A callback that fails stops a request stream at once, and everything before it happened as if no callback failed", "statement": "nghttp3_conn_read_stream on a request stream and nghttp3_conn_close_stream make the callbacks they would make if no callback failed, in the same order with the same arguments, up to and including the first one that does not return 0; nothing is called after it, and the call returns NGHTTP3_ERR_CALLBACK_FAILURE. That code is returned only if a callback failed. The same holds over the whole life of a stream including its release from the QPACK queue, no assertion fails, and a history succeeds exactly if all its callbacks do - provided that the deferred_consume callback does not fail; if that one fails when a stream is released, the failure is not reported and a stream closed meanwhile is never deleted.", "quantifier": "all states, inputs and histories of a request stream; all behaviours of the callbacks, which may depend on everything called before", "why_tests_cant": "A test makes one chosen callback fail once; the claim is about a failure at any point of any history.", "anchors": ["lib/nghttp3_conn.c:nghttp3_conn_read_bidi", "lib/nghttp3_conn.c:conn_decode_headers", "lib/nghttp3_conn.c:nghttp3_conn_on_data", "lib/nghttp3_conn.c:conn_process_blocked_stream_data", "lib/nghttp3_conn.c:conn_delete_stream", "lib/nghttp3_conn.c:conn_call_deferred_consume"]}
{"id": "C69", "title": "The peer's QPACK encoder is told exactly what happened, and nothing that would be an error", "statement": "In any history of a whole connection the QPACK decoder stream carries its type and a sequence of decoder instructions: for every completed field section that refers to the dynamic table one Section Acknowledgment, in the order of completion; for every stream on which the application called nghttp3_conn_shutdown_stream_read a Stream Cancellation; and Insert Count Increments. No section is acknowledged that needs no entry, or one that has not arrived; no increment is 0 or goes beyond the entries that have arrived (each would be a connection error at the peer); and together with what the next call of nghttp3_conn_writev_stream will write, the Known Received Count of the peer is the number of all entries that have arrived. A call that gets to the decoder stream keeps nothing back. The entries that have arrived are those that RFC 9204 says the instructions make which are in the bytes that have arrived on the peer's stream of type 2.", "quantifier": "all histories of a connection, client or server: any bytes on any streams in any pieces, any calls, any partial writes", "why_tests_cant": "Tests look at one acknowledgment after one section; the claim is about the order and the sum of all instructions over a whole history.", "anchors": ["lib/nghttp3_conn.c:conn_decode_headers", "lib/nghttp3_conn.c:nghttp3_conn_shutdown_stream_read", "lib/nghttp3_conn.c:conn_writev_stream", "lib/nghttp3_qpack.c:nghttp3_qpack_decoder_write_decoder", "lib/nghttp3_qpack.c:qpack_decoder_write_section_ack", "lib/nghttp3_qpack.c:nghttp3_qpack_decoder_cancel_stream", "lib/nghttp3_stream.c:nghttp3_stream_write_qpack_decoder_stream"]}
{"id": "C70", "title": "A message that does not use the dynamic table is read independently of everything else", "statement": "If the field sections of a request stream do not refer to the dynamic table (read by a decoder that has none they give no error), the callbacks and the body that the application sees of it are those of its frames alone, however the bytes are cut into calls of nghttp3_conn_read_stream and whatever happens before, between and after them on the rest of the connection: other request streams that wait for the encoder stream, insertions and evictions, the control stream, the application's own calls. The stream never waits; end_stream comes with the last piece and the peer is told to stop exactly if the message is malformed; while only a part has arrived the application has seen a part of it. Unless the application stops reading or closes the stream, the only other outcomes are that a server that has sent GOAWAY refuses the whole stream, and an error of the connection. So two connections show the same for the same stream.", "quantifier": "all histories of a connection, client or server; all frame sequences and ways to cut them; all interleavings with everything else", "why_tests_cant": "The claim is non-interference: it compares a stream amid any history of a connection with the same stream alone. A test is one history.", "anchors": ["lib/nghttp3_conn.c:nghttp3_conn_read_stream", "lib/nghttp3_conn.c:nghttp3_conn_read_bidi", "lib/nghttp3_conn.c:conn_process_blocked_stream_data", "lib/nghttp3_qpack.c:nghttp3_qpack_decoder_read_request", "lib/nghttp3_qpack.c:qpack_decoder_reconstruct_ricnt"]}
{"id": "C71", "title": "End to end between two whole connections, without the dynamic table", "statement": "If the settings of one endpoint leave its QPACK encoder without a dynamic table (the default), what its application submits on a request stream with nghttp3_conn_submit_request, submit_response, submit_info, submit_trailers and read_data is what the application of the other endpoint gets on that stream - the fields in order, the body, the trailers, the end - whatever else the two applications, the two transports and the other streams do on either side: nghttp3_conn_writev_stream with any room and any schedule, partial writes, blocked streams, any cuts of the bytes into calls of nghttp3_conn_read_stream, other streams that wait for the encoder stream, GOAWAY, SETTINGS. As long as only a part has arrived the application has been given a part of it; a well-formed message is never answered by a reset, and never waits.", "quantifier": "all histories of two endpoints, client to server and server to client; all messages, answers of read_data, schedules, partial writes and ways to cut the bytes; all that happens on other streams", "why_tests_cant": "The claim composes everything the sender may do with everything the receiver may see; a test runs one exchange.", "anchors": ["lib/nghttp3_conn.c:nghttp3_conn_submit_request", "lib/nghttp3_conn.c:nghttp3_conn_submit_response", "lib/nghttp3_conn.c:nghttp3_conn_writev_stream", "lib/nghttp3_conn.c:nghttp3_conn_add_write_offset", "lib/nghttp3_conn.c:nghttp3_conn_read_stream", "lib/nghttp3_stream.c:nghttp3_stream_fill_outq", "lib/nghttp3_qpack.c:nghttp3_qpack_encoder_encode", "lib/nghttp3_qpack.c:nghttp3_qpack_decoder_read_request"]}
{"id": "C72", "title": "Every connection error of nghttp3_conn_read_stream names a violation that has happened, and violations are reported", "statement": "If nghttp3_conn_read_stream returns an error, then something wrong has arrived, and it is what the error stands for: H3_STREAM_CREATION_ERROR only for a stream the peer may not open, a push stream, or a second control, encoder or decoder stream; H3_CLOSED_CRITICAL_STREAM only for the end of one of these three; H3_GENERAL_PROTOCOL_ERROR on a unidirectional stream only for an end within the stream type, or from the control stream; QPACK_ENCODER_STREAM_ERROR only if no continuation makes the instructions that have arrived valid, or after more than 128 KiB without a field section; QPACK_DECODER_STREAM_ERROR only for bytes on the decoder stream; the errors of frames, messages and field sections only for a control stream, a request stream, or a request stream that had been waiting; no other error is returned. Conversely a push stream, a second stream of a critical type and the end of a critical stream are always reported with their error as soon as they can be recognised, an encoder stream with an invalid instruction always gets QPACK_ENCODER_STREAM_ERROR, and on a client the first frame of the control stream that must be refused always gets its error, however the bytes were cut into calls and whatever happened on the rest of the connection.", "quantifier": "all histories of calls on a connection, client or server; all settings; all streams, bytes and ways to cut them; all answers of callbacks (for frames: callbacks succeed)", "why_tests_cant": "Which errors are possible after an arbitrary history depends on all the state of the connection; a test sees one error for one history.", "anchors": ["lib/nghttp3_conn.c:nghttp3_conn_read_stream", "lib/nghttp3_conn.c:nghttp3_conn_read_uni", "lib/nghttp3_conn.c:nghttp3_conn_read_control", "lib/nghttp3_conn.c:nghttp3_conn_read_qpack_encoder", "lib/nghttp3_conn.c:nghttp3_conn_read_qpack_decoder", "lib/nghttp3_conn.c:nghttp3_conn_read_bidi"]}
{"id": "C73", "title": "A unidirectional stream of unknown type is dropped, and disturbs nothing", "statement": "Whatever arrives on a unidirectional stream of the peer whose type is none of 0, 1, 2, 3, in whatever pieces and after whatever history, nghttp3_conn_read_stream takes all of it, returns its length and never an error, makes no callback except stop_sending with H3_STREAM_CREATION_ERROR (once for each call that brings bytes behind the type and is not the end of the stream), and leaves everything else of the connection - all other streams, both QPACK tables, the readers, the scheduler - as it was.", "quantifier": "all histories of a whole connection, client or server; all unknown types in all encodings; all bytes and ways to cut them", "why_tests_cant": "Which types a peer invents (GREASE) and when is open; a test sends one.", "anchors": ["lib/nghttp3_conn.c:nghttp3_conn_read_uni", "lib/nghttp3_conn.c:conn_read_type", "lib/nghttp3_conn.c:conn_call_stop_sending"]}
{"id": "C74", "title": "The priorities that a server decides on stand, whatever the client sends", "statement": "In any history of a connection, after nghttp3_conn_set_server_stream_priority has succeeded for a request stream, nghttp3_conn_get_stream_priority reports that priority until the server closes the stream or sets another one: no header field, no PRIORITY_UPDATE frame, and nothing else that arrives on any stream changes it. If the server has made one stream more urgent than another, nghttp3_conn_writev_stream does not offer the less urgent one as long as the other can send something.", "quantifier": "all histories of a whole connection: all calls, all received bytes on all streams, before and after the decision", "why_tests_cant": "The client's signals come on three streams, in any order, and before or after the decision; a test tries one order.", "anchors": ["lib/nghttp3_conn.c:nghttp3_conn_set_server_stream_priority", "lib/nghttp3_conn.c:conn_on_priority_update_stream", "lib/nghttp3_conn.c:nghttp3_conn_get_stream_priority", "lib/nghttp3_conn.c:nghttp3_conn_writev_stream"]}
{"id": "C75", "title": "The QPACK encoder inside a connection keeps to what the peer allows and has said", "statement": "In any history of a connection, the encoder has processed exactly the instructions that the bytes of the peer's decoder stream spell, in order and each once, however they were cut; limits of the dynamic table and of blocked streams come from the peer's SETTINGS and from nowhere else. Of the field sections made for what is sent, those that are neither acknowledged nor cancelled and refer to entries the peer has not confirmed are on at most as many streams as SETTINGS_QPACK_BLOCKED_STREAMS allows (and at most 100), on none before SETTINGS arrive. The entries of the dynamic table fit in SETTINGS_QPACK_MAX_TABLE_CAPACITY, and no larger capacity is written to the encoder stream. The entries that outstanding sections refer to stay, with their meaning.", "quantifier": "all histories of a whole connection: all calls, all received bytes on all streams however cut, all field sections, every prefix", "why_tests_cant": "What the encoder may do depends on every acknowledgement, cancellation and setting received so far, in whatever order and pieces; tests use short exchanges with one encoder and no connection.", "anchors": ["lib/nghttp3_conn.c:nghttp3_conn_read_qpack_decoder", "lib/nghttp3_conn.c:nghttp3_conn_on_settings_entry_received", "lib/nghttp3_qpack.c:nghttp3_qpack_encoder_read_decoder", "lib/nghttp3_qpack.c:nghttp3_qpack_encoder_encode"]}
{"id": "C76", "title": "The dynamic tables of two whole connections agree, and field sections mean the same to both", "statement": "Take any history of a connection that sends and any history of its peer, in which a first part of the sender's encoder stream has arrived, cut in any way; the limit of the sender's table is at most that of the receiver's. The receiver never has more entries than were made; once all has arrived it has received all of them, and every entry the sender still has is in the receiver's table under the same number. Whatever comes next on the encoder stream is accepted. Every field section that is outstanding (no dynamic entries needed, or neither acknowledged nor cancelled) reads as exactly the fields that were encoded if its entries have arrived; if entries are missing it waits and is no error (with limits that give the same maximum number of entries).", "quantifier": "all pairs of histories of two whole connections: all calls, answers of the application, partial writes and arrivals on either side, every prefix of the encoder stream in any pieces", "why_tests_cant": "The two tables are built by different calls at different times out of bytes cut anywhere; a disagreement of one entry shows only when a later section refers to it. Tests compare one schedule of one encoder and one decoder, without connections.", "anchors": ["lib/nghttp3_conn.c:nghttp3_conn_read_qpack_encoder", "lib/nghttp3_stream.c:nghttp3_stream_write_header_block", "lib/nghttp3_qpack.c:nghttp3_qpack_encoder_encode", "lib/nghttp3_qpack.c:nghttp3_qpack_decoder_read_encoder", "lib/nghttp3_qpack.c:nghttp3_qpack_decoder_read_request"]}
{"id": "C77", "title": "The bytes missing of a frame's payload are told right", "statement": "At any moment of any history of a connection, nghttp3_conn_get_frame_payload_left for a request stream that neither the library (stream_close, reset_stream) nor the application (nghttp3_conn_shutdown_stream_read) has given up returns the number of bytes missing of the payload of the frame in which the bytes processed so far end, and 0 if they end between frames or inside the header of a frame. Which bytes are processed: those that were credited (returned or reported through deferred_consume) or handed to recv_data, that is all bytes of the stream unless it waits for the QPACK encoder stream. The bytes determine the number. For a stream that does not exist, for streams that are neither request streams nor unidirectional streams of the peer, for unidirectional streams of the peer other than its control stream, and for the control stream after complete frames, the answer is 0. On the control stream of the peer, after complete frames and part of one more, it is the number of missing bytes, except that in GOAWAY, and on a server in MAX_PUSH_ID and PRIORITY_UPDATE, this is claimed only as long as the identifier is incomplete (PRIORITY_UPDATE for request streams: or at most 8 bytes of the value have arrived); inside a GOAWAY frame with bytes after the identifier it is wrong (counterexample).", "quantifier": "all histories of a connection: all calls, all pieces in which the bytes of the stream arrive, including frames whose header is cut and frames that wait for the dynamic table, every request stream", "why_tests_cant": "The counter is set and reduced in five states of the reader, for every cut of the stream and for every length of frame; it is wrong only at certain cuts. Tests ask once or twice in the middle of one DATA frame.", "anchors": ["lib/nghttp3_conn.c:nghttp3_conn_get_frame_payload_left", "lib/nghttp3_conn.c:nghttp3_conn_read_bidi", "lib/nghttp3_conn.c:nghttp3_conn_read_control", "lib/nghttp3_conn.c:conn_remote_stream_uni"]}
