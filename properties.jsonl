{"id": "C01", "title": "Primitive values survive encode/decode", "statement": "Encoding any AMQP primitive (boolean, ubyte, ushort, uint, ulong, byte, short, int, long, float, double, char, uuid, binary, string, symbol) and decoding the bytes gives the same value back and leaves exactly the bytes that followed it, whatever they are.", "quantifier": "every value of every primitive type, every suffix of following bytes", "why_tests_cant": "Unit tests try a handful of values; the compact encodings switch at boundaries (0, 127/128, 255/256, -128) and the value spaces are up to 2^64 or unbounded strings.", "anchors": ["codec/src/codec/encode.rs: Encode impls", "codec/src/codec/decode.rs: DecodeFormatted impls"]}
{"id": "C02", "title": "Any AMQP value tree survives encode/decode", "statement": "Encoding any well-formed Variant (arbitrarily nested lists and maps, arrays, described values) and decoding it returns an equal Variant and leaves the following bytes untouched.", "quantifier": "every finite value tree of any depth and width whose encoded size fits the 32-bit size field, every suffix", "why_tests_cant": "Trees are unbounded; round trip holds only by induction over nesting and the 8/32-bit header switch at every level.", "anchors": ["codec/src/codec/encode.rs: impl Encode for Variant", "codec/src/codec/decode.rs: impl DecodeFormatted for Variant", "codec/src/types/variant.rs: Variant"]}
{"id": "C03", "title": "encoded_size is exact", "statement": "For every value, encoded_size() equals the number of bytes encode() writes; frame length prefixes are therefore right.", "quantifier": "every primitive, every value tree, every performative, every message section", "why_tests_cant": "The size is computed by separate code from the writer; a mismatch on one branch corrupts the stream and only shows up for values that take that branch.", "anchors": ["codec/src/codec/encode.rs: encoded_size", "codec/src/protocol/definitions.rs: encoded_size_*_inner", "codec/src/message/message.rs: Message::encoded_size"]}
{"id": "C04", "title": "Decoding never looks past the value", "statement": "If decoding some bytes succeeds leaving a remainder, then decoding the same bytes with anything appended gives the same value and the same remainder followed by the appended bytes.", "quantifier": "every byte string accepted by the decoder, every appended suffix", "why_tests_cant": "Quantifies over all byte strings, including ones no encoder produces.", "anchors": ["codec/src/codec/decode.rs: impl DecodeFormatted for Variant"]}
{"id": "C05", "title": "A truncated value is never accepted", "statement": "No strict prefix of an encoded value decodes successfully: a value cut short by the network is always reported as an error (Incomplete for scalar values), never as a different, shorter value.", "quantifier": "every value tree, every cut point", "why_tests_cant": "Needs all values and all cut points; follows from locality and exact consumption rather than samples.", "anchors": ["codec/src/codec/decode.rs: decode_check_len, read_bytes_u8, read_bytes_u32, decode_compound8"]}
{"id": "C06", "title": "Hostile bytes cannot crash the decoder", "statement": "For every byte string the value decoder returns a value or an error and does not panic.", "quantifier": "every byte string of every length", "why_tests_cant": "Fuzzing samples; the claim is about all inputs. (The code violates it: see the counterexample theorems; the partial theorem characterises exactly the panicking inputs' sites.)", "anchors": ["codec/src/codec/decode.rs: decode_compound8, decode_compound32", "codec/src/types/variant.rs: impl Hash for VariantMap"]}
{"id": "C07", "title": "AMQP and SASL frames survive the wire", "statement": "Any AMQP frame (channel + performative) and any SASL frame written by the codec is read back identical, and the reader is left positioned exactly at the next frame.", "quantifier": "every channel number and every performative with fields that fit, every following bytes", "why_tests_cant": "Infinite input space crossing frame header, described list header and each field codec.", "anchors": ["codec/src/io.rs: AmqpCodec::encode, AmqpCodec::decode", "codec/src/codec/encode.rs: impl Encode for AmqpFrame", "codec/src/codec/decode.rs: impl Decode for AmqpFrame"]}
{"id": "C08", "title": "Frame decoding does not depend on how bytes are chunked", "statement": "Feeding the same byte stream to the stream decoder in any sequence of chunks yields the same sequence of frames (and the same first error) as feeding it all at once.", "quantifier": "every byte stream, every way of cutting it into chunks, every max-size setting", "why_tests_cant": "The number of chunkings is exponential in the length; partial header/body states interact with the persisted decode state.", "anchors": ["codec/src/io.rs: AmqpCodec::decode, DecodeState"]}
{"id": "C09", "title": "Oversized frames are refused from their header", "statement": "With a non-zero maximum frame size, the stream decoder never yields a frame whose length prefix exceeds it and reports MaxSizeExceeded as soon as the 8 header bytes are available, before buffering the body; frames with a length prefix of at most 4 are refused too.", "quantifier": "every byte stream, every maximum", "why_tests_cant": "A memory-safety guard that must hold for all prefix values and buffer states.", "anchors": ["codec/src/io.rs: AmqpCodec::decode, AmqpCodec::max_size"]}
{"id": "C10", "title": "Protocol header negotiation is exact", "statement": "The protocol-header decoder accepts exactly the three 8-byte AMQP 1.0.0 headers (plain, TLS, SASL), inverts the encoder on them, waits on fewer than 8 bytes and rejects everything else without consuming following bytes.", "quantifier": "every byte string", "why_tests_cant": "2^64 headers; classification order of errors matters.", "anchors": ["codec/src/io.rs: ProtocolIdCodec"]}
{"id": "C11", "title": "Every performative's fields survive the wire", "statement": "Encoding and decoding each connection, session and link performative (open, begin, attach, flow, transfer, disposition, detach, end, close) returns field-for-field the same performative, including absent optional fields and, for transfer, the payload bytes.", "quantifier": "every assignment of field values whose encoding fits, every following bytes", "why_tests_cant": "Field interactions (list header width, null fields, nested described source/target/state) over unbounded field values.", "anchors": ["codec/src/protocol/definitions.rs: decode_open_inner .. decode_close_inner and encoders"]}
{"id": "C12", "title": "Omitted fields mean their defaults; missing mandatory fields are errors", "statement": "A performative whose trailing fields were omitted by the peer, or sent as null, decodes as if the peer had sent the specification default (absent for optional fields); a list too short to contain a mandatory field is rejected with RequiredFieldOmitted.", "quantifier": "every performative, every number of omitted trailing fields, every choice of present field values", "why_tests_cant": "The combination of which fields are omitted/null/present is exponential.", "anchors": ["codec/src/protocol/definitions.rs: decode_*_inner", "codec/codegen/definitions.rs"]}
{"id": "C13", "title": "Symbolic and numeric descriptors are interchangeable", "statement": "A performative, SASL frame, message section, delivery state or outcome sent with its symbolic descriptor decodes to exactly the same result as with its numeric descriptor, and an unknown descriptor is rejected.", "quantifier": "every descriptor value (all ulongs, all symbols), every body bytes", "why_tests_cant": "Tests always use the library's own numeric encoder, never the symbolic branch.", "anchors": ["codec/src/protocol/definitions.rs: impl DecodeFormatted for Frame, Section, DeliveryState, SaslFrameBody"]}
{"id": "C14", "title": "Fields from future protocol revisions are ignored", "statement": "Extra fields appended to a performative's list by a newer peer are skipped: the result equals the one without them and the data following the list is not disturbed.", "quantifier": "every performative list, every extra content", "why_tests_cant": "Requires arbitrary (even unparsable) extra bytes.", "anchors": ["codec/src/protocol/definitions.rs: decode_*_inner (split_to size)"]}
{"id": "C15", "title": "Enumerated fields accept exactly the specified values", "statement": "Role, settle modes, SASL code, terminus durability and expiry policy, and the error conditions decode exactly from the specified wire values, reject all others (custom error conditions and distribution modes excepted, which are preserved verbatim), and encode/decode are inverse.", "quantifier": "every wire value", "why_tests_cant": "2^8..2^32 or unbounded symbol space; tests only use valid values.", "anchors": ["codec/src/protocol/definitions.rs: Role, SenderSettleMode, ReceiverSettleMode, SaslCode, TerminusDurability, TerminusExpiryPolicy, AmqpError", "codec/src/protocol/mod.rs: ErrorCondition, DistributionMode, MessageId"]}
{"id": "C16", "title": "Messages survive encode/decode", "statement": "A message (header, annotations, properties, application properties, body as data/sequence/value sections, footer) encoded by the sender decodes to the same sections at the receiver.", "quantifier": "every message with any subset of sections and any number of body sections", "why_tests_cant": "Subset of sections x unbounded bodies.", "anchors": ["codec/src/message/message.rs: Message::encode, Message::decode", "codec/src/message/body.rs"]}
{"id": "C17", "title": "Message size is right after any mutations", "statement": "After any sequence of uses of the Message mutating API, encoded_size() equals the number of bytes encode() writes.", "quantifier": "every message, every sequence of mutator calls interleaved with encoded_size calls", "why_tests_cant": "History-dependent cache; tests check one history. (The code violates it for the mutators that do not reset the cache; counterexample and partial theorem.)", "anchors": ["codec/src/message/message.rs: Message::encoded_size, set_value, app_properties_mut, body_mut"]}
{"id": "C18", "title": "Arrays and multiple-valued fields survive the wire", "statement": "A vector of symbols (capabilities, mechanisms, locales) or of any array-encodable type survives encode/decode, and a multiple-valued field with one element is written as the bare element and read back as that one element.", "quantifier": "every list of elements of any length (including 0 and 1) that fits", "why_tests_cant": "Width switch at total size 255 and 0/1-element special cases over unbounded lists.", "anchors": ["codec/src/codec/encode.rs: impl Encode for Vec<T>, Multiple<T>", "codec/src/codec/decode.rs: impl DecodeFormatted for Vec<T>, Multiple<T>"]}
{"id": "C19", "title": "Timestamps survive the wire to millisecond precision", "statement": "A timestamp is written as signed milliseconds since the epoch and read back as the same instant truncated to milliseconds.", "quantifier": "every representable instant, before and after the epoch", "why_tests_cant": "Sign/rounding cases at sub-second negative instants. (The code violates it before the epoch; counterexample and partial theorem for instants at or after the epoch.)", "anchors": ["codec/src/codec/encode.rs: impl FixedEncode for DateTime<Utc>", "codec/src/codec/decode.rs: datetime_from_millis"]}
{"id": "C20", "title": "A sender never exceeds the credit the receiver granted", "statement": "In every execution, the number of deliveries a sender link has sent since the last flow frame is at most the link credit that flow granted (relative to its delivery-count).", "quantifier": "every interleaving of sends, flow frames, waits and wake-ups", "why_tests_cant": "Depends on all schedules of concurrent send() tasks and flow updates.", "anchors": ["src/sndlink.rs: SenderLinkInner::send, apply_flow"]}
{"id": "C21", "title": "Credit computed from flow matches the specification", "statement": "After a flow with delivery-count dc and credit c, the sender's remaining credit is dc + c - (its own delivery count) in RFC-1982 serial arithmetic; when no transfers were sent in the meantime this is exactly c.", "quantifier": "every delivery count, credit and counter position including wrap-around", "why_tests_cant": "32-bit wrap-around cases are not reachable in tests.", "anchors": ["src/sndlink.rs: apply_flow"]}
{"id": "C22", "title": "Delivery ids are consecutive and never reused while in flight", "statement": "The deliveries a session sends carry consecutive delivery ids (mod 2^32) in send order, so two deliveries among fewer than 2^32 consecutive ones never share an id.", "quantifier": "every sequence of sends on every link of a session, every interleaving", "why_tests_cant": "Requires reasoning over unbounded histories and counter wrap.", "anchors": ["src/session.rs: SessionInner::send_transfer"]}
{"id": "C23", "title": "Splitting a large message is lossless", "statement": "A message larger than the peer's frame limit is sent as transfer frames whose payloads concatenate to the message; exactly the last has more=false; only the first carries delivery id, tag and settled flag; all carry the same handle and message format.", "quantifier": "every body length and every peer max-frame-size", "why_tests_cant": "All sizes, including exact multiples of the chunk size and degenerate limits.", "anchors": ["src/session.rs: SessionInner::send_transfer"]}
{"id": "C24", "title": "Transfer frames fit the peer's max-frame-size", "statement": "Every transfer frame sent is no larger than the max-frame-size the peer announced.", "quantifier": "every body, every tag and delivery state, every announced limit", "why_tests_cant": "Chunk arithmetic reserves a fixed overhead only above a threshold. (Violated when the announced limit is 2048 or less; counterexample and partial theorem above.)", "anchors": ["src/session.rs: SessionInner::send_transfer"]}
{"id": "C25", "title": "The session respects the peer's incoming window", "statement": "Between two flow frames, the number of transfer frames sent does not exceed the window the peer opened; when it is closed, senders wait.", "quantifier": "every interleaving of sends and flows, every body size", "why_tests_cant": "Schedules x message sizes. (Violated for messages split over several frames, which count once; counterexample and partial theorem counting deliveries.)", "anchors": ["src/session.rs: SessionInner::send_transfer, handle_flow"]}
{"id": "C26", "title": "Blocked senders are all released and none is lost", "statement": "Every send blocked on credit or on the window is either still queued, woken by a flow, or failed by detach/session end/connection error; none is dropped silently, and a woken sender re-checks the limit before sending.", "quantifier": "every history of sends, flows, detaches and errors", "why_tests_cant": "Liveness-style bookkeeping over all schedules.", "anchors": ["src/session.rs: pending_transfers, set_error, handle_detach", "src/sndlink.rs: pending_transfers"]}
{"id": "C27", "title": "A disposition settles exactly the deliveries in its range", "statement": "A disposition for first..last updates exactly the unsettled deliveries whose id lies in the range and whose direction matches the role; all others are unaffected.", "quantifier": "every unsettled map, every range, both roles", "why_tests_cant": "All ranges x all outstanding sets, including one-element (last absent) and empty ranges.", "anchors": ["src/session.rs: SessionInner::settle_deliveries", "src/delivery.rs: DeliveryInner::handle_disposition"]}
{"id": "C28", "title": "A received delivery is settled at most once", "statement": "Whatever sequence of settle(), remote disposition and drop is applied to a received delivery, at most one settled disposition is sent for it, with the outcome of the first settle call; dropping without settling sends a rejection.", "quantifier": "every sequence of operations on a delivery", "why_tests_cant": "History-dependent flags; all orders of operations.", "anchors": ["src/delivery.rs: Delivery::settle, update_state, wait, Drop"]}
{"id": "C29", "title": "The outcome reported to a sender is the receiver's", "statement": "Waiting on a sent delivery resolves only with the state of a disposition that covers its id, or an error because link/session/connection was closed; settled sends resolve immediately.", "quantifier": "every interleaving of wait, dispositions, detach and errors", "why_tests_cant": "All orders of remote events versus the waiter.", "anchors": ["src/delivery.rs: Delivery::wait, check_inner, DeliveryInner"]}
{"id": "C30", "title": "A receiver never accepts more than the credit it granted", "statement": "A transfer beginning a new delivery that arrives when no credit is left is not delivered to the application, and the link is closed with transfer-limit-exceeded.", "quantifier": "every history of credit grants and incoming transfer frames", "why_tests_cant": "Adversarial peer: all sequences.", "anchors": ["src/rcvlink.rs: ReceiverLinkInner::handle_transfer"]}
{"id": "C31", "title": "Multi-frame deliveries are reassembled exactly", "statement": "A delivery split by the peer into any number of frames reaches the application exactly once, after its last frame, with the concatenated payload; deliveries come out in arrival order; the credit is charged once.", "quantifier": "every way of splitting, every number of deliveries, interleaved reads", "why_tests_cant": "All splits and interleavings with get_delivery.", "anchors": ["src/rcvlink.rs: handle_transfer, get_delivery"]}
{"id": "C32", "title": "The receiver bounds reassembled messages", "statement": "A multi-frame delivery whose accumulated size exceeds the receiver's max-message-size is refused with message-size-exceeded and never reaches the application.", "quantifier": "every split of every body, every limit", "why_tests_cant": "All splits and sizes; limit is checked incrementally.", "anchors": ["src/rcvlink.rs: handle_transfer"]}
{"id": "C33", "title": "Frames reach the link they were addressed to", "statement": "A transfer, flow or detach with a handle affects only the link the peer attached under that handle; a transfer on an unattached handle ends in an error and affects no link.", "quantifier": "every reachable set of links and every frame", "why_tests_cant": "Arbitrary attach/detach histories with handle reuse.", "anchors": ["src/session.rs: handle_frame, handle_attach, handle_detach, remote_handles"]}
{"id": "C34", "title": "Detaching a link fails exactly its outstanding deliveries", "statement": "When the peer detaches a link, every unsettled delivery of that link is completed with the detach error and no delivery of another link is touched; queued sends of that link fail.", "quantifier": "every session state", "why_tests_cant": "All assignments of deliveries to links.", "anchors": ["src/session.rs: handle_detach"]}
{"id": "C35", "title": "Each frame is routed to its channel's session; channels are not shared", "statement": "Frames received on a channel are given to the session the peer began on it; two live sessions never share a local or remote channel; a frame on an unknown channel is a protocol error.", "quantifier": "every history of begin/end in both directions", "why_tests_cant": "Channel reuse over unbounded histories.", "anchors": ["src/connection.rs: ConnectionInner::handle_frame, register_remote_session, open_session"]}
{"id": "C36", "title": "The number of local sessions respects the negotiated channel-max", "statement": "The client never begins a session on a channel number at or above the peer's channel-max setting; it fails with TooManyChannels instead.", "quantifier": "every history of opening and closing sessions", "why_tests_cant": "Boundary over unbounded histories with slot reuse.", "anchors": ["src/connection.rs: open_session"]}
{"id": "C37", "title": "A connection error is sticky and reaches everyone", "statement": "Once the connection has failed or closed, the first error is kept, every established session and link reports it, all blocked sends and waiting deliveries complete with it, and no further frame changes state.", "quantifier": "every connection state and every error", "why_tests_cant": "All combinations of live sessions, links and waiters.", "anchors": ["src/connection.rs: set_error", "src/session.rs: set_error", "src/sndlink.rs: set_error", "src/rcvlink.rs: set_error"]}
{"id": "C38", "title": "The client opens AMQP only after SASL success", "statement": "A client configured with SASL sends its AMQP protocol header and open only after a SASL outcome with code ok; any other outcome, frame or header aborts the connection attempt with an error.", "quantifier": "every sequence of bytes/frames a server may send", "why_tests_cant": "Adversarial server: all response sequences.", "anchors": ["src/client/connector.rs: connect_sasl_inner, connect_plain_inner"]}
{"id": "C39", "title": "A server handshake only reaches the open connection through the specified steps", "statement": "The server accepts only AMQP or SASL protocol headers, requires sasl-init before any outcome, and requires a fresh AMQP header after the SASL exchange; a connection whose SASL outcome was not ok is not opened.", "quantifier": "every sequence of client messages and handler decisions", "why_tests_cant": "Adversarial client. (The last clause is violated: any outcome code yields a success token; counterexample and partial theorem.)", "anchors": ["src/server/sasl.rs", "src/server/service.rs: handshake"]}
{"id": "C40", "title": "Control events are delivered in order, exactly once", "statement": "Control frames are handed to the control service in the order they were queued, each exactly once.", "quantifier": "every interleaving of enqueue and poll", "why_tests_cant": "All schedules.", "anchors": ["src/control.rs: ControlQueue", "src/dispatcher.rs: poll"]}
{"id": "C41", "title": "Outcome mapping is faithful", "statement": "The disposition sent for a message handled by a service is accepted, rejected, or rejected with the error exactly according to the handler's outcome, and is settled.", "quantifier": "every handler outcome and error value", "why_tests_cant": "All outcomes incl. conversions from errors.", "anchors": ["src/types.rs: Outcome", "src/router.rs: RouterService"]}
{"id": "C42", "title": "The router dispatches only to the link's own handler", "statement": "A message is given to the handler created for its link's address and only after that handler exists; links with no or unmatched address are detached; after detach no message is dispatched.", "quantifier": "every sequence of attach, handler-ready, transfer and detach events", "why_tests_cant": "All event interleavings.", "anchors": ["src/router.rs"]}
{"id": "C43", "title": "Link credit is replenished and tracked exactly", "statement": "Receiver credit visible to the application equals granted credit minus completed deliveries, and each grant is announced to the peer with the matching delivery-count.", "quantifier": "every history of grants and transfers", "why_tests_cant": "History-dependent counters.", "anchors": ["src/rcvlink.rs: set_link_credit, credit, handle_transfer"]}
{"id": "C44", "title": "Encoded values are unambiguous", "statement": "Two different values never have the same encoding, and a concatenation of encoded values can be parsed in only one way.", "quantifier": "every pair of values", "why_tests_cant": "Universally quantified pairs.", "anchors": ["codec/src/codec/encode.rs", "codec/src/codec/decode.rs"]}
{"id": "C45", "title": "Definitive decode errors are final", "statement": "If decoding some bytes fails with anything but Incomplete, then decoding those bytes followed by anything fails with the same error: a peer cannot turn a rejected value into an accepted one by sending more.", "quantifier": "every byte string, every suffix, every type", "why_tests_cant": "Quantifies over all byte strings and all continuations; depends on how every nested decoder reports errors.", "anchors": ["codec/src/codec/decode.rs", "codec/src/error.rs: AmqpParseError"]}
{"id": "C46", "title": "Nothing is said about a delivery after the receiver settled it", "statement": "Once the receiver has settled a delivery this side sent, no further disposition about it is sent, in particular none contradicting the outcome.", "quantifier": "every order of disposition, wait, settle and drop", "why_tests_cant": "Depends on whether the settlement arrives before or after the waiter is first polled; all interleavings.", "anchors": ["src/delivery.rs: Delivery::wait, Drop for Delivery"]}
{"id": "C47", "title": "Waiting on a delivery the receiver has settled resolves", "statement": "A wait on a sent delivery about which the receiver has already spoken resolves at once.", "quantifier": "every disposition, with or without a state, before or after the wait begins", "why_tests_cant": "Absence of a lost wake-up over all interleavings.", "anchors": ["src/delivery.rs: Delivery::wait, check_inner"]}
{"id": "C48", "title": "Sends on a link go out in the order they were made", "statement": "If two sends are made on one link, the first goes out before the second.", "quantifier": "every schedule of sends, flows and polls", "why_tests_cant": "The overtaking happens only if a send is made between the arrival of a flow and the poll of the woken future.", "anchors": ["src/sndlink.rs: SenderLinkInner::send, apply_flow"]}
{"id": "C49", "title": "A client and a server of this library agree at the end of the handshake", "statement": "When a SASL client and a server of this library are connected to each other, the server's service accepts the client, and every byte each of them sent has arrived, both have an open connection, each set up from its own configuration and the other's open, and nothing is left unread.", "quantifier": "every configuration, credentials, hostname and accepting service, and every way of cutting the two byte streams into chunks", "why_tests_cant": "A test runs one configuration and one timing; the property is about the composition of both programs and both codecs for all of them.", "anchors": ["src/client/connector.rs: connect_sasl_inner, connect_plain_inner", "src/server/service.rs: handshake", "src/server/sasl.rs", "codec/src/io.rs"]}
{"id": "C50", "title": "Every standard encoding of a value is understood", "statement": "Every byte sequence that the AMQP 1.0 type system defines as an encoding of a value, whichever of the permitted widths the sender chose at each level, is decoded to that value and leaves what follows it.", "quantifier": "All primitive types, all value trees of any depth, all choices of constructor widths, all following bytes.", "why_tests_cant": "Round-trip tests only exercise the forms this library writes; other implementations write the others, and their combinations in a tree are unbounded.", "anchors": ["codec/src/codec/decode.rs:65-240", "codec/src/codec/decode.rs:371-471", "codec/src/codec/decode.rs:532-609"]}
{"id": "C51", "title": "Everything written is a standard encoding", "statement": "The bytes written for a value are an encoding of that value as the AMQP 1.0 type system defines it, so any conforming peer reads the same value.", "quantifier": "All well-formed primitives and value trees.", "why_tests_cant": "An encoder and decoder that share a mistake pass every round-trip test.", "anchors": ["codec/src/codec/encode.rs:30-448", "codec/src/codec/encode.rs:628-769"]}
{"id": "C52", "title": "Nothing but standard encodings is accepted", "statement": "If bytes decode as a value of a primitive type then they are a standard encoding of exactly that value; text is accepted only if it is UTF-8.", "quantifier": "All byte sequences, all primitive types.", "why_tests_cant": "The malformed inputs are infinitely many; tests try a handful.", "anchors": ["codec/src/codec/decode.rs:65-240"]}
{"id": "C53", "title": "Flow frames state the session's position truthfully", "statement": "Every flow frame a session sends carries the session's own next-outgoing-id and window as they are at that point, names a receiver link with the delivery-count and credit it really has, and carries the next-incoming-id the peer is entitled to; a flow frame asking for an echo is answered by exactly one flow frame and no other flow frame is answered.", "quantifier": "All executions of a session: all interleavings of peer frames, application calls and control-service answers.", "why_tests_cant": "The counters are updated in many places and read in two; a stale counter shows only after particular interleavings, and peers tolerate it until windows run out.", "anchors": ["src/session.rs:1128-1176", "src/session.rs:1178-1193", "src/session.rs:840-860"]}
{"id": "C54", "title": "The control service is told of what the peer did, and only that", "statement": "The control service is called about a link attached or detached, a flow or the end of a session only if the peer sent the corresponding frame, and each detach of an established link and each end is reported exactly once with its contents.", "quantifier": "All executions of a session.", "why_tests_cant": "Missing or invented notifications show up as leaks in applications long after the fact; tests check the happy order only.", "anchors": ["src/session.rs:941-1060", "src/session.rs:640-700"]}
{"id": "C55", "title": "Every standard encoding of a performative, frame or stream is read", "statement": "Whatever of the encodings permitted by AMQP 1.0 a peer chooses for a composite type (numeric or symbolic descriptor, list0/list8/list32, trailing fields omitted or null, any form of each field), for a frame (extended header or not) and for the chunks of the stream, the decoder yields exactly the value, frame and sequence of frames it denotes; frame headers are read exactly as laid out and anything else is refused.", "quantifier": "All values of all composite types, all their encodings, all frames, all streams, all chunkings.", "why_tests_cant": "The library's own encoder only ever produces one of the permitted encodings, so round-trip tests never see the others.", "anchors": ["codec/src/protocol/definitions.rs:1021-5500", "codec/src/codec/decode.rs:516-593", "codec/src/io.rs:62-102"]}
{"id": "C56", "title": "A reply carries the request's id", "statement": "reply_message() yields an otherwise empty message whose correlation-id is the message-id of the request, and the requester reads that id back.", "quantifier": "All well-formed requests.", "why_tests_cant": "A reply that copies the wrong id works in every test with a single outstanding request.", "anchors": ["codec/src/message/message.rs:261-266"]}
{"id": "C57", "title": "Every standard encoding of a message is read", "statement": "Every byte sequence the specification allows as an encoding of a message decodes to exactly the sections it denotes.", "quantifier": "All messages, all their encodings.", "why_tests_cant": "Other implementations use encodings this library never writes.", "anchors": ["codec/src/message/message.rs:269-313", "codec/src/protocol/definitions.rs:222-310"]}
{"id": "C58", "title": "The peer cannot crash a session", "statement": "No sequence of frames makes a session panic; the steps that can panic or overflow a counter are known exactly.", "quantifier": "All executions of a session, all next steps.", "why_tests_cant": "The panics need a frame to arrive between a link's attach and the answer of the control service, or counters close to 2^32.", "anchors": ["src/session.rs:461-493", "src/session.rs:695-770", "src/rcvlink.rs:292-298", "src/rcvlink.rs:301-451"]}
{"id": "C59", "title": "The limits exchanged in the opens are the limits observed", "statement": "After a handshake each side keeps to its own channel-max and the peer's max-frame-size, and refuses frames larger than it announced.", "quantifier": "All configurations, all handshakes, all executions of the connection made.", "why_tests_cant": "Connects the configuration, the handshake, the connection and the session over all executions.", "anchors": ["src/client/connector.rs:90-293", "src/server/service.rs:150-319", "src/lib.rs:100-256", "src/connection.rs:100-160"]}
{"id": "C61", "title": "A receiver link is used only when both services accepted it", "statement": "A receiver link the peer attaches takes in messages only after the control service and then the publish service accepted it; a refused one never does.", "quantifier": "All executions of a session.", "why_tests_cant": "It fails for particular interleavings of detaches, attaches and answers of the services.", "anchors": ["src/dispatcher.rs:299-376", "src/session.rs:675-692", "src/rcvlink.rs:86-95", "src/session.rs:695-770"]}
{"id": "C60", "title": "The router serves the links it has handlers for", "statement": "Every complete message that arrives on a link the router has a handler for is given to the handler in order of arrival and answered once, and the peer is granted new credit whenever the old is used up.", "quantifier": "All states for the renewal; all orderly executions of the router otherwise.", "why_tests_cant": "The claim is about every interleaving of arrivals, handler answers and credit grants.", "anchors": ["src/router.rs:80-235", "src/dispatcher.rs:187-262", "src/dispatcher.rs:299-376", "src/rcvlink.rs:96-140"]}
{"id": "C62", "title": "Two connected sessions of the library pass messages on unchanged", "statement": "When two sessions of this library are connected, the messages the application takes from a receiver link are the first of those that went out on the sender link at the other end, in the same order, each with its payload, format, settled flag and tag; when everything has arrived, none is missing.", "quantifier": "All executions of both sessions, all interleavings with the transport, all message and frame sizes.", "why_tests_cant": "The claim composes splitting, numbering, transport and reassembly over every interleaving of both endpoints.", "anchors": ["src/session.rs:1196-1335", "src/sndlink.rs:326-420", "src/rcvlink.rs:301-420", "src/connection.rs:405-480"]}
{"id": "C63", "title": "Between two endpoints of the library no message is refused for lack of credit", "statement": "When two sessions of this library are connected, every transfer frame of a link that is open at both ends finds credit at the receiver and is taken in.", "quantifier": "All executions of both sessions, all interleavings with the transport.", "why_tests_cant": "Whether the sender's view of the credit ever exceeds the receiver's depends on what is in flight in both directions.", "anchors": ["src/rcvlink.rs:292-420", "src/sndlink.rs:292-420", "src/session.rs:1128-1195"]}
{"id": "C64", "title": "Links are attached under the handles, roles and limits the two ends announce", "statement": "Attaching a link posts the application's attach under a free handle; the peer's answer establishes exactly that link, with the handle, initial delivery-count and message limit of the answer; a link the peer attaches is offered to the control service with an answer that has the same name, the opposite role and the link's handle, which is sent once it is accepted, and refused with an attach without terminus and a closing detach otherwise. Each attach the peer sends is answered; the roles of the two ends are opposite; announced limits are the ones kept, and 0 means none.", "quantifier": "all reachable session states, attach frames, edits by the control service and orders of completion", "why_tests_cant": "the outcome depends on the state of the name, handle and slot tables, on what the peer's frame announces and on when the services answer; tests attach a few links with default frames", "anchors": ["src/session.rs:412-493", "src/session.rs:555-591", "src/session.rs:612-692", "src/session.rs:869-937", "src/sndlink.rs:204-227", "src/sndlink.rs:424-486", "src/rcvlink.rs:86-95", "src/rcvlink.rs:224-247", "src/rcvlink.rs:486-574", "src/dispatcher.rs:299-376", "src/connection.rs:419-443"]}
{"id": "C65", "title": "Closing and detaching a link follow the detach handshake", "statement": "Closing or detaching a link sends exactly one detach under the link's handle, with the closed flag and error asked for, and completes when the peer's detach arrives, with the error it carries; closing twice sends nothing more. The peer's detach of a link is answered with one detach of the same kind, and frees slot and handle. Other links are not affected.", "quantifier": "all session states with the link established or closing, all detach frames and errors", "why_tests_cant": "tests close links in the expected order with default frames; the claim covers every state of the other links, every error and the races with attaching", "anchors": ["src/session.rs:496-552", "src/session.rs:695-769", "src/session.rs:940-1089", "src/sndlink.rs:264-290", "src/rcvlink.rs:267-290", "src/rcvlink.rs:150-171"]}
{"id": "C66", "title": "Frames about a link are sent only while the link is attached", "statement": "Within a session, a detach, transfer or flow frame about a link handle is sent only when the session has sent an attach for this handle and no detach since, and an attach is sent only when the handle is free.", "quantifier": "all executions of a session: every interleaving of peer frames, application calls and control service answers", "why_tests_cant": "the offending frames come from calls that straddle a close or a late answer; tests close links only when nothing is in flight", "anchors": ["src/session.rs:1178-1290", "src/session.rs:496-640", "src/session.rs:695-769", "src/session.rs:940-1089", "src/rcvlink.rs:97-110", "src/rcvlink.rs:292-298"]}
{"id": "C67", "title": "The peer hears from us within its idle timeout", "statement": "If the peer's open announces an idle timeout, empty frames are sent often enough that no more than half of the timeout passes without one, provided the dispatcher is polled within an eighth of the timeout after its timer elapses; without a timeout none is sent.", "quantifier": "all idle timeouts, all roundings of the float arithmetic, all sequences of poll times", "why_tests_cant": "timeouts are minutes in practice, and the conversion through floats, seconds and halves has corner cases at small values that tests with one timeout do not reach", "anchors": ["src/dispatcher.rs:31-50", "src/dispatcher.rs:138-147", "src/lib.rs:226-256", "src/client/connection.rs:62-92", "src/server/handshake.rs:136-158", "src/server/service.rs:171-191"]}
{"id": "C68", "title": "The outcome the sender hears is the one the receiving side gave", "statement": "In every execution of two connected sessions, when wait on a sent delivery reports a state, the application at the other end asked for exactly that state through the one incoming delivery object that has the id the message went out with; if that object was handed out by the receiver link at the other end, it carried the same message. When a disposition of the receiving side arrives at the sending side, the record of that one delivery takes its state and nobody there goes on waiting for it; once everything has arrived the sending session has been told of every outcome given.", "quantifier": "all executions of two connected sessions: all interleavings of application calls, services and frame arrivals on both sides, all messages and frame sizes, all numbers of links and deliveries below 2^32", "why_tests_cant": "whether an outcome reaches the right delivery depends on the interleaving of sends, acknowledgements, drops and waits on both sides; tests follow one of them", "anchors": ["src/delivery.rs:93-310", "src/session.rs:1091-1135", "src/session.rs:1332-1340", "src/rcvlink.rs:117-135", "src/rcvlink.rs:301-440"]}
{"id": "C69", "title": "Decoding takes memory in proportion to the bytes received", "statement": "A decoded value, frame or message holds no more nodes and bytes of data than the input it was decoded from had bytes, a frame from the stream stays below the maximal frame size, and all frames together below the bytes received; decoders set aside no more memory, and recurse no deeper, than the input justifies.", "quantifier": "all byte strings, all ways of cutting a stream into chunks, all maximal frame sizes", "why_tests_cant": "the inputs that break it are crafted: counts that do not match the size, zero-width elements, deep nesting; tests decode what the encoder wrote", "anchors": ["codec/src/codec/decode.rs:242-360", "codec/src/types/array.rs:36-50", "codec/src/codec/decode.rs:371-471", "codec/src/io.rs:62-102"]}
{"id": "C70", "title": "Two connections of the library keep their sessions apart", "statement": "While no connection has failed, no session was ended and no side has begun more sessions than there are channels: every session of either side is joined to exactly one of the other, or its answer is on its way; no frame is refused; joined sessions are given exactly each other's frames in the order posted, so that they behave as two sessions directly connected (C62), and messages arrive at the other end in order and, once all frames have arrived, completely; and when all frames have arrived every session opened is there on both sides.", "quantifier": "all executions of two connections, all interleavings of the applications, services and both directions of transport", "why_tests_cant": "the channel numbers of the two sides differ only when sessions are opened from both sides at once, and every order of begins, answers and frames of other sessions must be covered", "anchors": ["src/connection.rs:213-236", "src/connection.rs:247-350", "src/connection.rs:573-620", "src/session.rs:1332-1334", "src/dispatcher.rs:100-190"]}
{"id": "C71", "title": "Each call of the control service is answered once, about the frame it was made for, and in order", "statement": "Every call of the control service is either outstanding or was answered, once; an outstanding call about a frame of the peer names the place where its session keeps that frame, and no such frame is without its call; a poll of the dispatcher acts on every call that is answered by then, unless a protocol error stops it; and answers take effect in the order of the calls.", "quantifier": "all executions of a connection under a dispatcher: every interleaving of frames, application, service answers and polls", "why_tests_cant": "the vector is reordered by every removal, and the frames of many sessions wait in it in any combination", "anchors": ["src/dispatcher.rs:51-58", "src/dispatcher.rs:105-150", "src/dispatcher.rs:195-251", "src/dispatcher.rs:299-376"]}
{"id": "C72", "title": "Everything that is written is standard", "statement": "Every performative, delivery state, terminus, SASL body and message section, every AMQP and SASL frame and every message that is written is one of the encodings the AMQP specification defines for that value: described lists with the right descriptor and every field in its place, frames with the right size, offset, type and channel, message sections in order.", "quantifier": "all values of every composite type, all frames, all messages that are well formed and whose symbols are ASCII", "why_tests_cant": "round-trip tests cannot see an encoding that only this library's own decoder understands", "anchors": ["codec/src/codec/encode.rs", "codec/src/protocol/definitions.rs", "codec/src/message/message.rs:346-374", "codec/src/message/body.rs:59-85"]}
{"id": "C73", "title": "Whatever is posted can be read", "statement": "Every frame that a connection posts, its own and those of all its sessions, in every execution, is one that the codec at the other end reads back as it was posted; all the bytes of a connection, received in any chunks, are read as the frames posted, without error. Between two connections of the library nothing is assumed of what arrives.", "quantifier": "all executions of a session, of a connection and of two connections, all well-formed values given by the applications, all messages, all chunkings of the bytes", "why_tests_cant": "which frames are posted depends on the whole history of both sides: tables of names, echoed termini, errors and states that were remembered and sent later", "anchors": ["src/session.rs", "src/connection.rs:247-349,391-480,573-612", "codec/src/io.rs:54-120"]}
{"id": "C74", "title": "An application's error reaches the peer as the application meant it", "statement": "An error made with the builders of error.rs carries the condition chosen and the last description and fields given; the peer reads the same description and fields and a condition with the same symbol, recognising a symbol the specification defines even if it was given as a custom one; the constants of error_code.rs are the symbols the specification defines.", "quantifier": "all sequences of builder calls, all errors with well-formed parts, all constants", "why_tests_cant": "no test sends each condition by each route; a misspelt constant still round-trips", "anchors": ["src/error.rs:74-242", "src/error_code.rs:7-43", "codec/src/protocol/mod.rs:104-159"]}
{"id": "C75", "title": "Connections over a byte stream behave as connections that exchange frames", "statement": "For two connections of the library whose frames are written as bytes, carried over in pieces of any size and read by the codec at any time, some exchange of whole frames leads to the same two connections; no codec ever fails; when all bytes have been carried over and read every frame has arrived. So messages arrive in order and none is missing however the bytes are cut up.", "quantifier": "all executions of two connections, all sizes and times of the pieces, all times of reading, all well-formed values given by the applications", "why_tests_cant": "there is a cut at every byte of every exchange, interleaved with everything the two applications do", "anchors": ["codec/src/io.rs:54-120", "codec/src/codec/decode.rs", "src/dispatcher.rs:167-186,264-269", "src/connection.rs:391-480"]}
{"id": "C76", "title": "A client and a server, from the first byte of the handshake on", "statement": "A client and a server of the library whose configurations and services accept each other, with or without SASL, both open once all bytes have been carried over, however the bytes are cut up and whatever the end that opened first already does on its connection; from then on they are where their two new connections come to by an exchange of bytes (C75): bytes the handshake has not used are the first the connection reads, none is lost or read twice at the change. So messages the client sends are received in order and none is missing.", "quantifier": "all configurations, credentials and services that accept each other, all cuts of the bytes, all interleavings with what the two applications do on their connections", "why_tests_cant": "the first frames of a connection may arrive in the same piece as the end of the handshake, or not, at either end independently; tests on a loopback see a few of these cuts", "anchors": ["src/server/service.rs:140-310", "src/client/connector.rs:100-300", "src/server/handshake.rs", "src/server/sasl.rs", "codec/src/io.rs:54-120", "src/dispatcher.rs:167-186,264-269"]}
{"id": "C77", "title": "How a connection is closed", "statement": "A Close of the peer is answered at once by a Close and nothing else, ends all sessions, and is reported to the control service; a failing publish or control service makes the dispatcher post a Close with its error and stop; the Close frames posted are as many as those of the peer, of the application and of the stopping dispatcher together; once stopped the dispatcher handles nothing more. Violated: the peer's Close is answered a second time when the control service has answered; a refused frame stops the dispatcher without any Close; a Close after a decoding error or timeout does not say why; a Begin after the peer's Close is answered.", "quantifier": "all executions of dispatcher, connection, sessions and application, all readiness results", "why_tests_cant": "the second Close depends on when the control service answers relative to the next readiness check, and usually is lost in the transport's shutdown", "anchors": ["src/dispatcher.rs:67-105", "src/dispatcher.rs:156-187", "src/dispatcher.rs:254-290", "src/dispatcher.rs:321-324", "src/connection.rs:158-180", "src/connection.rs:358-374"]}
{"id": "C78", "title": "Control services that answer at once", "statement": "With a control service that answers every call immediately, as the default one, a poll of the dispatcher answers all outstanding calls, the first one first and then from the last to the second, up to the first protocol error among them, which becomes the dispatcher's error; what is behind it stays unanswered. No control call closes the connection: without a Close of either side, an error of the transport or a failing service, none is posted and the dispatcher stops only for a frame it refuses. Violated: start_default is documented to close the connection on any control message; it attaches the peer's links, gives credit, takes messages in and never settles them.", "quantifier": "all states of the dispatcher, all executions, all answers", "why_tests_cant": "the order depends on how many frames are read before a poll; the absence of a Close must hold in every execution", "anchors": ["src/default.rs:49-73", "src/client/connection.rs:61-73", "src/dispatcher.rs:107-140", "src/dispatcher.rs:299-376"]}
{"id": "C79", "title": "Every request is answered exactly once", "statement": "Each attach, close and detach of a link, and each open_session, is a numbered request. In every reachable state a request has been answered exactly once and its channel is held nowhere, or it has not been answered and its channel is held by exactly one link (one entry of the session table for open_session), so none is lost or answered twice; this holds for sessions unless the session panicked and for connections always. When the session or the connection fails, or the peer ends the session, every request made so far has its answer. Violated: a link attached on a session that is already over is never answered, and a late acceptance of a peer's link drops the request of another link that took its slot.", "quantifier": "all reachable states, all requests, all frames of the peer", "why_tests_cant": "a lost or doubled answer needs a particular interleaving of requests, frames and failures; the statement counts over the whole history", "anchors": ["src/session.rs:338-402", "src/session.rs:438-458", "src/session.rs:496-560", "src/session.rs:648-740", "src/session.rs:869-1037", "src/connection.rs:180-236"]}
{"id": "C80", "title": "The session window between two endpoints of the library", "statement": "The Begin frames of the library state next-outgoing-id 1 and incoming-window 2^32-1. Between two sessions begun that way, in every execution and in both directions, the window a session has for its deliveries is 2^32-1 less the number of deliveries it made after some flow frame of its own (or since the beginning). As long as the sending end has posted no flow frame, deliveries made and window left add up to 2^32-1, and before that many deliveries no send waits for the window. Violated: such a session stops for good after 2^32-1 deliveries; the receiving end does not count what it takes in, so no flow frame it ever sends opens the window again.", "quantifier": "all pairs of sessions begun by the library, all interleavings of steps of both ends", "why_tests_cant": "the session stops after four billion deliveries, hours of full load that no test waits for; the invariant is over all executions", "anchors": ["src/session.rs:845-848", "src/session.rs:1128-1193", "src/session.rs:1204-1222", "src/connection.rs:269-278", "src/connection.rs:596-605"]}
{"id": "C81", "title": "A task that sleeps on a receiver link has nothing to read", "statement": "A task that waits in ReceiverLink::recv is polled again only after the link woke it. In every execution, with one reader per link and as long as no link is dropped from the table by something that is not about that link, a task that was told Pending and has not been woken since has nothing to read: the link is open and holds no complete message; and the link has its waker. So every step that completes a message or closes the link wakes the reader. Violated: Session::detach_receiver_link drops the established link, which sets closed without waking; the reader then sleeps for ever, through the answer of the peer, the end of the session and the failure of the connection.", "quantifier": "all executions of a session, all assignments of reads to tasks", "why_tests_cant": "a lost wake-up needs one order of polls, transfers and closings among all; the invariant relates the sleeping tasks to the queue in every one", "anchors": ["src/rcvlink.rs:145-212", "src/rcvlink.rs:249-290", "src/rcvlink.rs:301-451", "src/rcvlink.rs:471-475", "src/session.rs:338-380", "src/session.rs:695-769"]}
{"id": "C82", "title": "A failed handshake says why it failed", "statement": "When a handshake ends with an error, the error names its cause. Either the stream was closed, the time ran out, or the bytes received at that point are not a header or not a frame, and the error is the one for that; or an item of the peer is not the one due, all items before it were the right ones, and the error names that item (or the code of the SASL outcome that refused the client); or, on a server, the application's service declined. Violated: a client that receives another SASL frame instead of the outcome reports Disconnected.", "quantifier": "all configurations, all services of the application, all byte streams in all pieces, closed or timed out anywhere", "why_tests_cant": "tests look at a few ways of failing; that each error has only the cause it names is a statement about all failing runs", "anchors": ["src/client/connector.rs:162-293", "src/server/service.rs:264-319", "src/server/sasl.rs:60-260", "src/server/handshake.rs:52-81"]}
{"id": "C83", "title": "A server sets up a connection in order", "statement": "The task a server runs for a connection asks the application for the publish service only when the handshake has succeeded, for the control service only when the publish service has been made, and starts the dispatcher only when both have been; each once, in every execution; whatever fails, nothing follows. No frame is handled before both services exist; what arrives meanwhile is kept in order and handled then: the wait is a delay and nothing else, so everything proved of a client and a server from the first byte on holds of this task too. Violated: a factory that fails leaves the peer with an opened connection that is dropped without a Close; the handshake timeout does not cover the services, so a connection whose service is never made is kept for ever.", "quantifier": "all handshake programs, all services and factories of the application, all executions, all cuts of the stream", "why_tests_cant": "tests use factories that answer at once; the order against bytes, timers and calls of the application is one of very many", "anchors": ["src/server/service.rs:163-194", "src/server/handshake.rs:130-157", "src/server/error.rs:8-30"]}
{"id": "C84", "title": "No control call is left unattended while the dispatcher sleeps", "statement": "In every execution, while the task that polls the dispatcher sleeps, the control queue is empty and no call of the control service is answered without the answer having taken effect. An answer, a new call and a frame put into the queue each wake the task, and when it runs every answer given so far takes effect. Violated: a poll that ends with a protocol error stores the error and returns with the other calls unattended; the waker it uses is never registered, so nobody wakes the task for them or for the error.", "quantifier": "all executions of a connection under its dispatcher, all orders of calls, answers, frames and runs of the task", "why_tests_cant": "a lost wake-up needs one particular order of an answer and a poll; test services answer at once", "anchors": ["src/dispatcher.rs:51-56", "src/dispatcher.rs:105-150", "src/control.rs:78-88"]}
{"id": "C85", "title": "A task that waits for credit has none", "statement": "In every execution, a task that waits in SenderLink::ready and has not been woken has a link that is open and without credit, however many tasks wait on the link: every step that closes the link or leaves it with credit wakes all of them. ready answers true exactly for an open link with credit and false exactly for a closed one. The failure of the connection wakes those that wait on an established link, with false. Violated: a link the control service has been shown but has not accepted is not closed when the connection fails, nor when the service refuses it; a task that waits on it sleeps for ever.", "quantifier": "all executions of a session, all links, any number of tasks", "why_tests_cant": "a lost wake-up needs one particular order; with several tasks the orders multiply", "anchors": ["src/sndlink.rs:83-103", "src/sndlink.rs:245-275", "src/sndlink.rs:292-324", "src/sndlink.rs:408-417", "src/session.rs:555-591"]}
{"id": "C86", "title": "What Session::end reports, and when", "statement": "In every execution a session is over exactly when it has an error, so a future of Session::end that is woken finds the reason. The peer's End, whether it answers ours or comes first, completes the future: with the peer's error if it carries one, with success if not. The result stays the same ever after, and a further end does not wait. A failure of the connection completes the future for a session that is still established. Violated: a session that is being ended when the connection fails is dropped from the connection without being told, and its future is never completed by anything that happens later; and end on a session lost with its connection reports success.", "quantifier": "all executions of a connection, all sessions, all later steps", "why_tests_cant": "that a future is never completed is a statement about all continuations; a test can only wait for a while", "anchors": ["src/session.rs:101-128", "src/session.rs:345-380", "src/connection.rs:219-236", "src/connection.rs:445-470"]}
{"id": "C87", "title": "What the application looks up is what it asked for", "statement": "In every execution the error of a connection is the first one it was failed with; a waiter of on_close is completed exactly when there is an error; while the transport is up is_opened is true exactly when there is none, and never becomes true again. The session found under a local channel has that channel and has not failed, and none is found after a failure. The link found under a local handle has that handle, no two handles lead to the same link, and an open sender link with credit is found under its handle. A sender link is found under its name and both its handles when its attach is answered. Violated: get_sender_link returns a link of another name; a handle of the peer that was refused leads to another link; Connection::close changes nothing that on_close, is_opened, get_error or the lookups show, only the transport.", "quantifier": "all executions of a connection or session, all names, handles and channels", "why_tests_cant": "stale table entries appear only after particular histories of attaching, refusing and closing", "anchors": ["src/connection.rs:113-177", "src/connection.rs:219-236", "src/session.rs:130-160", "src/session.rs:593-609", "src/session.rs:771-788"]}
{"id": "C88", "title": "What is put into an AMQP value comes out of it", "statement": "For every item type with an array encoding and every list of well-formed items, Array::new followed by Array::decode gives the list, also after the value has been encoded, sent with anything behind it and decoded as a Variant; the bytes are those of the Vec itself, so either side may use either form; exactly as many items as announced are read. DescribedCompound::create followed by decode gives the value, also across the wire for compound encodings, in particular for every list of values; anything behind the value is refused. as_long and as_ulong give the very integer the value stands for, as_long for all integers but ulong, as_ulong for exactly the unsigned ones; as_str gives the text of strings and symbols and of nothing else.", "quantifier": "all item types with an array encoding, all lists, descriptors, values and following bytes", "why_tests_cant": "the claims range over all lists, both header widths and all integers; the tests of the crate try a handful", "anchors": ["codec/src/types/array.rs:15-58", "codec/src/types/variant.rs:105-166", "codec/src/types/variant.rs:199-240"]}
{"id": "C89", "title": "What is read from a message is what was put into it", "statement": "After any sequence of operations on a message that change properties by name, app_property and message_annotation give for every key the value present at the start or else the one set first; the receiver finds the same under every key; a reply carries the id of the message it answers as correlation id, also after it has travelled, and nothing else; with_body and set_data are read back by data, and set_data leaves the rest of the body; load_message gives the receiver of a transfer the message that was sent. Violated: a second setting of a property does not replace the first, both are sent in one map, and readers that use a map see the other value; a message without sections is not loaded; of several data sections only the first is given.", "quantifier": "all messages, all sequences of mutating calls with arbitrary closures, all keys", "why_tests_cant": "the tests set each property once and read it back at once", "anchors": ["codec/src/message/message.rs:105-175", "codec/src/message/message.rs:259-267", "codec/src/message/body.rs:17-34", "codec/src/protocol/mod.rs:242-259"]}
{"id": "C90", "title": "A client presents the credentials it was given", "statement": "In every execution of a client's SASL handshake, whatever the server sends, the only SASL frame the client sends is one PLAIN init with its credentials, after the server has answered the SASL header with the same; a client without credentials sends none. If none of the three parts contains NUL, the initial response has exactly one reading under RFC 4616, which is the three parts; different credentials give different responses; the init is decoded by the server to what was sent. Violated: a NUL in a part is not refused, and makes the response that of other credentials.", "quantifier": "all configurations, credentials, behaviours of the server and interleavings of arriving bytes", "why_tests_cant": "tests use one pair of name and password, without control characters, and a cooperative server", "anchors": ["codec/src/protocol/mod.rs:198-202", "src/client/connector.rs:162-233", "src/client/mod.rs:15-62"]}
{"id": "C91", "title": "The configuration is announced and understood", "statement": "After any sequence of calls of the builder methods of AmqpServiceConfig, the open announces for every setting what was set last, or the documented default; the idle timeout in milliseconds is the seconds set times 1000, without overflow, and zero is announced as none. The open is decoded by the peer to a RemoteServiceConfig with the same values. A timeout of two seconds or more makes a peer of this library send a frame at intervals of at least half a second and at most three eighths of the timeout. Violated: with a timeout of one second it sends none; a maximum frame size below 512 is announced like any other.", "quantifier": "all sequences of builder calls, all values, every admissible rounding of the floating-point computation", "why_tests_cant": "tests run with the default configuration", "anchors": ["src/lib.rs:103-256", "src/dispatcher.rs:31-50"]}
{"id": "C92", "title": "Lists of described items", "statement": "For every application type implementing Composite whose encoding is a compound value that round-trips, a ListDescribed that fits into an AMQP list is read back as it was, encoded_size is the number of bytes written, and a peer that does not know the type reads a list of described values with the descriptor and the bytes of each item. Of the lists a peer may send, only those are accepted in which every item is a compound under the descriptor of the type whose bytes are one encoding of it; any other descriptor is refused, also the other form (symbol or number) of the same one. Violated: a type whose encoding is no compound is written, and its list is refused on reading.", "quantifier": "all suitable item types, all lists that fit, all trailing bytes, all descriptors", "why_tests_cant": "no test in the repository encodes or decodes a ListDescribed; the property ranges over all implementations of the trait", "anchors": ["codec/src/codec/mod.rs:38-40", "codec/src/types/mod.rs:117-147", "codec/src/codec/encode.rs:656-692", "codec/src/codec/decode.rs:350-369"]}
{"id": "C93", "title": "Comparing values with text and constructors with descriptors", "statement": "A Variant equals a text exactly if it is the string or the symbol of that text, which is when as_str gives the text; strings and symbols of one text are not equal to each other. Constructor::ensure_described accepts exactly the constructors with the descriptor asked for; a refusal names the descriptor found, or the format code if there is none. Both come out alike for a value or constructor and for what the peer decodes from its encoding.", "quantifier": "all values, texts, constructors, descriptors, trailing bytes", "why_tests_cant": "ensure_described is called nowhere in the repository; the equivalences range over all values", "anchors": ["codec/src/types/variant.rs:189-197", "codec/src/types/mod.rs:38-53", "codec/src/types/mod.rs:215-219", "codec/src/types/symbol.rs:72-76"]}
{"id": "C94", "title": "Whom a failed connection is blamed on", "statement": "When a client's handshake fails, ErrorDiagnostic::typ says ClientError exactly if the server answered the client's credentials, after the SASL header and one SASL frame, with an outcome of code auth or sys-perm. A client that does not authenticate is never blamed. The signature for a timeout is given only if the handshake timed out, that for SASL only if an outcome other than ok came. Violated: sys-perm stands for a system error of the server (AMQP 1.0 5.3.3.6), yet it is put down to the client, unlike sys and sys-temp.", "quantifier": "all configurations, credentials and byte streams, in all chunks, with the end of stream and the timeout at any point", "why_tests_cant": "typ and signature are called by no code of the repository; the equivalence ranges over all executions of the handshake", "anchors": ["src/client/error.rs:65-88", "src/client/connector.rs:162-233"]}
{"id": "C95", "title": "The response to an attach is what the control service made of it", "statement": "A control service that is asked about an attach may change the response through Wrapper::with as often as it likes before it answers; the response the dispatcher then takes has all changes, in the order in which they were made. Operations panic only after the answer. Violated: a service that has kept its control frame and calls with after it has answered panics, whatever it wants with the response.", "quantifier": "all initial responses, all sequences of changes", "why_tests_cant": "the panic needs a service that keeps a frame beyond its answer; the order of changes is claimed for all sequences", "anchors": ["src/types.rs:131-154", "src/control.rs:28-31", "src/dispatcher.rs:51-55", "src/dispatcher.rs:331-356"]}
